/-
C207: the plots of the blackbox function and of the surrogate's means and standard deviations, compared.
-/
import Verif.Props.TruthInBand

namespace PyPDP
open Spec

/-- the values of an axis are between its ends -/
theorem evenAxis_inside {l u : ℝ} {g : Bool} {n : Nat} (hn : 2 ≤ n) {xs : List ℝ} (h : EvenAxis l u g n xs) : ∀ a ∈ xs, a ∈ Set.Icc l u := by
  intro a ha
  obtain ⟨i, hi, rfl⟩ := List.getElem_of_mem ha
  have hlen := h.length
  have hl0 : 0 < xs.length := by omega
  have hlast : xs.length - 1 < xs.length := by omega
  have e0 := h.head
  have e1 := h.last
  rw [← h.length, List.getElem?_eq_getElem hlast] at e1
  rw [List.getElem?_eq_getElem hl0] at e0
  constructor
  · rw [← Option.some.inj e0]
    rcases Nat.eq_zero_or_pos i with rfl | hp
    · exact le_rfl
    · exact (List.pairwise_iff_getElem.1 h.increasing 0 i hl0 hi hp).le
  · rw [← Option.some.inj e1]
    rcases Nat.lt_or_ge i (xs.length - 1) with hlt | hge
    · exact (List.pairwise_iff_getElem.1 h.increasing i _ hi hlast hlt).le
    · have : i = xs.length - 1 := by omega
      subst this
      exact le_rfl

/-- two axes with the same values are equal -/
theorem same_axis {n : Nat} {xs xs' : List ℝ} {X : Nat → ℝ} (hl : xs.length = n) (hl' : xs'.length = n) (h : ∀ i < n, xs[i]? = some (X i)) (h' : ∀ i < n, xs'[i]? = some (X i)) :
    xs = xs' := by
  refine List.ext_getElem? fun i => ?_
  by_cases hi : i < n
  · rw [h i hi, h' i hi]
  · rw [List.getElem?_eq_none (by omega), List.getElem?_eq_none (by omega)]

section
variable {p q : Hp ℝ} {l u l' u' : ℝ} {g g' : Bool} {predict : Predict ℝ} {mu sd : List ℝ → ℝ} {n : Nat} {ax ax' : Ax ℝ}

/-- **C207** one hyperparameter: the lines of `plot_function` and of the surrogate's `plot_means` with the same number of samples per axis have the same x values, and the largest distance of the
two lines, over all values between the bounds, is the largest error of the surrogate's mean at the values of the axis. Also one line is nowhere below the other exactly if this is
so at the values of the axis. -/
theorem C207_lines (h : ValidNumerical p l u g) (hv : varying [p] = [p]) (hp : RowWise 1 predict mu sd) (hn : 2 ≤ n) (f : List (String × Val ℝ) → Py ℝ) (color color' : String)
    (hax : checkAndSetAxis [p] true "Prediction" ax = (ax', .ok ())) (hlin : g = false → ax.xlog = false) {V : ℝ → ℝ}
    (hV : ∀ consts, ConstantsOf [p] consts → ∀ a ∈ Set.Icc l u, f ((p.name, .num a) :: consts) = .ok (V a)) :
    ∃ xs zs ys, plotFunction f [p] n color ax = (ax'.draw [.line color xs zs], .ok ()) ∧ surrogateMeans color' predict [p] n ax = (ax'.draw [.line color' xs ys], .ok ()) ∧
      (∀ δ, (∀ t ∈ Set.Icc (0 : ℝ) 1, ∀ y z, OnLine ax'.xlog xs ys (interpolate l u g t) y → OnLine ax'.xlog xs zs (interpolate l u g t) z → |y - z| ≤ δ) ↔
        ∀ i < n, |mu [gridValue n i] - V (interpolate l u g (gridValue n i))| ≤ δ) ∧
      ((∀ t ∈ Set.Icc (0 : ℝ) 1, ∀ y z, OnLine ax'.xlog xs ys (interpolate l u g t) y → OnLine ax'.xlog xs zs (interpolate l u g t) z → z ≤ y) ↔
        ∀ i < n, V (interpolate l u g (gridValue n i)) ≤ mu [gridValue n i]) := by
  obtain ⟨xs, consts, h1, h2, h3, -⟩ := C73_one hv h hn f color hax
  have hval := evenAxis_values h.2.1 h.2.2 hn h1
  obtain ⟨xs', ys, c1, c2, c3, c4⟩ := C85_means_one h hp (by omega : 1 ≤ n) color' hax
  obtain rfl := same_axis h1.length c2 hval fun i hi => (c4 i hi).1
  refine ⟨xs, xs.map V, ys, h3 V fun a ha => hV consts h2 a (evenAxis_inside hn h1 a ha), c1, ?_⟩
  rw [axis_scale h.1 hax hlin]
  have hz : ∀ i < n, xs[i]? = some (interpolate l u g (gridValue n i)) ∧ (xs.map V)[i]? = some ((fun t => V (interpolate l u g t)) (gridValue n i)) := fun i hi =>
    ⟨hval i hi, by rw [List.getElem?_map, hval i hi]; rfl⟩
  have hm : ∀ i < n, xs[i]? = some (interpolate l u g (gridValue n i)) ∧ ys[i]? = some ((fun t => mu [t]) (gridValue n i)) := c4
  have diff : ∀ t y z, OnLine g xs ys (interpolate l u g t) y → OnLine g xs (xs.map V) (interpolate l u g t) z → ∃ i w, i + 1 < n ∧ 0 ≤ w ∧ w ≤ 1 ∧
      y - z = (1 - w) * (mu [gridValue n i] - V (interpolate l u g (gridValue n i))) + w * (mu [gridValue n (i + 1)] - V (interpolate l u g (gridValue n (i + 1)))) := by
    intro t y z hy hz'
    obtain ⟨i, w, hi, w0, w1, hT, rfl⟩ := on_grid_line (F := fun t => V (interpolate l u g t)) h.2.1 h.2.2 hn c2 hz hz'
    obtain ⟨i1, v1, -, a0, a1, hT1, e1⟩ := on_grid_line (F := fun t => mu [t]) h.2.1 h.2.2 hn c2 hm hy
    rw [chord_unique a0 a1 w0 w1 hT1 hT fun t => mu [t]] at e1
    exact ⟨i, w, hi, w0, w1, by rw [e1]; ring⟩
  have atGrid : ∀ i < n, OnLine g xs ys (interpolate l u g (gridValue n i)) (mu [gridValue n i]) ∧
      OnLine g xs (xs.map V) (interpolate l u g (gridValue n i)) (V (interpolate l u g (gridValue n i))) := fun i hi =>
    ⟨on_grid_point (F := fun t => mu [t]) hn hm hi, on_grid_point (F := fun t => V (interpolate l u g t)) hn hz hi⟩
  refine ⟨fun δ => ⟨fun hall i hi => hall _ (gridValue_unit hi) _ _ (atGrid i hi).1 (atGrid i hi).2, fun hδ t _ y z hy hz' => ?_⟩,
    fun hall i hi => hall _ (gridValue_unit hi) _ _ (atGrid i hi).1 (atGrid i hi).2, fun hle t _ y z hy hz' => ?_⟩
  · obtain ⟨i, w, hi, w0, w1, e⟩ := diff t y z hy hz'
    have k1 := abs_le.1 (hδ i (by omega))
    have k2 := abs_le.1 (hδ (i + 1) hi)
    have w2 : 0 ≤ 1 - w := by linarith
    rw [e, abs_le]
    constructor <;> nlinarith
  · obtain ⟨i, w, hi, w0, w1, e⟩ := diff t y z hy hz'
    have k1 := sub_nonneg.2 (hle i (by omega))
    have k2 := sub_nonneg.2 (hle (i + 1) hi)
    have w2 : 0 ≤ 1 - w := by linarith
    have := add_nonneg (mul_nonneg w2 k1) (mul_nonneg w0 k2)
    linarith

/-- **C207** two hyperparameters: `plot_function`, `plot_means` and `plot_confidences` draw meshes over the same axes, in the same orientation: the colours of the function are, cell by cell, within `k`
times the colours of the confidences of the colours of the means, exactly if the surrogate is off by at most `k` standard deviations at the pairs of values of the axes. -/
theorem C207_meshes (h : ValidNumerical p l u g) (h' : ValidNumerical q l' u' g') (hv : varying [p, q] = [p, q]) (hp : RowWise 2 predict mu sd) (hn : 2 ≤ n)
    (f : List (String × Val ℝ) → Py ℝ) (color color' lineColor gradientColor : String) (hax : checkAndSetAxis [p, q] true "Prediction" ax = (ax', .ok ())) {V : ℝ → ℝ → ℝ}
    (hV : ∀ consts, ConstantsOf [p, q] consts → ∀ a ∈ Set.Icc l u, ∀ b ∈ Set.Icc l' u', f ((p.name, .num a) :: (q.name, .num b) :: consts) = .ok (V a b)) :
    ∃ xs ys zf zm zs, plotFunction f [p, q] n color ax = (ax'.draw [.mesh xs ys zf], .ok ()) ∧ surrogateMeans color' predict [p, q] n ax = (ax'.draw [.mesh xs ys zm], .ok ()) ∧
      surrogateConfidences lineColor gradientColor predict [p, q] n ax = (ax'.draw [.mesh xs ys zs], .ok ()) ∧ Shape2 n n zf ∧ Shape2 n n zm ∧ Shape2 n n zs ∧
      ∀ k, (∀ r c v m s, at2 zf r c = some v → at2 zm r c = some m → at2 zs r c = some s → |m - v| ≤ k * s) ↔
        ∀ i < n, ∀ j < n, |mu [gridValue n i, gridValue n j] - V (interpolate l u g (gridValue n i)) (interpolate l' u' g' (gridValue n j))| ≤ k * sd [gridValue n i, gridValue n j] := by
  obtain ⟨xs, ys, consts, h1, h1', h2, h3, -⟩ := C73_two hv h h' hn f color hax
  have hval := evenAxis_values h.2.1 h.2.2 hn h1
  have hval' := evenAxis_values h'.2.1 h'.2.2 hn h1'
  obtain ⟨xs1, ys1, zm, a1, a2, a3, a4, a5, a6⟩ := C85_means_two h h' hp (by omega : 1 ≤ n) color' hax
  obtain ⟨xs2, ys2, zs, b1, b2, b3, b4, b5, b6⟩ := C85_confidences_two h h' hp (by omega : 1 ≤ n) lineColor gradientColor hax
  obtain rfl := same_axis h1.length a2 hval fun i hi => (a5 i hi).1
  obtain rfl := same_axis h1.length b2 hval fun i hi => (b5 i hi).1
  obtain rfl := same_axis h1'.length a3 hval' fun i hi => (a5 i hi).2
  obtain rfl := same_axis h1'.length b3 hval' fun i hi => (b5 i hi).2
  have hcell : ∀ i < n, ∀ j < n, at2 (ys.map fun b => xs.map fun a => V a b) j i = some (V (interpolate l u g (gridValue n i)) (interpolate l' u' g' (gridValue n j))) := by
    intro i hi j hj
    simp [at2, hval i hi, hval' j hj]
  refine ⟨xs, ys, _, zm, zs, h3 V fun a ha b hb => hV consts h2 a (evenAxis_inside hn h1 a ha) b (evenAxis_inside hn h1' b hb), a1, b1,
    ⟨by rw [List.length_map, h1'.length], ?_⟩, a4, b4, fun k => ⟨fun hall i hi j hj => hall j i _ _ _ (hcell i hi j hj) (a6 i hi j hj) (b6 i hi j hj), ?_⟩⟩
  · intro r hr
    obtain ⟨b, -, rfl⟩ := List.mem_map.1 hr
    rw [List.length_map, h1.length]
  · intro hk r c v m s hv' hm hs
    have hr : r < n := by
      by_contra hr
      rw [at2, List.getElem?_eq_none (by rw [List.length_map, h1'.length]; omega)] at hv'
      simp at hv'
    have hc : c < n := by
      by_contra hc
      simp [at2, hval' r hr, List.getElem?_eq_none (show xs.length ≤ c by rw [h1.length]; omega)] at hv'
    rw [hcell c hc r hr] at hv'
    rw [a6 c hc r hr] at hm
    rw [b6 c hc r hr] at hs
    obtain rfl := Option.some.inj hv'
    obtain rfl := Option.some.inj hm
    obtain rfl := Option.some.inj hs
    exact hk c hc r hr

end

/-- a surrogate that predicts the square plus 3/2: the lines are nowhere further apart than 3/2, but not everywhere within 1 -/
example : ∃ xs zs ys, plotFunction (fun kw => match kw with | (_, .num a) :: _ => .ok (a ^ 2) | _ => .error .type) [⟨"x", .float 0 2 false⟩] 11 "red" (Ax.new : Ax ℝ) =
      ((⟨"x", "Prediction", false, false, some (0, 2), none, []⟩ : Ax ℝ).draw [.line "red" xs zs], .ok ()) ∧
    surrogateMeans "blue" (fun X => .ok (X.map fun r => (2 * r.getD 0 0) ^ 2 + 3 / 2, X.map fun _ => 1)) [⟨"x", .float 0 2 false⟩] 11 (Ax.new : Ax ℝ) =
      ((⟨"x", "Prediction", false, false, some (0, 2), none, []⟩ : Ax ℝ).draw [.line "blue" xs ys], .ok ()) ∧
    (∀ t ∈ Set.Icc (0 : ℝ) 1, ∀ y z, OnLine false xs ys (interpolate 0 2 false t) y → OnLine false xs zs (interpolate 0 2 false t) z → |y - z| ≤ 3 / 2) ∧
    ¬ ∀ t ∈ Set.Icc (0 : ℝ) 1, ∀ y z, OnLine false xs ys (interpolate 0 2 false t) y → OnLine false xs zs (interpolate 0 2 false t) z → |y - z| ≤ 1 := by
  obtain ⟨xs, zs, ys, h1, h2, h3, -⟩ := C207_lines (p := ⟨"x", .float 0 2 false⟩) (l := 0) (u := 2) (g := false) ⟨.inl rfl, by norm_num, by simp⟩ rfl
    (predict := fun X => .ok (X.map fun r => (2 * r.getD 0 0) ^ 2 + 3 / 2, X.map fun _ => 1)) (mu := fun r => (2 * r.getD 0 0) ^ 2 + 3 / 2) (sd := fun _ => 1) (fun _ _ _ => rfl)
    (n := 11) (by norm_num) (fun kw => match kw with | (_, .num a) :: _ => .ok (a ^ 2) | _ => .error .type) "red" "blue" (ax := Ax.new)
    (ax' := ⟨"x", "Prediction", false, false, some (0, 2), none, []⟩) rfl (fun _ => rfl) (V := fun a => a ^ 2) (fun _ _ _ _ => rfl)
  have hd : ∀ i, |(2 * [gridValue 11 i].getD 0 0) ^ 2 + 3 / 2 - interpolate (0 : ℝ) 2 false (gridValue 11 i) ^ 2| = 3 / 2 := by
    intro i
    rw [show (2 * [gridValue 11 i].getD 0 0) ^ 2 + 3 / 2 - interpolate (0 : ℝ) 2 false (gridValue 11 i) ^ 2 = 3 / 2 by simp [interpolate]; ring, abs_of_pos (by norm_num)]
  refine ⟨xs, zs, ys, h1, h2, (h3 (3 / 2)).2 fun i _ => (hd i).le, fun hall => ?_⟩
  have := (h3 1).1 hall 0 (by norm_num)
  rw [hd] at this
  norm_num at this

/-- a function of two hyperparameters that is not symmetric, and a surrogate that is exact: the two meshes are equal cell by cell -/
example : ∃ xs ys zf zm, plotFunction (fun kw => match kw with | [(_, .num a), (_, .num b)] => .ok (a - 3 * b) | _ => .error .type) [⟨"x", .float 0 2 false⟩, ⟨"y", .float 0 1 false⟩] 5
      "red" (Ax.new : Ax ℝ) = ((⟨"x", "y", false, false, some (0, 2), some (0, 1), []⟩ : Ax ℝ).draw [.mesh xs ys zf], .ok ()) ∧
    surrogateMeans "blue" (fun X => .ok (X.map fun r => 2 * r.getD 0 0 - 3 * r.getD 1 0, X.map fun _ => 1)) [⟨"x", .float 0 2 false⟩, ⟨"y", .float 0 1 false⟩] 5 (Ax.new : Ax ℝ) =
      ((⟨"x", "y", false, false, some (0, 2), some (0, 1), []⟩ : Ax ℝ).draw [.mesh xs ys zm], .ok ()) ∧
    ∀ r < 5, ∀ c < 5, ∀ v m, at2 zf r c = some v → at2 zm r c = some m → m = v := by
  obtain ⟨xs, ys, zf, zm, zs, h1, h2, -, -, -, hs, h3⟩ := C207_meshes (p := ⟨"x", .float 0 2 false⟩) (q := ⟨"y", .float 0 1 false⟩) (l := 0) (u := 2) (g := false) (l' := 0) (u' := 1)
    (g' := false) ⟨.inl rfl, by norm_num, by simp⟩ ⟨.inl rfl, by norm_num, by simp⟩ rfl (predict := fun X => .ok (X.map fun r => 2 * r.getD 0 0 - 3 * r.getD 1 0, X.map fun _ => 1))
    (mu := fun r => 2 * r.getD 0 0 - 3 * r.getD 1 0) (sd := fun _ => 1) (fun _ _ _ => rfl) (n := 5) (by norm_num)
    (fun kw => match kw with | [(_, .num a), (_, .num b)] => .ok (a - 3 * b) | _ => .error .type) "red" "blue" "green" "grey" (ax := Ax.new)
    (ax' := ⟨"x", "y", false, false, some (0, 2), some (0, 1), []⟩) rfl (V := fun a b => a - 3 * b) (by
      intro consts hc a _ b _
      obtain rfl : consts = [] := by
        refine List.eq_nil_iff_forall_not_mem.2 fun e he => ?_
        have := (hc.2 e.1 e.2).1 he
        simp at this
      rfl)
  refine ⟨xs, ys, zf, zm, h1, h2, fun r hr c hc v m hv hm => ?_⟩
  have hrl : r < zs.length := by rw [hs.1]; exact hr
  have hcl : c < (zs[r]).length := by rw [hs.2 _ (List.getElem_mem hrl)]; exact hc
  have := (h3 0).2 (by
    intro i _ j _
    simp [interpolate]
    ring_nf) r c v m (zs[r])[c] hv hm (by simp [at2, hrl, hcl])
  rw [zero_mul] at this
  exact sub_eq_zero.1 (abs_nonpos_iff.1 this)

end PyPDP
