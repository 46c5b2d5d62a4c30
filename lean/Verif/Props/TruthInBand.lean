/-
C206: the line of the blackbox function and the confidence lines of the surrogate in one plot.
-/
import Verif.Props.IceLines
import Verif.Props.SurrogatePlots
import Verif.Props.PlotFunction

namespace PyPDP
open Spec

/-- a line goes through its points -/
theorem on_grid_point {l u : ℝ} {g : Bool} {n : Nat} (hn : 2 ≤ n) {xs ys : List ℝ} {F : ℝ → ℝ}
    (h : ∀ i < n, xs[i]? = some (interpolate l u g (gridValue n i)) ∧ ys[i]? = some (F (gridValue n i))) {i : Nat} (hi : i < n) :
    OnLine g xs ys (interpolate l u g (gridValue n i)) (F (gridValue n i)) := by
  by_cases h1 : i + 1 < n
  · exact ⟨i, _, _, _, _, 0, (h i hi).1, (h (i + 1) h1).1, (h i hi).2, (h (i + 1) h1).2, le_rfl, zero_le_one, by ring, by ring⟩
  · obtain ⟨j, rfl⟩ : ∃ j, i = j + 1 := ⟨i - 1, by omega⟩
    exact ⟨j, _, _, _, _, 1, (h j (by omega)).1, (h (j + 1) hi).1, (h j (by omega)).2, (h (j + 1) hi).2, zero_le_one, le_rfl, by ring, by ring⟩

section
variable {p : Hp ℝ} {l u : ℝ} {g : Bool} {predict : Predict ℝ} {mu sd : List ℝ → ℝ} {n : Nat} {ax ax' : Ax ℝ} {V : ℝ → ℝ}

/-- **C206** The line of `plot_function` and the lines of the surrogate's `plot_confidences`, drawn with the same number `n` of samples per axis on the same kind of axis: the function stays between the
two lines at `k` standard deviations (`k` is 1 or 2) over every value between the bounds, exactly if the surrogate is off by at most `k` standard deviations at the `n` values of the axis.
And if it is, the true function (not just its line) leaves the area between the lines nowhere by more than `E / (2 (n - 1))`, if it changes by at most `E` times the change of the
normalised hyperparameter. -/
theorem C206_band (h : ValidNumerical p l u g) (hv : varying [p] = [p]) (hp : RowWise 1 predict mu sd) (hsd : ∀ r, 0 ≤ sd r) (hn : 2 ≤ n) (f : List (String × Val ℝ) → Py ℝ)
    (color lineColor gradientColor : String) (hax : checkAndSetAxis [p] true "Prediction" ax = (ax', .ok ())) (hlin : g = false → ax.xlog = false)
    (hV : ∀ consts, ConstantsOf [p] consts → ∀ a ∈ Set.Icc l u, f ((p.name, .num a) :: consts) = .ok (V a)) :
    ∃ xs zs xs' bands lo1 hi1 lo2 hi2, plotFunction f [p] n color ax = (ax'.draw [.line color xs zs], .ok ()) ∧
      surrogateConfidences lineColor gradientColor predict [p] n ax =
        (ax'.draw (bands ++ [.line lineColor xs' lo1, .line lineColor xs' hi1, .line lineColor xs' lo2, .line lineColor xs' hi2]), .ok ()) ∧ bands.length = 100 ∧
      ∀ k lo hi, (k, lo, hi) ∈ [((1 : ℝ), lo1, hi1), (2, lo2, hi2)] →
        (∀ t ∈ Set.Icc (0 : ℝ) 1, ∃ y z y', OnLine ax'.xlog xs' lo (interpolate l u g t) y ∧ OnLine ax'.xlog xs zs (interpolate l u g t) z ∧ OnLine ax'.xlog xs' hi (interpolate l u g t) y') ∧
        ((∀ t ∈ Set.Icc (0 : ℝ) 1, ∀ y z y', OnLine ax'.xlog xs' lo (interpolate l u g t) y → OnLine ax'.xlog xs zs (interpolate l u g t) z →
            OnLine ax'.xlog xs' hi (interpolate l u g t) y' → y ≤ z ∧ z ≤ y') ↔
          ∀ i < n, |mu [gridValue n i] - V (interpolate l u g (gridValue n i))| ≤ k * sd [gridValue n i]) ∧
        ∀ E, (∀ t ∈ Set.Icc (0 : ℝ) 1, ∀ t' ∈ Set.Icc (0 : ℝ) 1, |V (interpolate l u g t) - V (interpolate l u g t')| ≤ E * |t - t'|) →
          (∀ i < n, |mu [gridValue n i] - V (interpolate l u g (gridValue n i))| ≤ k * sd [gridValue n i]) → ∀ t ∈ Set.Icc (0 : ℝ) 1, ∀ y y',
            OnLine ax'.xlog xs' lo (interpolate l u g t) y → OnLine ax'.xlog xs' hi (interpolate l u g t) y' →
            y - E / (2 * ((n : ℝ) - 1)) ≤ V (interpolate l u g t) ∧ V (interpolate l u g t) ≤ y' + E / (2 * ((n : ℝ) - 1)) := by
  obtain ⟨xs, consts, h1, h2, h3, -⟩ := C73_one hv h hn f color hax
  have hval := evenAxis_values h.2.1 h.2.2 hn h1
  have hin : ∀ a ∈ xs, a ∈ Set.Icc l u := by
    intro a ha
    obtain ⟨i, hi, rfl⟩ := List.getElem_of_mem ha
    have hl0 : 0 < xs.length := by omega
    have hlast : xs.length - 1 < xs.length := by omega
    have e0 := h1.head
    have e1 := h1.last
    rw [← h1.length, List.getElem?_eq_getElem hlast] at e1
    rw [List.getElem?_eq_getElem hl0] at e0
    constructor
    · rw [← Option.some.inj e0]
      rcases Nat.eq_zero_or_pos i with rfl | hp
      · exact le_rfl
      · exact (List.pairwise_iff_getElem.1 h1.increasing 0 i hl0 hi hp).le
    · rw [← Option.some.inj e1]
      rcases Nat.lt_or_ge i (xs.length - 1) with h | h
      · exact (List.pairwise_iff_getElem.1 h1.increasing i _ hi hlast h).le
      · have : i = xs.length - 1 := by omega
        subst this
        exact le_rfl
  obtain ⟨xs', ys, s, shapes, c1, c2, c3, c4, c5, fs, bands, one, two, rfl, hb, hfl, -, -, -, ⟨lo1, hi1, rfl, l1, u1⟩, ⟨lo2, hi2, rfl, l2, u2⟩⟩ :=
    C85_confidences_one h hp hsd (by omega : 1 ≤ n) lineColor gradientColor hax
  refine ⟨xs, xs.map V, xs', bands, lo1, hi1, lo2, hi2, h3 V fun a ha => hV consts h2 a (hin a ha), by simpa using c1, hb.length_eq.symm.trans hfl, ?_⟩
  rw [axis_scale h.1 hax hlin]
  have hn1 : (0 : ℝ) < (n : ℝ) - 1 := by
    have : (2 : ℝ) ≤ n := by exact_mod_cast hn
    linarith
  have hgv : ∀ i < n, gridValue n i ∈ Set.Icc (0 : ℝ) 1 := fun i hi => gridValue_unit hi
  have hz : ∀ i < n, xs[i]? = some (interpolate l u g (gridValue n i)) ∧ (xs.map V)[i]? = some ((fun t => V (interpolate l u g t)) (gridValue n i)) := fun i hi =>
    ⟨hval i hi, by rw [List.getElem?_map, hval i hi]; rfl⟩
  have hoff : ∀ k zs, OffsetOf k ys s zs → ∀ i < n, xs'[i]? = some (interpolate l u g (gridValue n i)) ∧ zs[i]? = some ((fun t => mu [t] + k * sd [t]) (gridValue n i)) := by
    intro k zs hz i hi
    obtain ⟨a1, a2, a3⟩ := c5 i hi
    exact ⟨a1, hz.2 i _ _ a2 a3⟩
  have both : ∀ k lo hi, OffsetOf (-k) ys s lo → OffsetOf k ys s hi →
      (∀ t ∈ Set.Icc (0 : ℝ) 1, ∃ y z y', OnLine g xs' lo (interpolate l u g t) y ∧ OnLine g xs (xs.map V) (interpolate l u g t) z ∧ OnLine g xs' hi (interpolate l u g t) y') ∧
        ((∀ t ∈ Set.Icc (0 : ℝ) 1, ∀ y z y', OnLine g xs' lo (interpolate l u g t) y → OnLine g xs (xs.map V) (interpolate l u g t) z →
            OnLine g xs' hi (interpolate l u g t) y' → y ≤ z ∧ z ≤ y') ↔
          ∀ i < n, |mu [gridValue n i] - V (interpolate l u g (gridValue n i))| ≤ k * sd [gridValue n i]) ∧
        ∀ E, (∀ t ∈ Set.Icc (0 : ℝ) 1, ∀ t' ∈ Set.Icc (0 : ℝ) 1, |V (interpolate l u g t) - V (interpolate l u g t')| ≤ E * |t - t'|) →
          (∀ i < n, |mu [gridValue n i] - V (interpolate l u g (gridValue n i))| ≤ k * sd [gridValue n i]) → ∀ t ∈ Set.Icc (0 : ℝ) 1, ∀ y y',
            OnLine g xs' lo (interpolate l u g t) y → OnLine g xs' hi (interpolate l u g t) y' →
            y - E / (2 * ((n : ℝ) - 1)) ≤ V (interpolate l u g t) ∧ V (interpolate l u g t) ≤ y' + E / (2 * ((n : ℝ) - 1)) := by
    intro k lo hi hlo hhi
    have inside : (∀ i < n, |mu [gridValue n i] - V (interpolate l u g (gridValue n i))| ≤ k * sd [gridValue n i]) → ∀ t, ∀ y z y', OnLine g xs' lo (interpolate l u g t) y →
        OnLine g xs (xs.map V) (interpolate l u g t) z → OnLine g xs' hi (interpolate l u g t) y' → y ≤ z ∧ z ≤ y' := by
      intro hk t y z y' hy hz' hy'
      obtain ⟨i, w, hi, w0, w1, hT, rfl⟩ := on_grid_line (F := fun t => V (interpolate l u g t)) h.2.1 h.2.2 hn h1.length hz hz'
      obtain ⟨i1, v1, -, a0, a1, hT1, e1⟩ := on_grid_line (F := fun t => mu [t] + -k * sd [t]) h.2.1 h.2.2 hn c2 (hoff _ _ hlo) hy
      obtain ⟨i2, v2, -, b0, b1, hT2, e2⟩ := on_grid_line (F := fun t => mu [t] + k * sd [t]) h.2.1 h.2.2 hn c2 (hoff _ _ hhi) hy'
      rw [chord_unique a0 a1 w0 w1 hT1 hT fun t => mu [t] + -k * sd [t]] at e1
      rw [chord_unique b0 b1 w0 w1 hT2 hT fun t => mu [t] + k * sd [t]] at e2
      have k1 := abs_le.1 (hk i (by omega))
      have k2 := abs_le.1 (hk (i + 1) hi)
      have w2 : 0 ≤ 1 - w := by linarith
      rw [e1, e2]
      constructor
      · exact add_le_add (mul_le_mul_of_nonneg_left (by linarith [k1.2]) w2) (mul_le_mul_of_nonneg_left (by linarith [k2.2]) w0)
      · exact add_le_add (mul_le_mul_of_nonneg_left (by linarith [k1.1]) w2) (mul_le_mul_of_nonneg_left (by linarith [k2.1]) w0)
    refine ⟨fun t ht => ?_, ⟨fun hall i hi => ?_, fun hk t _ => inside hk t⟩, fun E hE hk t ht y y' hy hy' => ?_⟩
    · obtain ⟨y, hy⟩ := (line_points (F := fun t => mu [t] + -k * sd [t]) h.2.1 h.2.2 hn c2 (hoff _ _ hlo) ht).1
      obtain ⟨z, hz'⟩ := (line_points (F := fun t => V (interpolate l u g t)) h.2.1 h.2.2 hn h1.length hz ht).1
      obtain ⟨y', hy'⟩ := (line_points (F := fun t => mu [t] + k * sd [t]) h.2.1 h.2.2 hn c2 (hoff _ _ hhi) ht).1
      exact ⟨y, z, y', hy, hz', hy'⟩
    · obtain ⟨q1, q2⟩ := hall _ (hgv i hi) _ _ _ (on_grid_point (F := fun t => mu [t] + -k * sd [t]) hn (hoff _ _ hlo) hi)
        (on_grid_point (F := fun t => V (interpolate l u g t)) hn hz hi) (on_grid_point (F := fun t => mu [t] + k * sd [t]) hn (hoff _ _ hhi) hi)
      rw [abs_le]
      constructor <;> linarith
    · have hpts := line_points (F := fun t => V (interpolate l u g t)) h.2.1 h.2.2 hn h1.length hz ht
      obtain ⟨z, hz'⟩ := hpts.1
      have hnear : |z - V (interpolate l u g t)| ≤ E / (2 * ((n : ℝ) - 1)) := by
        obtain ⟨a, b, w, ha, hb, hab, w0, w1, rfl, rfl⟩ := hpts.2 z hz'
        have hpos : 0 < b - a := by rw [hab]; positivity
        refine (chord_lipschitz (F := fun t => V (interpolate l u g t)) hE ha hb (by linarith) w0 w1).trans_eq ?_
        rw [hab]
        field_simp
      obtain ⟨q1, q2⟩ := inside hk t y z y' hy hz' hy'
      have := abs_le.1 hnear
      constructor <;> linarith
  intro k lo hi hin
  simp only [List.mem_cons, Prod.mk.injEq, List.not_mem_nil, or_false] at hin
  rcases hin with ⟨rfl, rfl, rfl⟩ | ⟨rfl, rfl, rfl⟩
  · exact both 1 _ _ l1 u1
  · exact both 2 _ _ l2 u2

end

/-- a surrogate that predicts the square plus 3/2 with standard deviation 1: the line of the square stays between the lines at two standard deviations, and does not between those at one -/
example : ∃ xs zs xs' bands lo1 hi1 lo2 hi2,
    plotFunction (fun kw => match kw with | (_, .num a) :: _ => .ok (a ^ 2) | _ => .error .type) [⟨"x", .float 0 2 false⟩] 11 "red" (Ax.new : Ax ℝ) =
      ((⟨"x", "Prediction", false, false, some (0, 2), none, []⟩ : Ax ℝ).draw [.line "red" xs zs], .ok ()) ∧
    surrogateConfidences "blue" "grey" (fun X => .ok (X.map fun r => (2 * r.getD 0 0) ^ 2 + 3 / 2, X.map fun _ => 1)) [⟨"x", .float 0 2 false⟩] 11 (Ax.new : Ax ℝ) =
      ((⟨"x", "Prediction", false, false, some (0, 2), none, []⟩ : Ax ℝ).draw (bands ++ [.line "blue" xs' lo1, .line "blue" xs' hi1, .line "blue" xs' lo2, .line "blue" xs' hi2]), .ok ()) ∧
    (∀ t ∈ Set.Icc (0 : ℝ) 1, ∀ y z y', OnLine false xs' lo2 (interpolate 0 2 false t) y → OnLine false xs zs (interpolate 0 2 false t) z →
      OnLine false xs' hi2 (interpolate 0 2 false t) y' → y ≤ z ∧ z ≤ y') ∧
    ¬ ∀ t ∈ Set.Icc (0 : ℝ) 1, ∀ y z y', OnLine false xs' lo1 (interpolate 0 2 false t) y → OnLine false xs zs (interpolate 0 2 false t) z →
      OnLine false xs' hi1 (interpolate 0 2 false t) y' → y ≤ z ∧ z ≤ y' := by
  obtain ⟨xs, zs, xs', bands, lo1, hi1, lo2, hi2, h1, h2, -, h3⟩ := C206_band (p := ⟨"x", .float 0 2 false⟩) (l := 0) (u := 2) (g := false) ⟨.inl rfl, by norm_num, by simp⟩ rfl
    (predict := fun X => .ok (X.map fun r => (2 * r.getD 0 0) ^ 2 + 3 / 2, X.map fun _ => 1)) (mu := fun r => (2 * r.getD 0 0) ^ 2 + 3 / 2) (sd := fun _ => 1) (fun _ _ _ => rfl)
    (fun _ => zero_le_one) (n := 11) (by norm_num) (fun kw => match kw with | (_, .num a) :: _ => .ok (a ^ 2) | _ => .error .type) "red" "blue" "grey" (ax := Ax.new)
    (ax' := ⟨"x", "Prediction", false, false, some (0, 2), none, []⟩) rfl (fun _ => rfl) (V := fun a => a ^ 2) (fun _ _ _ _ => rfl)
  have hd : ∀ i, |(2 * [gridValue 11 i].getD 0 0) ^ 2 + 3 / 2 - interpolate (0 : ℝ) 2 false (gridValue 11 i) ^ 2| = 3 / 2 := by
    intro i
    rw [show (2 * [gridValue 11 i].getD 0 0) ^ 2 + 3 / 2 - interpolate (0 : ℝ) 2 false (gridValue 11 i) ^ 2 = 3 / 2 by simp [interpolate]; ring, abs_of_pos (by norm_num)]
  refine ⟨xs, zs, xs', bands, lo1, hi1, lo2, hi2, h1, h2, (h3 2 lo2 hi2 (by simp)).2.1.2 fun i _ => ?_, fun hall => ?_⟩
  · rw [hd]
    norm_num
  · have := (h3 1 lo1 hi1 (by simp)).2.1.1 hall 0 (by norm_num)
    rw [hd] at this
    norm_num at this

end PyPDP
