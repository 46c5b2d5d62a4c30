/-
C208: the blackbox function, the surrogate's means and its confidences drawn one after the other on one axis.
-/
import Verif.Props.TruthAndMeans
import Verif.Props.AdvancedPlots

namespace PyPDP
open Spec

/-- a list given by its entries -/
private theorem listed {xs : List ℝ} {n : Nat} {X : Nat → ℝ} (hl : xs.length = n) (h : ∀ i < n, xs[i]? = some (X i)) : xs = (List.range n).map X :=
  same_axis hl (by simp) h fun i hi => by simp [hi]

section
variable {p : Hp ℝ} {l u : ℝ} {g : Bool} {predict : Predict ℝ} {mu sd : List ℝ → ℝ} {n : Nat} {V : ℝ → ℝ} {f : List (String × Val ℝ) → Py ℝ}

theorem blackbox_line (h : ValidNumerical p l u g) (hv : varying [p] = [p]) (hn : 2 ≤ n) (color : String)
    (hV : ∀ consts, ConstantsOf [p] consts → ∀ a ∈ Set.Icc l u, f ((p.name, .num a) :: consts) = .ok (V a)) {ax ax' : Ax ℝ}
    (hax : checkAndSetAxis [p] true "Prediction" ax = (ax', .ok ())) :
    plotFunction f [p] n color ax = (ax'.draw [.line color ((List.range n).map fun i => interpolate l u g (gridValue n i))
      ((List.range n).map fun i => V (interpolate l u g (gridValue n i)))], .ok ()) := by
  obtain ⟨xs, consts, h1, h2, h3, -⟩ := C73_one hv h hn f color hax
  have hx := listed h1.length (evenAxis_values h.2.1 h.2.2 hn h1)
  rw [h3 V fun a ha => hV consts h2 a (evenAxis_inside hn h1 a ha), hx, List.map_map]
  rfl

theorem means_line (h : ValidNumerical p l u g) (hp : RowWise 1 predict mu sd) (hn : 2 ≤ n) (color : String) {ax ax' : Ax ℝ}
    (hax : checkAndSetAxis [p] true "Prediction" ax = (ax', .ok ())) :
    surrogateMeans color predict [p] n ax = (ax'.draw [.line color ((List.range n).map fun i => interpolate l u g (gridValue n i))
      ((List.range n).map fun i => mu [gridValue n i])], .ok ()) := by
  obtain ⟨xs, ys, c1, c2, c3, c4⟩ := C85_means_one h hp (by omega : 1 ≤ n) color hax
  rw [c1, listed c2 fun i hi => (c4 i hi).1, listed c3 fun i hi => (c4 i hi).2]

/-- **C208** One picture: the calls `plot_function`, `plot_means` and `plot_confidences` one after the other on the same axis succeed and add, in this order and to what was there, the line of the
function, the line of the means, 100 bands and the two pairs of lines. In this picture, over all values between the bounds: the function stays between the lines at `k` standard deviations exactly if the
surrogate is off by at most `k` standard deviations at the values of the axis, and the two curves are within `δ` exactly if the mean is off by at most `δ` there. -/
theorem C208_picture (h : ValidNumerical p l u g) (hv : varying [p] = [p]) (hp : RowWise 1 predict mu sd) (hsd : ∀ r, 0 ≤ sd r) (hn : 2 ≤ n) (color color' lineColor gradientColor : String)
    {ax ax' : Ax ℝ} (hax : checkAndSetAxis [p] true "Prediction" ax = (ax', .ok ())) (hlin : g = false → ax.xlog = false)
    (hV : ∀ consts, ConstantsOf [p] consts → ∀ a ∈ Set.Icc l u, f ((p.name, .num a) :: consts) = .ok (V a)) :
    ∃ xs zs ys xs' bands lo1 hi1 lo2 hi2,
      (do plotFunction f [p] n color
          surrogateMeans color' predict [p] n
          surrogateConfidences lineColor gradientColor predict [p] n : Plot ℝ Unit) ax =
        (ax'.draw ([.line color xs zs, .line color' xs ys] ++ (bands ++ [.line lineColor xs' lo1, .line lineColor xs' hi1, .line lineColor xs' lo2, .line lineColor xs' hi2])), .ok ()) ∧
      bands.length = 100 ∧
      (∀ δ, (∀ t ∈ Set.Icc (0 : ℝ) 1, ∀ y z, OnLine ax'.xlog xs ys (interpolate l u g t) y → OnLine ax'.xlog xs zs (interpolate l u g t) z → |y - z| ≤ δ) ↔
        ∀ i < n, |mu [gridValue n i] - V (interpolate l u g (gridValue n i))| ≤ δ) ∧
      ∀ k lo hi, (k, lo, hi) ∈ [((1 : ℝ), lo1, hi1), (2, lo2, hi2)] →
        ((∀ t ∈ Set.Icc (0 : ℝ) 1, ∀ y z y', OnLine ax'.xlog xs' lo (interpolate l u g t) y → OnLine ax'.xlog xs zs (interpolate l u g t) z →
            OnLine ax'.xlog xs' hi (interpolate l u g t) y' → y ≤ z ∧ z ≤ y') ↔
          ∀ i < n, |mu [gridValue n i] - V (interpolate l u g (gridValue n i))| ≤ k * sd [gridValue n i]) := by
  have hscale := axis_scale h.1 hax hlin
  have again : ∀ S, checkAndSetAxis [p] true "Prediction" (ax'.draw S) = (ax'.draw S, .ok ()) := axis_again hax
  obtain ⟨xs, zs, ys, a1, a2, a3, -⟩ := C207_lines h hv hp hn f color color' hax hlin hV
  rw [blackbox_line h hv hn color hV hax] at a1
  rw [means_line h hp hn color' hax] at a2
  simp only [Ax.draw, Prod.mk.injEq, Ax.mk.injEq, List.append_cancel_left_eq, List.cons.injEq, Shape.line.injEq, and_true, true_and] at a1 a2
  obtain ⟨rfl, rfl⟩ := a1
  obtain ⟨-, rfl⟩ := a2
  obtain ⟨S, hS⟩ : ∃ S : List (Shape ℝ), S = [.line color ((List.range n).map fun i => interpolate l u g (gridValue n i)) ((List.range n).map fun i => V (interpolate l u g (gridValue n i))),
    .line color' ((List.range n).map fun i => interpolate l u g (gridValue n i)) ((List.range n).map fun i => mu [gridValue n i])] := ⟨_, rfl⟩
  obtain ⟨xs1, zs1, xs', bands, lo1, hi1, lo2, hi2, b1, b2, b3, b4⟩ := C206_band h hv hp hsd hn f color lineColor gradientColor (again S) (fun hg => hscale.trans hg) hV
  rw [blackbox_line h hv hn color hV (again S)] at b1
  simp only [Ax.draw, Prod.mk.injEq, Ax.mk.injEq, List.append_cancel_left_eq, List.cons.injEq, Shape.line.injEq, and_true, true_and] at b1
  obtain ⟨rfl, rfl⟩ := b1
  refine ⟨_, _, _, xs', bands, lo1, hi1, lo2, hi2, ?_, b3, a3, fun k lo hi hm => (b4 k lo hi hm).2.1⟩
  rw [Plot.bind_ok (blackbox_line h hv hn color hV hax), Plot.bind_ok (means_line h hp hn color' (again _)), Ax.draw_draw, List.singleton_append, ← hS, b2, Ax.draw_draw]

end

/-- the square and a surrogate that predicts it plus 3/2 with standard deviation 1, on a new axis: 106 shapes, the square inside the outer and not inside the inner pair of lines -/
example : ∃ ax1 : Ax ℝ, ∃ xs zs xs' lo1 hi1 lo2 hi2,
    (do plotFunction (fun kw => match kw with | (_, .num a) :: _ => .ok (a ^ 2) | _ => .error .type) [⟨"x", .float 0 2 false⟩] 11 "red"
        surrogateMeans "blue" (fun X => .ok (X.map fun r => (2 * r.getD 0 0) ^ 2 + 3 / 2, X.map fun _ => 1)) [⟨"x", .float 0 2 false⟩] 11
        surrogateConfidences "blue" "grey" (fun X => .ok (X.map fun r => (2 * r.getD 0 0) ^ 2 + 3 / 2, X.map fun _ => 1)) [⟨"x", .float 0 2 false⟩] 11 : Plot ℝ Unit) Ax.new = (ax1, .ok ()) ∧
    ax1.shapes.length = 106 ∧ ax1.shapes.head? = some (.line "red" xs zs) ∧
    ax1.shapes.drop 102 = [.line "blue" xs' lo1, .line "blue" xs' hi1, .line "blue" xs' lo2, .line "blue" xs' hi2] ∧
    (∀ t ∈ Set.Icc (0 : ℝ) 1, ∀ y z y', OnLine false xs' lo2 (interpolate 0 2 false t) y → OnLine false xs zs (interpolate 0 2 false t) z →
      OnLine false xs' hi2 (interpolate 0 2 false t) y' → y ≤ z ∧ z ≤ y') ∧
    ¬ ∀ t ∈ Set.Icc (0 : ℝ) 1, ∀ y z y', OnLine false xs' lo1 (interpolate 0 2 false t) y → OnLine false xs zs (interpolate 0 2 false t) z →
      OnLine false xs' hi1 (interpolate 0 2 false t) y' → y ≤ z ∧ z ≤ y' := by
  obtain ⟨xs, zs, ys, xs', bands, lo1, hi1, lo2, hi2, h1, h2, -, h3⟩ := C208_picture (p := ⟨"x", .float 0 2 false⟩) (l := 0) (u := 2) (g := false) ⟨.inl rfl, by norm_num, by simp⟩ rfl
    (predict := fun X => .ok (X.map fun r => (2 * r.getD 0 0) ^ 2 + 3 / 2, X.map fun _ => 1)) (mu := fun r => (2 * r.getD 0 0) ^ 2 + 3 / 2) (sd := fun _ => 1) (fun _ _ _ => rfl)
    (fun _ => zero_le_one) (n := 11) (by norm_num) "red" "blue" "blue" "grey" (f := fun kw => match kw with | (_, .num a) :: _ => .ok (a ^ 2) | _ => .error .type) (ax := Ax.new)
    (ax' := ⟨"x", "Prediction", false, false, some (0, 2), none, []⟩) rfl (fun _ => rfl) (V := fun a => a ^ 2) (fun _ _ _ _ => rfl)
  have hd : ∀ i, |(2 * [gridValue 11 i].getD 0 0) ^ 2 + 3 / 2 - interpolate (0 : ℝ) 2 false (gridValue 11 i) ^ 2| = 3 / 2 := by
    intro i
    rw [show (2 * [gridValue 11 i].getD 0 0) ^ 2 + 3 / 2 - interpolate (0 : ℝ) 2 false (gridValue 11 i) ^ 2 = 3 / 2 by simp [interpolate]; ring, abs_of_pos (by norm_num)]
  refine ⟨_, xs, zs, xs', lo1, hi1, lo2, hi2, h1, by simp [h2], by simp, ?_, (h3 2 lo2 hi2 (by simp)).2 fun i _ => ?_, fun hall => ?_⟩
  · rw [Ax.draw_shapes, List.nil_append, ← List.append_assoc, List.drop_left' (by simp [h2])]
  · rw [hd]
    norm_num
  · have := (h3 1 lo1 hi1 (by simp)).1 hall 0 (by norm_num)
    rw [hd] at this
    norm_num at this

end PyPDP
