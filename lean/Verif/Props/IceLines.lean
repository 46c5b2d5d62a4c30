/-
C200: the lines of an ICE plot between the grid points: their mean is the line of the PDP, and lines that are not parallel prove an interaction.
-/
import Verif.Spec.IceLines
import Verif.Props.FamilyPlots
import Verif.Props.DrawnLine

namespace PyPDP
open Spec

/-- a point of a line through values at evenly spaced places lies between two of them -/
theorem on_grid_line {l u : ℝ} {g : Bool} (hlu : l < u) (hg : g = true → 0 < l) {n : Nat} (hn : 2 ≤ n) {xs ys : List ℝ} {F : ℝ → ℝ} (hx : xs.length = n)
    (h : ∀ i < n, xs[i]? = some (interpolate l u g (gridValue n i)) ∧ ys[i]? = some (F (gridValue n i))) {t y : ℝ} (hy : OnLine g xs ys (interpolate l u g t) y) :
    ∃ (i : Nat) (w : ℝ), i + 1 < n ∧ 0 ≤ w ∧ w ≤ 1 ∧ t * ((n : ℝ) - 1) = i + w ∧ y = (1 - w) * F (gridValue n i) + w * F (gridValue n (i + 1)) := by
  have hn1 : (0 : ℝ) < (n : ℝ) - 1 := by
    have : (2 : ℝ) ≤ n := by exact_mod_cast hn
    linarith
  have hv : ∀ i, gridValue n i = (i : ℝ) / ((n : ℝ) - 1) := fun i => by rw [gridValue, if_neg (by omega)]
  obtain ⟨i, a, b, c, d, w, h1, h2, h3, h4, w0, w1, hxw, hy⟩ := hy
  have hin : i + 1 < n := by rw [← hx]; exact (List.getElem?_eq_some_iff.1 h2).1
  rw [(h i (by omega)).1] at h1
  rw [(h (i + 1) hin).1] at h2
  rw [(h i (by omega)).2] at h3
  rw [(h (i + 1) hin).2] at h4
  obtain rfl := Option.some.inj h1
  obtain rfl := Option.some.inj h2
  obtain rfl := Option.some.inj h3
  obtain rfl := Option.some.inj h4
  rw [screen_interpolate hlu hg, screen_interpolate hlu hg, screen_interpolate hlu hg] at hxw
  refine ⟨i, w, hin, w0, w1, ?_, hy⟩
  have hs := screen_lt hlu hg
  have : (t - ((1 - w) * gridValue n i + w * gridValue n (i + 1))) * (screenOf g u - screenOf g l) = 0 := by linear_combination hxw
  have ht : t = (1 - w) * gridValue n i + w * gridValue n (i + 1) := by
    rcases mul_eq_zero.1 this with h | h <;> linarith
  rw [ht, hv, hv]
  push_cast
  field_simp
  ring

/-- the two places do not matter -/
theorem chord_unique {n i j : Nat} {w w' T : ℝ} (w0 : 0 ≤ w) (w1 : w ≤ 1) (v0 : 0 ≤ w') (v1 : w' ≤ 1) (h : T = i + w) (h' : T = j + w') (F : ℝ → ℝ) :
    (1 - w) * F (gridValue n i) + w * F (gridValue n (i + 1)) = (1 - w') * F (gridValue n j) + w' * F (gridValue n (j + 1)) := by
  have key : ∀ {i j : Nat} {w w' : ℝ}, w ≤ 1 → 0 ≤ w' → (i : ℝ) + w = j + w' → i < j → j = i + 1 ∧ w = 1 ∧ w' = 0 := by
    intro i j w w' w1 v0 h hij
    have h1 : (i : ℝ) + 1 ≤ j := by exact_mod_cast hij
    have h2 : (j : ℝ) = i + 1 := by linarith
    exact ⟨by exact_mod_cast h2, by linarith, by linarith⟩
  have e : (i : ℝ) + w = j + w' := by rw [← h, ← h']
  rcases lt_trichotomy i j with hij | rfl | hij
  · obtain ⟨rfl, rfl, rfl⟩ := key w1 v0 e hij
    ring
  · obtain rfl : w = w' := by linarith
    rfl
  · obtain ⟨rfl, rfl, rfl⟩ := key v1 w0 e.symm hij
    ring

section
variable {c : IceCfg ℝ} {mu sd : List ℝ → ℝ} {hp : Hp ℝ} {l u : ℝ} {g : Bool} {f : Nat} {ax ax' : Ax ℝ}

/-- **C200** The lines of the plot of an ICE object with `n` grid points, one per sample: over every value between the bounds the line of a sample has a point, and every such point is within
`C / (2 (n - 1))` of the prediction for the sample with the hyperparameter set to this very value, if the predictions change by at most `C` times the change of the normalised hyperparameter;
and within `B` standard deviations more of the value of the blackbox function `h`, if the predictions are off by at most `B` standard deviations. -/
theorem C200_lines (hc : Plottable c mu sd) (hcen : c.centered = false) (hsel : c.selected = [hp]) (hk : hp.kind = .float l u g ∨ hp.kind = .integer l u g) (hlu : l < u)
    (hg : g = true → 0 < l) (hf : IsFeature c.space hp f) (hn : 2 ≤ c.perAxis) (hax : checkAndSetAxis [hp] true "Prediction" ax = (ax', .ok ())) (hlin : g = false → ax.xlog = false)
    (color : String) {alpha : ℝ} (h0 : 0 ≤ alpha) (h1 : alpha ≤ 1) :
    ∃ s' lines, icePlot color alpha (iceInit c) ax = (s', ax'.draw (lines ++ [.line color [] []]), .ok ()) ∧
      List.Forall₂ (fun r line => ∀ t ∈ Set.Icc (0 : ℝ) 1, (∃ y, PassesThrough ax'.xlog (interpolate l u g t) line y) ∧
        ∀ C, (∀ t ∈ Set.Icc (0 : ℝ) 1, ∀ t' ∈ Set.Icc (0 : ℝ) 1, |mu (r.set f t) - mu (r.set f t')| ≤ C * |t - t'|) → ∀ y, PassesThrough ax'.xlog (interpolate l u g t) line y →
          |y - mu (r.set f t)| ≤ C / (2 * ((c.perAxis : ℝ) - 1)) ∧
          ∀ B (h : List ℝ → ℝ), |mu (r.set f t) - h (r.set f t)| ≤ B * sd (r.set f t) → |y - h (r.set f t)| ≤ B * sd (r.set f t) + C / (2 * ((c.perAxis : ℝ) - 1))) c.samples lines := by
  obtain ⟨s', lines, e1, e2, e3⟩ := C88_ice_new hc hcen hsel hk hf color h0 h1 hax
  rw [axis_scale hk hax hlin]
  have hn1 : (0 : ℝ) < (c.perAxis : ℝ) - 1 := by
    have : (2 : ℝ) ≤ c.perAxis := by exact_mod_cast hn
    linarith
  refine ⟨s', lines, e1, List.forall₂_iff_get.2 ⟨e2.symm, fun k k1 k2 t ht => ?_⟩⟩
  obtain ⟨xs, ys, a1, a2, -, a4⟩ := e3 k _ (List.getElem?_eq_getElem k1)
  have hline : lines.get ⟨k, k2⟩ = .line color xs ys := by
    rw [List.getElem?_eq_getElem k2] at a1
    exact Option.some.inj a1
  rw [hline]
  simp only [List.get_eq_getElem]
  have hpts := line_points (F := fun t => mu ((c.samples[k]).set f t)) hlu hg hn a2 a4 ht
  refine ⟨?_, fun C hC y hy => ?_⟩
  · obtain ⟨y, hy⟩ := hpts.1
    exact ⟨y, color, xs, ys, rfl, hy⟩
  · obtain ⟨color', xs', ys', h2, hy⟩ := hy
    cases h2
    have hnear : |y - mu ((c.samples[k]).set f t)| ≤ C / (2 * ((c.perAxis : ℝ) - 1)) := by
      obtain ⟨a, b, w, ha, hb, hab, w0, w1, rfl, rfl⟩ := hpts.2 y hy
      have hpos : 0 < b - a := by rw [hab]; positivity
      refine (chord_lipschitz (F := fun t => mu ((c.samples[k]).set f t)) hC ha hb (by linarith) w0 w1).trans_eq ?_
      rw [hab]
      field_simp
    refine ⟨hnear, fun B h hB => ?_⟩
    rw [abs_le] at *
    constructor <;> linarith [hnear.1, hnear.2, hB.1, hB.2]

/-- **C200** Lines that are not parallel prove an interaction: if the blackbox function does not let the selected hyperparameter interact with the others, any two lines of the plot rise by
the same amount between any two values, up to `B` times the four standard deviations plus `2 C / (n - 1)`. -/
theorem C200_interaction (hc : Plottable c mu sd) (hcen : c.centered = false) (hsel : c.selected = [hp]) (hk : hp.kind = .float l u g ∨ hp.kind = .integer l u g) (hlu : l < u)
    (hg : g = true → 0 < l) (hf : IsFeature c.space hp f) (hn : 2 ≤ c.perAxis) (hax : checkAndSetAxis [hp] true "Prediction" ax = (ax', .ok ())) (hlin : g = false → ax.xlog = false)
    (color : String) {alpha : ℝ} (h0 : 0 ≤ alpha) (h1 : alpha ≤ 1) {B C : ℝ} {h : List ℝ → ℝ} (hno : NoInteraction c.samples f h)
    (hcov : ∀ r ∈ c.samples, ∀ t ∈ Set.Icc (0 : ℝ) 1, |mu (r.set f t) - h (r.set f t)| ≤ B * sd (r.set f t))
    (hC : ∀ r ∈ c.samples, ∀ t ∈ Set.Icc (0 : ℝ) 1, ∀ t' ∈ Set.Icc (0 : ℝ) 1, |mu (r.set f t) - mu (r.set f t')| ≤ C * |t - t'|) :
    ∃ s' lines, icePlot color alpha (iceInit c) ax = (s', ax'.draw (lines ++ [.line color [] []]), .ok ()) ∧ lines.length = c.samples.length ∧
      ∀ (j k : Nat) r q line line', c.samples[j]? = some r → c.samples[k]? = some q → lines[j]? = some line → lines[k]? = some line' →
        ∀ t ∈ Set.Icc (0 : ℝ) 1, ∀ t' ∈ Set.Icc (0 : ℝ) 1, ∀ y y' z z', PassesThrough ax'.xlog (interpolate l u g t) line y → PassesThrough ax'.xlog (interpolate l u g t') line y' →
          PassesThrough ax'.xlog (interpolate l u g t) line' z → PassesThrough ax'.xlog (interpolate l u g t') line' z' →
          |(y' - y) - (z' - z)| ≤ B * (sd (r.set f t) + sd (r.set f t') + sd (q.set f t) + sd (q.set f t')) + 2 * C / ((c.perAxis : ℝ) - 1) := by
  obtain ⟨s', lines, e1, e2⟩ := C200_lines hc hcen hsel hk hlu hg hf hn hax hlin color h0 h1
  refine ⟨s', lines, e1, e2.length_eq.symm, fun j k r q line line' hr hq hl hl' t ht t' ht' y y' z z' hy hy' hz hz' => ?_⟩
  have hn1 : (0 : ℝ) < (c.perAxis : ℝ) - 1 := by
    have : (2 : ℝ) ≤ c.perAxis := by exact_mod_cast hn
    linarith
  have at_ : ∀ {k : Nat} {r line}, c.samples[k]? = some r → lines[k]? = some line → ∀ t ∈ Set.Icc (0 : ℝ) 1, ∀ y, PassesThrough ax'.xlog (interpolate l u g t) line y →
      |y - h (r.set f t)| ≤ B * sd (r.set f t) + C / (2 * ((c.perAxis : ℝ) - 1)) := by
    intro k r line hr hl t ht y hy
    obtain ⟨k1, rfl⟩ := List.getElem?_eq_some_iff.1 hr
    obtain ⟨k2, rfl⟩ := List.getElem?_eq_some_iff.1 hl
    have hm := List.getElem_mem k1
    exact (((List.forall₂_iff_get.1 e2).2 k k1 k2 t ht).2 C (hC _ hm) y hy).2 B h (hcov _ hm t ht)
  obtain ⟨a, b, hab⟩ := hno
  have mr := List.mem_of_getElem? hr
  have mq := List.mem_of_getElem? hq
  have g1 := abs_le.1 (at_ hr hl t ht y hy)
  have g2 := abs_le.1 (at_ hr hl t' ht' y' hy')
  have g3 := abs_le.1 (at_ hq hl' t ht z hz)
  have g4 := abs_le.1 (at_ hq hl' t' ht' z' hz')
  rw [hab r mr t ht] at g1
  rw [hab r mr t' ht'] at g2
  rw [hab q mq t ht] at g3
  rw [hab q mq t' ht'] at g4
  have e : 2 * C / ((c.perAxis : ℝ) - 1) = 4 * (C / (2 * ((c.perAxis : ℝ) - 1))) := by field_simp; ring
  rw [e, abs_le]
  constructor <;> linarith [g1.1, g1.2, g2.1, g2.2, g3.1, g3.2, g4.1, g4.2]

/-- **C200** The line of the plot of the PDP is the mean of the lines of the plot of the ICE object, over every value between the bounds and not just at the grid points. -/
theorem C200_mean (hc : Plottable c mu sd) (hcen : c.centered = false) (hsel : c.selected = [hp]) (hk : hp.kind = .float l u g ∨ hp.kind = .integer l u g) (hlu : l < u)
    (hg : g = true → 0 < l) (hf : IsFeature c.space hp f) (hn : 2 ≤ c.perAxis) (hax : checkAndSetAxis [hp] true "Prediction" ax = (ax', .ok ())) (hlin : g = false → ax.xlog = false)
    (color pdpColor : String) {alpha : ℝ} (h0 : 0 ≤ alpha) (h1 : alpha ≤ 1) :
    ∃ s' lines s'' line, icePlot color alpha (iceInit c) ax = (s', ax'.draw (lines ++ [.line color [] []]), .ok ()) ∧
      pdpPlotValues pdpColor ⟨c, none, none, none, none⟩ ax = (s'', ax'.draw [line], .ok ()) ∧ lines.length = c.samples.length ∧ ∀ t ∈ Set.Icc (0 : ℝ) 1,
        (∃ y, PassesThrough ax'.xlog (interpolate l u g t) line y) ∧ (∃ Y, List.Forall₂ (PassesThrough ax'.xlog (interpolate l u g t)) lines Y) ∧
        ∀ y Y, PassesThrough ax'.xlog (interpolate l u g t) line y → List.Forall₂ (PassesThrough ax'.xlog (interpolate l u g t)) lines Y → y = Y.sum / Y.length := by
  obtain ⟨s', lines, e1, e2, e3⟩ := C88_ice_new hc hcen hsel hk hf color h0 h1 hax
  obtain ⟨s'', xs, ys, p1, p2, -, p4⟩ := C83_pdp_one (s := ⟨c, none, none, none, none⟩) ⟨rfl, rfl, rfl⟩ rfl hc hsel hk hf hax pdpColor
  dsimp only at p2 p4
  rw [axis_scale hk hax hlin]
  refine ⟨s', lines, s'', _, e1, p1, e2, fun t ht => ⟨?_, ?_, ?_⟩⟩
  · obtain ⟨y, hy⟩ := (line_points (F := fun t => meanOver c.samples fun r => mu (r.set f t)) hlu hg hn p2 p4 ht).1
    exact ⟨y, pdpColor, xs, ys, rfl, hy⟩
  · have : ∀ line ∈ lines, ∃ y, PassesThrough g (interpolate l u g t) line y := by
      intro line hm
      obtain ⟨k, k2, rfl⟩ := List.getElem_of_mem hm
      obtain ⟨xs, ys, a1, a2, -, a4⟩ := e3 k _ (List.getElem?_eq_getElem (by omega))
      rw [List.getElem?_eq_getElem k2] at a1
      rw [Option.some.inj a1]
      obtain ⟨y, hy⟩ := (line_points (F := fun t => mu ((c.samples[k]).set f t)) hlu hg hn a2 a4 ht).1
      exact ⟨y, color, xs, ys, rfl, hy⟩
    choose! φ hφ using this
    exact ⟨lines.map φ, by rw [List.forall₂_map_right_iff]; exact List.forall₂_same.2 hφ⟩
  · rintro y Y ⟨_, _, _, hl, hy⟩ hY
    cases hl
    obtain ⟨i, w, hin, w0, w1, hT, rfl⟩ := on_grid_line (F := fun t => meanOver c.samples fun r => mu (r.set f t)) hlu hg hn p2 p4 hy
    have hYe : Y = c.samples.map fun r => (1 - w) * mu (r.set f (gridValue c.perAxis i)) + w * mu (r.set f (gridValue c.perAxis (i + 1))) := by
      refine List.ext_getElem (by rw [List.length_map, ← e2, hY.length_eq]) fun k k1 k2 => ?_
      have kl : k < lines.length := by rw [hY.length_eq]; exact k1
      have ks : k < c.samples.length := by rw [← e2]; exact kl
      obtain ⟨xs, ys, a1, a2, -, a4⟩ := e3 k _ (List.getElem?_eq_getElem ks)
      have hp := (List.forall₂_iff_get.1 hY).2 k kl k1
      rw [List.getElem?_eq_getElem kl] at a1
      simp only [List.get_eq_getElem] at hp
      rw [Option.some.inj a1] at hp
      obtain ⟨_, _, _, hl, hp⟩ := hp
      cases hl
      obtain ⟨j, v, -, v0, v1, hT', hz⟩ := on_grid_line (F := fun t => mu ((c.samples[k]).set f t)) hlu hg hn a2 a4 hp
      rw [hz, List.getElem_map]
      exact (chord_unique w0 w1 v0 v1 hT hT' fun t => mu ((c.samples[k]).set f t)).symm
    rw [hYe, List.length_map]
    unfold meanOver
    rw [List.sum_map_add, List.sum_map_mul_left, List.sum_map_mul_left]
    ring

end

section ex

private noncomputable def productCfg : IceCfg ℝ :=
  ⟨[⟨"x", .float 0 1 false⟩, ⟨"y", .float 0 1 false⟩], [⟨"x", .float 0 1 false⟩], [[0, 0], [0, 1]], 2, 11, 11, false,
    fun X => .ok (X.map fun r => r.getD 0 0 * r.getD 1 0, X.map fun _ => 1 / 100)⟩

/-- A surrogate with the means `x y` and standard deviations of 1/100, two samples, eleven grid points: the two lines of the plot are so far from parallel that every blackbox function from which
the means are off by at most two standard deviations lets "x" and "y" interact. -/
example {h : List ℝ → ℝ} (hcov : ∀ r ∈ productCfg.samples, ∀ t ∈ Set.Icc (0 : ℝ) 1, |(r.set 0 t).getD 0 0 * (r.set 0 t).getD 1 0 - h (r.set 0 t)| ≤ 2 * (1 / 100)) :
    ¬ NoInteraction productCfg.samples 0 h := by
  intro hno
  have hwf : productCfg.space.WF := by simp [ConfigSpace.WF, productCfg]
  have hc : Plottable productCfg (fun r => r.getD 0 0 * r.getD 1 0) (fun _ => 1 / 100) := by
    refine ⟨⟨hwf, by simp [productCfg], by simp [productCfg], by simp [productCfg], by simp [productCfg], rfl, rfl⟩, ?_, ?_, by simp [productCfg], by simp [productCfg], fun _ _ _ => rfl⟩
    · intro hp hm
      simp only [productCfg, List.mem_cons, List.not_mem_nil, or_false] at hm
      rcases hm with rfl | rfl
      · exact ⟨0, 1, false, hwf, ⟨_, by simp [productCfg], rfl, .inl rfl⟩, by norm_num, by simp⟩
      · exact ⟨0, 1, false, hwf, ⟨_, by simp [productCfg], rfl, .inl rfl⟩, by norm_num, by simp⟩
    · intro r hr e he
      simp only [productCfg, List.mem_cons, List.not_mem_nil, or_false] at hr
      rcases hr with rfl | rfl <;>
      · simp only [List.mem_cons, List.not_mem_nil, or_false] at he
        rcases he with rfl | rfl <;> norm_num
  have hax : checkAndSetAxis [⟨"x", .float 0 1 false⟩] true "Prediction" Ax.new = ((⟨"x", "Prediction", false, false, some (0, 1), none, []⟩ : Ax ℝ), .ok ()) := rfl
  have hC : ∀ r ∈ productCfg.samples, ∀ t ∈ Set.Icc (0 : ℝ) 1, ∀ t' ∈ Set.Icc (0 : ℝ) 1,
      |(r.set 0 t).getD 0 0 * (r.set 0 t).getD 1 0 - (r.set 0 t').getD 0 0 * (r.set 0 t').getD 1 0| ≤ 1 * |t - t'| := by
    intro r hr t _ t' _
    simp only [productCfg, List.mem_cons, List.not_mem_nil, or_false] at hr
    rcases hr with rfl | rfl <;> simp
  obtain ⟨s, lines, a1, a2⟩ := C200_lines hc rfl rfl (.inl rfl) (by norm_num) (by simp) (f := 0) ⟨_, rfl, rfl⟩ (by simp [productCfg]) hax (fun _ => rfl) "red" (alpha := 1) (by norm_num) le_rfl
  obtain ⟨s', lines', b1, -, b3⟩ := C200_interaction hc rfl rfl (.inl rfl) (by norm_num) (by simp) (f := 0) ⟨_, rfl, rfl⟩ (by simp [productCfg]) hax (fun _ => rfl) "red" (alpha := 1)
    (by norm_num) le_rfl hno hcov hC
  obtain rfl : lines = lines' := by
    rw [a1] at b1
    have := congrArg (fun q => q.2.1.shapes) b1
    simpa [Ax.draw] using this
  obtain ⟨line, L, r1, r2, rfl⟩ := List.forall₂_cons_left_iff.1 a2
  obtain ⟨line', L, q1, q2, rfl⟩ := List.forall₂_cons_left_iff.1 r2
  have m0 : (0 : ℝ) ∈ Set.Icc (0 : ℝ) 1 := by simp
  have m1 : (1 : ℝ) ∈ Set.Icc (0 : ℝ) 1 := by simp
  obtain ⟨⟨y, hy⟩, hy2⟩ := r1 0 m0
  obtain ⟨⟨y', hy'⟩, hy2'⟩ := r1 1 m1
  obtain ⟨⟨z, hz⟩, hz2⟩ := q1 0 m0
  obtain ⟨⟨z', hz'⟩, hz2'⟩ := q1 1 m1
  have k := abs_le.1 (b3 0 1 _ _ line line' rfl rfl rfl rfl 0 m0 1 m1 y y' z z' hy hy' hz hz')
  have c1 := abs_le.1 (hy2 1 (hC _ (by simp [productCfg])) y hy).1
  have c2 := abs_le.1 (hy2' 1 (hC _ (by simp [productCfg])) y' hy').1
  have c3 := abs_le.1 (hz2 1 (hC _ (by simp [productCfg])) z hz).1
  have c4 := abs_le.1 (hz2' 1 (hC _ (by simp [productCfg])) z' hz').1
  simp [productCfg] at k c1 c2 c3 c4
  norm_num at k c1 c2 c3 c4
  linarith [k.1, c1.1, c1.2, c2.1, c2.2, c3.1, c3.2, c4.1, c4.2]

end ex

end PyPDP
