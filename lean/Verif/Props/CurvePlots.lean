/-
Plots of a single curve (ICECurve): C74 (plot_incumbent), C83 (plot_values), C84 (plot_confidences).
-/
import Verif.Spec.Plots
import Verif.Lemmas.Plot
import Verif.Props.Unscale
import Verif.Props.Selection
import Verif.Props.Sampler
import Verif.Props.Confidence
import Verif.Props.Axis

namespace PyPDP
open Spec

/-! ### the points of a curve -/

/-- columns of the unscaled points -/
theorem numberAt_natural {cs : ConfigSpace ℝ} (hcs : AllDeclared cs) {hp : Hp ℝ} {i : Nat} (hi : cs[i]? = some hp) {r : List ℝ}
    {w : List (Val ℝ)} (hr : ∀ e ∈ r, 0 ≤ e ∧ e ≤ 1) (hl : r.length = cs.length)
    (h : RowOf (fun hp e w => ∃ v, unscaleFloat e cs hp.name = .ok v ∧ w = .num v) cs r w) :
    ∃ v, numberAt i w = .ok v ∧ NaturalAt cs hp r v := by
  obtain ⟨l, u, g, hd, hk⟩ := allDeclared_kind hcs (List.mem_of_getElem? hi)
  have hlt : i < r.length := by rw [hl]; exact (List.getElem?_eq_some_iff.1 hi).1
  obtain ⟨e, he⟩ : ∃ e, r[i]? = some e := ⟨_, List.getElem?_eq_getElem hlt⟩
  obtain ⟨h0, h1⟩ := hr e (List.mem_of_getElem? he)
  obtain ⟨w', hw, v, hv, rfl⟩ := h.2 i hp e hi he
  rw [C01_unscale_is_interpolation hd h0 h1] at hv
  obtain rfl := Except.ok.inj hv
  refine ⟨_, ?_, i, l, u, g, e, ⟨hp, hi, rfl⟩, hk, he, rfl⟩
  unfold numberAt pyGet
  rw [hw]
  rfl

theorem curvePoints_ok {c : IceCurve ℝ} (hc : ValidCurve c) :
    ∃ rows, curvePoints c = .ok rows ∧
      List.Forall₂ (RowOf (fun hp e w => ∃ v, unscaleFloat e c.space hp.name = .ok v ∧ w = .num v) c.space) c.x rows := by
  obtain ⟨y, h1, h2⟩ := C04_unscale_float (cs := c.space) hc.declared (x := .d2 c.x) hc.rows
  cases y with
  | d2 rows => exact ⟨rows, by simp [curvePoints, h1, NdArr.asRows], h2⟩
  | _ => exact absurd h2 (by simp [ArrRel])

theorem numberColumn_natural {cs : ConfigSpace ℝ} (hcs : AllDeclared cs) {hp : Hp ℝ} {i : Nat} (hi : cs[i]? = some hp) {x : List (List ℝ)}
    {rows : List (List (Val ℝ))} (hx : ∀ r ∈ x, r.length = cs.length ∧ ∀ e ∈ r, 0 ≤ e ∧ e ≤ 1)
    (h : List.Forall₂ (RowOf (fun hp e w => ∃ v, unscaleFloat e cs hp.name = .ok v ∧ w = .num v) cs) x rows) :
    ∃ vs, numberColumn i rows = .ok vs ∧ List.Forall₂ (NaturalAt cs hp) x vs := by
  induction h with
  | nil => exact ⟨[], rfl, .nil⟩
  | cons h hs ih =>
    rename_i r w x rows
    obtain ⟨v, hv, hn⟩ := numberAt_natural hcs hi (hx r (by simp)).2 (hx r (by simp)).1 h
    obtain ⟨vs, hvs, hns⟩ := ih fun r hr => hx r (by simp [hr])
    refine ⟨v :: vs, ?_, .cons hn hns⟩
    unfold numberColumn at *
    rw [List.mapM_cons, hv, Py.ok_bind, hvs]
    rfl

/-- the positions of the selected hyperparameters -/
theorem Spec.ValidCurve.idx {c : IceCurve ℝ} (hc : ValidCurve c) :
    ∃ idx, getSelectedIdx c.selected c.space = .ok idx ∧ List.Forall₂ (fun hp (i : Nat) => c.space[i]? = some hp) c.selected idx := by
  have hwf : c.selected ≠ [] → c.space.WF := by
    intro hne
    obtain ⟨hp, hps, he⟩ := List.exists_cons_of_ne_nil hne
    obtain ⟨_, _, _, hd⟩ := hc.declared hp (hc.selected hp (by simp [he]))
    exact hd.wf
  have hall : ∀ sel : List (Hp ℝ), (∀ hp ∈ sel, hp ∈ c.space) → ∃ idx, List.Forall₂ (fun hp (i : Nat) => c.space[i]? = some hp) sel idx := by
    intro sel
    induction sel with
    | nil => intro _; exact ⟨[], .nil⟩
    | cons a as ih =>
      intro hm
      obtain ⟨is, his⟩ := ih fun hp hhp => hm hp (by simp [hhp])
      obtain ⟨i, hi⟩ := List.mem_iff_getElem?.1 (hm a (by simp))
      exact ⟨i :: is, .cons hi his⟩
  obtain ⟨idx, hidx⟩ := hall c.selected hc.selected
  refine ⟨idx, ?_, hidx⟩
  by_cases hne : c.selected = []
  · rw [hne] at hidx ⊢
    cases hidx
    rfl
  · exact (C06_positions (hwf hne) c.selected idx).2 (hidx.imp fun _ _ h => ⟨_, h, rfl⟩)

/-! ### C83 -/

/-- **C83** one selected hyperparameter: one line, the value of every grid point over its natural-unit coordinate. -/
theorem C83_one {c : IceCurve ℝ} (hc : ValidCurve c) {hp : Hp ℝ} (hsel : c.selected = [hp]) {ax ax' : Ax ℝ}
    (hax : checkAndSetAxis [hp] true "Prediction" ax = (ax', .ok ())) (color : String) :
    ∃ xs, List.Forall₂ (NaturalAt c.space hp) c.x xs ∧ curveValues color c ax = (ax'.draw [.line color xs c.y], .ok ()) := by
  obtain ⟨idx, hi, hidx⟩ := hc.idx
  obtain ⟨rows, hr, hrows⟩ := curvePoints_ok hc
  rw [hsel] at hidx
  cases hidx with
  | cons h hs =>
    cases hs
    rename_i i
    obtain ⟨xs, hxs, hnat⟩ := numberColumn_natural hc.declared h hc.rows hrows
    refine ⟨xs, hnat, ?_⟩
    unfold curveValues
    rw [hsel] at hi ⊢
    rw [Plot.bind_ok hax, hi, Plot.lift_bind_ok, hr, Plot.lift_bind_ok]
    simp only [drawValues]
    rw [show pyGet [i] 0 = .ok i from rfl, Plot.lift_bind_ok, hxs, Plot.lift_bind_ok]
    unfold plotLine drawLine
    rw [if_pos ⟨zero_le_one, le_refl _, by rw [hc.values, hnat.length_eq]⟩, Plot.add_eq]

/-- **C83** two selected hyperparameters: the values over the natural-unit coordinates of both (at least three grid points). -/
theorem C83_two {c : IceCurve ℝ} (hc : ValidCurve c) {p q : Hp ℝ} (hsel : c.selected = [p, q]) (hn : 3 ≤ c.x.length) {ax ax' : Ax ℝ}
    (hax : checkAndSetAxis [p, q] true "Prediction" ax = (ax', .ok ())) (color : String) :
    ∃ xs ys, List.Forall₂ (NaturalAt c.space p) c.x xs ∧ List.Forall₂ (NaturalAt c.space q) c.x ys ∧
      curveValues color c ax = (ax'.draw [.tri xs ys c.y], .ok ()) := by
  obtain ⟨idx, hi, hidx⟩ := hc.idx
  obtain ⟨rows, hr, hrows⟩ := curvePoints_ok hc
  rw [hsel] at hidx
  cases hidx with
  | cons h hs =>
    cases hs with
    | cons h' hs =>
      cases hs
      rename_i i j
      obtain ⟨xs, hxs, hnat⟩ := numberColumn_natural hc.declared h hc.rows hrows
      obtain ⟨ys, hys, hnat'⟩ := numberColumn_natural hc.declared h' hc.rows hrows
      refine ⟨xs, ys, hnat, hnat', ?_⟩
      unfold curveValues
      rw [hsel] at hi ⊢
      rw [Plot.bind_ok hax, hi, Plot.lift_bind_ok, hr, Plot.lift_bind_ok]
      simp only [drawValues]
      rw [show pyGet [i, j] 0 = .ok i from rfl, Plot.lift_bind_ok, show pyGet [i, j] 1 = .ok j from rfl, Plot.lift_bind_ok, hxs,
        Plot.lift_bind_ok, hys, Plot.lift_bind_ok]
      unfold plot2D
      have h1 := hnat.length_eq
      have h2 := hnat'.length_eq
      have h3 := hc.values
      rw [if_pos ⟨by omega, by omega, by omega⟩, Plot.add_eq]

/-- **C83** any other number of selected hyperparameters: NotImplementedError, the axis is untouched. -/
theorem C83_other {c : IceCurve ℝ} (hc : ValidCurve c) (hsel : ¬ OneOrTwo c.selected) (color : String) (ax : Ax ℝ) :
    curveValues color c ax = (ax, .error .notImplemented) := by
  obtain ⟨idx, hi, -⟩ := hc.idx
  obtain ⟨rows, hr, -⟩ := curvePoints_ok hc
  have hax := C71_many_counterexample ax hsel true "Prediction"
  unfold curveValues
  rw [Plot.bind_ok hax, hi, Plot.lift_bind_ok, hr, Plot.lift_bind_ok]
  have hd : drawValues color rows c.y idx c.selected = Plot.raise .notImplemented := by
    unfold drawValues
    split
    · rename_i h; exact absurd (Or.inl (by rw [h]; rfl)) hsel
    · rename_i h; exact absurd (Or.inr (by rw [h]; rfl)) hsel
    · rfl
  rw [hd, Plot.raise_apply]

/-- **C83** an axis that belongs to something else is left as it is. -/
theorem C83_axis {c : IceCurve ℝ} {ax ax' : Ax ℝ} {e : PyErr} (hax : checkAndSetAxis c.selected true "Prediction" ax = (ax', .error e))
    (color : String) : curveValues color c ax = (ax', .error e) := Plot.bind_error hax

/-! ### C74 -/

/-- **C74** one selected hyperparameter: a vertical line at the natural-unit coordinate of the first grid point with the smallest
value. -/
theorem C74_one {c : IceCurve ℝ} (hc : ValidCurve c) (hne : c.x ≠ []) {hp : Hp ℝ} (hsel : c.selected = [hp]) {ax ax' : Ax ℝ}
    (hax : checkAndSetAxis [hp] true "Prediction" ax = (ax', .ok ())) (color : String) :
    ∃ i m row x, FirstBest (· < ·) c.y i m ∧ c.x[i]? = some row ∧ NaturalAt c.space hp row x ∧
      curveIncumbent color c ax = (ax'.draw [.vline color x], .ok ()) := by
  obtain ⟨idx, hi, hidx⟩ := hc.idx
  obtain ⟨rows, hr, hrows⟩ := curvePoints_ok hc
  obtain ⟨k, m, hk, hbest⟩ := argmin_spec (ys := c.y) (by
    intro h0; have := hc.values; rw [h0] at this; exact hne (List.length_eq_zero_iff.1 this.symm))
  have hkl : k < c.x.length := by rw [← hc.values]; exact (List.getElem?_eq_some_iff.1 hbest.1).1
  have hkr : k < rows.length := by rw [← hrows.length_eq]; exact hkl
  have hrow := (List.forall₂_iff_get.1 hrows).2 k hkl hkr
  rw [hsel] at hidx
  cases hidx with
  | cons h hs =>
    cases hs
    rename_i i
    obtain ⟨v, hv, hn⟩ := numberAt_natural hc.declared h (hc.rows _ (List.get_mem _ _)).2 (hc.rows _ (List.get_mem _ _)).1 hrow
    refine ⟨k, m, _, v, hbest, List.getElem?_eq_getElem hkl, hn, ?_⟩
    unfold curveIncumbent
    rw [hsel] at hi ⊢
    rw [Plot.bind_ok hax, hi, Plot.lift_bind_ok, hr, Plot.lift_bind_ok, hk, Plot.lift_bind_ok]
    simp only [drawIncumbent]
    rw [show pyGet rows k = .ok rows[k] by unfold pyGet; rw [List.getElem?_eq_getElem hkr], Plot.lift_bind_ok,
      show pyGet [i] 0 = .ok i from rfl, Plot.lift_bind_ok, show numberAt i rows[k] = .ok v from hv, Plot.lift_bind_ok, Plot.add_eq]

/-- **C74** two selected hyperparameters: a point at its natural-unit coordinates. -/
theorem C74_two {c : IceCurve ℝ} (hc : ValidCurve c) (hne : c.x ≠ []) {p q : Hp ℝ} (hsel : c.selected = [p, q]) {ax ax' : Ax ℝ}
    (hax : checkAndSetAxis [p, q] true "Prediction" ax = (ax', .ok ())) (color : String) :
    ∃ i m row x y, FirstBest (· < ·) c.y i m ∧ c.x[i]? = some row ∧ NaturalAt c.space p row x ∧ NaturalAt c.space q row y ∧
      curveIncumbent color c ax = (ax'.draw [.points color [x] [y]], .ok ()) := by
  obtain ⟨idx, hi, hidx⟩ := hc.idx
  obtain ⟨rows, hr, hrows⟩ := curvePoints_ok hc
  obtain ⟨k, m, hk, hbest⟩ := argmin_spec (ys := c.y) (by
    intro h0; have := hc.values; rw [h0] at this; exact hne (List.length_eq_zero_iff.1 this.symm))
  have hkl : k < c.x.length := by rw [← hc.values]; exact (List.getElem?_eq_some_iff.1 hbest.1).1
  have hkr : k < rows.length := by rw [← hrows.length_eq]; exact hkl
  have hrow := (List.forall₂_iff_get.1 hrows).2 k hkl hkr
  rw [hsel] at hidx
  cases hidx with
  | cons h hs =>
    cases hs with
    | cons h' hs =>
      cases hs
      rename_i i j
      obtain ⟨v, hv, hn⟩ := numberAt_natural hc.declared h (hc.rows _ (List.get_mem _ _)).2 (hc.rows _ (List.get_mem _ _)).1 hrow
      obtain ⟨v', hv', hn'⟩ := numberAt_natural hc.declared h' (hc.rows _ (List.get_mem _ _)).2 (hc.rows _ (List.get_mem _ _)).1 hrow
      refine ⟨k, m, _, v, v', hbest, List.getElem?_eq_getElem hkl, hn, hn', ?_⟩
      unfold curveIncumbent
      rw [hsel] at hi ⊢
      rw [Plot.bind_ok hax, hi, Plot.lift_bind_ok, hr, Plot.lift_bind_ok, hk, Plot.lift_bind_ok]
      simp only [drawIncumbent]
      rw [show pyGet rows k = .ok rows[k] by unfold pyGet; rw [List.getElem?_eq_getElem hkr], Plot.lift_bind_ok,
        show pyGet [i, j] 0 = .ok i from rfl, Plot.lift_bind_ok, show pyGet [i, j] 1 = .ok j from rfl, Plot.lift_bind_ok,
        show numberAt i rows[k] = .ok v from hv, Plot.lift_bind_ok, show numberAt j rows[k] = .ok v' from hv', Plot.lift_bind_ok, Plot.add_eq]

/-- **C74** a curve without points has no minimum: ValueError. -/
theorem C74_empty {c : IceCurve ℝ} (hc : ValidCurve c) (hne : c.x = []) {ax ax' : Ax ℝ}
    (hax : checkAndSetAxis c.selected true "Prediction" ax = (ax', .ok ())) (color : String) :
    curveIncumbent color c ax = (ax', .error .value) := by
  obtain ⟨idx, hi, -⟩ := hc.idx
  obtain ⟨rows, hr, -⟩ := curvePoints_ok hc
  have hy : c.y = [] := by have := hc.values; rw [hne] at this; exact List.length_eq_zero_iff.1 this
  unfold curveIncumbent
  rw [Plot.bind_ok hax, hi, Plot.lift_bind_ok, hr, Plot.lift_bind_ok, hy]
  rfl

/-- **C74** any other number of selected hyperparameters: NotImplementedError, the axis is untouched. -/
theorem C74_other {c : IceCurve ℝ} (hc : ValidCurve c) (hne : c.x ≠ []) (hsel : ¬ OneOrTwo c.selected) (color : String) (ax : Ax ℝ) :
    curveIncumbent color c ax = (ax, .error .notImplemented) := by
  obtain ⟨idx, hi, -⟩ := hc.idx
  obtain ⟨rows, hr, -⟩ := curvePoints_ok hc
  obtain ⟨k, m, hk, -⟩ := argmin_spec (ys := c.y) (by
    intro h0; have := hc.values; rw [h0] at this; exact hne (List.length_eq_zero_iff.1 this.symm))
  have hax := C71_many_counterexample ax hsel true "Prediction"
  unfold curveIncumbent
  rw [Plot.bind_ok hax, hi, Plot.lift_bind_ok, hr, Plot.lift_bind_ok, hk, Plot.lift_bind_ok]
  have hd : drawIncumbent color rows k idx c.selected = Plot.raise .notImplemented := by
    unfold drawIncumbent
    split
    · rename_i h; exact absurd (Or.inl (by rw [h]; rfl)) hsel
    · rename_i h; exact absurd (Or.inr (by rw [h]; rfl)) hsel
    · rfl
  rw [hd, Plot.raise_apply]

/-! ### concrete curves -/

section examples
local instance transcCurvePlots : Transc ℚ := ⟨id, id⟩

/-- a curve along the second of two hyperparameters -/
def exCurve : IceCurve ℚ :=
  ⟨[⟨"x1", .float 0 1 false⟩, ⟨"x2", .float (-5) 5 false⟩], [⟨"x2", .float (-5) 5 false⟩], [[1/4, 0], [1/4, 1/2], [1/4, 1]], [3, 1, 1], [4, 1, 0]⟩

example : ((curveValues "red" exCurve Ax.new).1.shapes, (curveValues "red" exCurve Ax.new).2) = ([.line "red" [-5, 0, 5] [3, 1, 1]], .ok ()) := by
  decide +kernel

/-- of two equally good points the first -/
example : ((curveIncumbent "red" exCurve Ax.new).1.shapes, (curveIncumbent "red" exCurve Ax.new).2) = ([.vline "red" 0], .ok ()) := by
  decide +kernel

example : ((curveValues "red" { exCurve with selected := exCurve.space.reverse } Ax.new).1.shapes,
    (curveIncumbent "red" { exCurve with selected := exCurve.space.reverse } Ax.new).1.shapes) =
    ([.tri [-5, 0, 5] [1/4, 1/4, 1/4] [3, 1, 1]], [.points "red" [0] [1/4]]) := by decide +kernel

example : (curveValues "red" { exCurve with selected := [] } Ax.new).2 = .error .notImplemented := by decide +kernel

end examples

/-- the hypotheses of the theorems hold for the same curve over the real numbers -/
example : ValidCurve ⟨[⟨"x1", .float 0 1 false⟩, ⟨"x2", .float (-5) 5 false⟩], [⟨"x2", .float (-5) 5 false⟩],
    [[1/4, 0], [1/4, 1/2], [1/4, 1]], [3, 1, 1], [4, 1, 0]⟩ := by
  refine ⟨?_, ?_, rfl, rfl, by simp⟩
  · intro hp hm
    simp only [List.mem_cons, List.not_mem_nil, or_false] at hm
    rcases hm with rfl | rfl
    · exact ⟨0, 1, false, by simp [ConfigSpace.WF], ⟨_, by simp, rfl, Or.inl rfl⟩, by norm_num, by simp⟩
    · exact ⟨-5, 5, false, by simp [ConfigSpace.WF], ⟨⟨"x2", .float (-5) 5 false⟩, by simp, rfl, Or.inl rfl⟩, by norm_num, by simp⟩
  · intro r hr
    simp only [List.mem_cons, List.not_mem_nil, or_false] at hr
    rcases hr with rfl | rfl | rfl <;> refine ⟨rfl, ?_⟩ <;> simp <;> norm_num

/-! ### C84 -/

theorem stdsOf_sqrt {vs : List ℝ} (h : ∀ v ∈ vs, 0 ≤ v) : StdsOf vs (vs.map Real.sqrt) := by
  unfold StdsOf
  rw [List.forall₂_map_right_iff, List.forall₂_same]
  exact fun v hv => ⟨Real.sqrt_nonneg v, Real.mul_self_sqrt (h v hv)⟩

theorem confidences_drawn {xs y s : List ℝ} (hy : y.length = xs.length) (hs : s.length = xs.length) (hnn : ∀ t ∈ s, 0 ≤ t)
    (lineColor gradientColor : String) {maxSigma : ℝ} (hmax : 0 < maxSigma) (ax : Ax ℝ) :
    ∃ shapes, (do
        confidenceGradients xs y (some s) none gradientColor 100 maxSigma
        confidenceLines xs y (some s) none lineColor (.seq [1, 2])) ax = (ax.draw shapes, .ok ()) ∧
      ShowsConfidence lineColor gradientColor maxSigma xs y s shapes := by
  have hgiven : GivenStds (some s) none s := Or.inl ⟨rfl, rfl⟩
  obtain ⟨fs, bands, hb, hb1, hb2, -, hb4⟩ := C72_bands hy hs hgiven gradientColor 100 maxSigma ax
  obtain ⟨bands', hn1, -, hn3⟩ := C72_nested hy hs hgiven hnn gradientColor 100 hmax ax
  obtain ⟨sorted, pairs, hl, hperm, hsort, hpairs⟩ := C72_lines_partial hy hs hgiven lineColor (ks := [1, 2]) (by
    intro k hk
    simp only [List.mem_cons, List.not_mem_nil, or_false] at hk
    rcases hk with rfl | rfl <;> right <;> norm_num) (ax.draw bands)
  have hsorted : sorted = [1, 2] := by
    rw [show ([1, 2] : List ℝ).filter (fun k => decide (k ≠ 0)) = [1, 2] by simp] at hperm
    exact List.Perm.eq_of_pairwise (fun a b _ _ h1 h2 => le_antisymm h1 h2) hsort (by simp) hperm
  rw [hsorted] at hpairs
  have heq : bands' = bands := by
    rw [hb] at hn1
    exact (List.append_cancel_left hn1).symm
  cases hpairs with
  | cons ho hpairs =>
    cases hpairs with
    | cons ht hpairs =>
      cases hpairs
      rename_i one two
      refine ⟨bands ++ one ++ two, (Plot.bind_ok hb).trans (hl.trans ?_), fs, bands, one, two, rfl, hb1, hb2, (hb4 hmax).1, (hb4 hmax).2,
        heq ▸ hn3, ho, ht⟩
      simp

/-- **C84** one selected hyperparameter: 100 nested bands of up to `max_sigma` standard deviations and the lines of one and two standard
deviations around the values, all over the natural-unit coordinates. -/
theorem C84_one {c : IceCurve ℝ} (hc : ValidCurve c) (hv : ∀ v ∈ c.v, 0 ≤ v) {hp : Hp ℝ} (hsel : c.selected = [hp]) {ax ax' : Ax ℝ}
    (hax : checkAndSetAxis [hp] true "Prediction" ax = (ax', .ok ())) (lineColor gradientColor : String) {maxSigma : ℝ} (hmax : 0 < maxSigma) :
    ∃ xs s shapes, List.Forall₂ (NaturalAt c.space hp) c.x xs ∧ StdsOf c.v s ∧
      curveConfidences lineColor gradientColor maxSigma c ax = (ax'.draw shapes, .ok ()) ∧
      ShowsConfidence lineColor gradientColor maxSigma xs c.y s shapes := by
  obtain ⟨idx, hi, hidx⟩ := hc.idx
  obtain ⟨rows, hr, hrows⟩ := curvePoints_ok hc
  rw [hsel] at hidx
  cases hidx with
  | cons h hs =>
    cases hs
    rename_i i
    obtain ⟨xs, hxs, hnat⟩ := numberColumn_natural hc.declared h hc.rows hrows
    have hyl : c.y.length = xs.length := by rw [hc.values, hnat.length_eq]
    have hsl : (c.v.map Real.sqrt).length = xs.length := by rw [List.length_map, hc.variances, hnat.length_eq]
    obtain ⟨shapes, hd, hsh⟩ := confidences_drawn hyl hsl (by
      intro t ht
      obtain ⟨v, -, rfl⟩ := List.mem_map.1 ht
      exact Real.sqrt_nonneg v) lineColor gradientColor hmax ax'
    refine ⟨xs, c.v.map Real.sqrt, shapes, hnat, stdsOf_sqrt hv, ?_, hsh⟩
    unfold curveConfidences
    rw [hsel] at hi ⊢
    rw [Plot.bind_ok hax, hi, Plot.lift_bind_ok, hr, Plot.lift_bind_ok]
    simp only [drawConfidences]
    rw [show pyGet [i] 0 = .ok i from rfl, Plot.lift_bind_ok, hxs, Plot.lift_bind_ok]
    exact hd

/-- **C84** two selected hyperparameters: the standard deviations over the natural-unit coordinates. -/
theorem C84_two {c : IceCurve ℝ} (hc : ValidCurve c) (hv : ∀ v ∈ c.v, 0 ≤ v) {p q : Hp ℝ} (hsel : c.selected = [p, q]) (hn : 3 ≤ c.x.length)
    {ax ax' : Ax ℝ} (hax : checkAndSetAxis [p, q] true "Prediction" ax = (ax', .ok ())) (lineColor gradientColor : String) (maxSigma : ℝ) :
    ∃ xs ys s, List.Forall₂ (NaturalAt c.space p) c.x xs ∧ List.Forall₂ (NaturalAt c.space q) c.x ys ∧ StdsOf c.v s ∧
      curveConfidences lineColor gradientColor maxSigma c ax = (ax'.draw [.tri xs ys s], .ok ()) := by
  obtain ⟨idx, hi, hidx⟩ := hc.idx
  obtain ⟨rows, hr, hrows⟩ := curvePoints_ok hc
  rw [hsel] at hidx
  cases hidx with
  | cons h hs =>
    cases hs with
    | cons h' hs =>
      cases hs
      rename_i i j
      obtain ⟨xs, hxs, hnat⟩ := numberColumn_natural hc.declared h hc.rows hrows
      obtain ⟨ys, hys, hnat'⟩ := numberColumn_natural hc.declared h' hc.rows hrows
      refine ⟨xs, ys, c.v.map Real.sqrt, hnat, hnat', stdsOf_sqrt hv, ?_⟩
      unfold curveConfidences
      rw [hsel] at hi ⊢
      rw [Plot.bind_ok hax, hi, Plot.lift_bind_ok, hr, Plot.lift_bind_ok]
      simp only [drawConfidences]
      rw [show pyGet [i, j] 0 = .ok i from rfl, Plot.lift_bind_ok, show pyGet [i, j] 1 = .ok j from rfl, Plot.lift_bind_ok, hxs,
        Plot.lift_bind_ok, hys, Plot.lift_bind_ok]
      unfold plot2D
      have h1 := hnat.length_eq
      have h2 := hnat'.length_eq
      have h3 := hc.variances
      rw [if_pos ⟨by omega, by omega, by rw [List.length_map]; omega⟩, Plot.add_eq]

/-- **C84** any other number of selected hyperparameters: NotImplementedError, the axis is untouched. -/
theorem C84_other {c : IceCurve ℝ} (hc : ValidCurve c) (hsel : ¬ OneOrTwo c.selected) (lineColor gradientColor : String) (maxSigma : ℝ)
    (ax : Ax ℝ) : curveConfidences lineColor gradientColor maxSigma c ax = (ax, .error .notImplemented) := by
  obtain ⟨idx, hi, -⟩ := hc.idx
  obtain ⟨rows, hr, -⟩ := curvePoints_ok hc
  have hax := C71_many_counterexample ax hsel true "Prediction"
  unfold curveConfidences
  rw [Plot.bind_ok hax, hi, Plot.lift_bind_ok, hr, Plot.lift_bind_ok]
  have hd : drawConfidences lineColor gradientColor maxSigma rows c.y (c.v.map Real.sqrt) idx c.selected = Plot.raise .notImplemented := by
    unfold drawConfidences
    split
    · rename_i h; exact absurd (Or.inl (by rw [h]; rfl)) hsel
    · rename_i h; exact absurd (Or.inr (by rw [h]; rfl)) hsel
    · rfl
  rw [hd, Plot.raise_apply]

end PyPDP
