/-
C100: the workflow of the README from the evaluated points to the PDP of the incumbent's region.
-/
import Verif.Spec.Workflow
import Verif.Props.Regions
import Verif.Props.RegionPdp
import Verif.Props.Likelihood
import Verif.Props.Gp

namespace PyPDP
open Spec

theorem assignRow_eq_replaced {space selected : List (Hp ℝ)} (hwf : ConfigSpace.WF space) (hd : (selected.map Hp.name).Nodup) {idx : List Nat}
    (hidx : getSelectedIdx selected space = .ok idx) {t r : List ℝ} (ht : t.length = selected.length) (hr : r.length = space.length) :
    assignRow idx t r = replaced space selected t r := by
  have hfeat : List.Forall₂ (fun hp i => IsFeature space hp i) selected idx := (C06_positions hwf selected idx).1 hidx
  have hnd := C06_distinct hwf hidx hd
  have hlen := hfeat.length_eq
  refine List.ext_getElem? fun f => ?_
  by_cases hf : f < space.length
  · have hrf : r[f]? = some (r[f]'(by omega)) := List.getElem?_eq_getElem _
    have hsf : space[f]? = some space[f] := List.getElem?_eq_getElem _
    unfold replaced
    rw [List.getElem?_zipWith, hsf, hrf]
    dsimp only
    cases hj : selected.findIdx? fun s => decide (s.name = (space[f]).name) with
    | none =>
      dsimp only
      rw [assignRow_other, hrf]
      intro hm
      obtain ⟨j, hj'⟩ := List.mem_iff_getElem?.1 hm
      have hjl := (List.getElem?_eq_some_iff.1 hj').1
      have := hfeat.get (i := j) (by omega) hjl
      simp only [List.get_eq_getElem] at this
      rw [List.getElem?_eq_getElem hjl] at hj'
      rw [Option.some.inj hj'] at this
      obtain ⟨h, h1, h2⟩ := this
      rw [hsf] at h1
      obtain rfl := Option.some.inj h1
      rw [List.findIdx?_eq_none_iff] at hj
      have := hj (selected[j]'(by omega)) (List.getElem_mem _)
      rw [decide_eq_false_iff_not] at this
      exact this h2.symm
    | some j =>
      dsimp only
      rw [List.findIdx?_eq_some_iff_getElem] at hj
      obtain ⟨hjl, hj1, -⟩ := hj
      have hj1 := of_decide_eq_true hj1
      have := hfeat.get (i := j) hjl (by omega)
      simp only [List.get_eq_getElem] at this
      have hf' : IsFeature space selected[j] f := ⟨_, hsf, hj1.symm⟩
      rw [isFeature_idx hwf] at this hf'
      rw [this] at hf'
      have e := Except.ok.inj hf'
      have htj : t[j]? = some (t[j]'(by omega)) := List.getElem?_eq_getElem _
      rw [List.getD_eq_getElem?_getD, htj, Option.getD_some]
      exact assignRow_selected hnd (j := j) (f := f) (by rw [List.getElem?_eq_getElem (by omega), e]) htj (by omega)
  · rw [List.getElem?_eq_none (by rw [assignRow_length]; omega), List.getElem?_eq_none]
    unfold replaced
    rw [List.length_zipWith]
    omega

/-- the curve of a sample -/
noncomputable def curveOf (space selected : List (Hp ℝ)) (mu sd : List ℝ → ℝ) (grid : List (List ℝ)) (r : List ℝ) : Curve ℝ :=
  (grid.map fun t => replaced space selected t r, grid.map fun t => mu (replaced space selected t r),
    grid.map fun t => sd (replaced space selected t r) ^ 2)

theorem zip_map3 {α β γ δ : Type} (l : List α) (f : α → β) (g : α → γ) (h : α → δ) :
    (l.map f).zip ((l.map g).zip (l.map h)) = l.map fun a => (f a, g a, h a) := by
  induction l with
  | nil => rfl
  | cons a as ih => simp [ih]

/-- what the arrays of an ICE object are, row by row -/
theorem ice_curves {space selected : List (Hp ℝ)} (hwf : ConfigSpace.WF space) (hmem : ∀ hp ∈ selected, hp ∈ space)
    (hd : (selected.map Hp.name).Nodup) (hne : selected ≠ []) {samples : List (List ℝ)} (hrows : ∀ r ∈ samples, r.length = space.length)
    (hs : samples ≠ []) {perAxis : Nat} (hg : 1 ≤ perAxis) {predict : Predict ℝ} {mu sd : List ℝ → ℝ} (hp : RowWise space.length predict mu sd) :
    ∃ grid d, gridPoints selected.length perAxis = .ok grid ∧ grid.length = perAxis ^ selected.length ∧ IsFullGrid selected.length perAxis grid ∧
      calcNow (iceInit ⟨space, selected, samples, samples.length, perAxis, perAxis ^ selected.length, false, predict⟩) = .ok d ∧
      d.x = samples.map (fun r => (curveOf space selected mu sd grid r).1) ∧
      d.y = samples.map (fun r => (curveOf space selected mu sd grid r).2.1) ∧
      d.v = samples.map (fun r => (curveOf space selected mu sd grid r).2.2) := by
  obtain ⟨grid, hgr, hgl, hfull⟩ := C40_grid (K := ℝ) (List.length_pos_iff.2 hne) perAxis
  obtain ⟨c, hc⟩ : ∃ c : IceCfg ℝ, c = ⟨space, selected, samples, samples.length, perAxis, perAxis ^ selected.length, false, predict⟩ := ⟨_, rfl⟩
  have hv : ValidCfg c := by rw [hc]; exact ⟨hwf, hmem, hd, hne, hrows, rfl, rfl⟩
  obtain ⟨idx, hidx, -⟩ := hv.idx
  have hcalc := iceCalc_ok hv (mu := mu) (sd := sd) (by rw [hc]; exact hp) (by rw [hc]; exact hs) (grid := grid) (by rw [hc]; exact hgl)
    (by rw [hc]; exact pow_ne_zero _ (by omega)) hidx
  rw [← calcNow_init c (by rw [hc]; exact hgr), hc] at hcalc
  rw [hc] at hidx
  refine ⟨grid, _, hgr, hgl, hfull, hcalc, ?_⟩
  have hrow : iceX idx samples grid = samples.map fun r => grid.map fun t => replaced space selected t r := by
    unfold iceX
    refine List.map_congr_left fun r hr => List.map_congr_left fun t ht => ?_
    exact assignRow_eq_replaced hwf hd hidx ((hfull.2 t).1 ht).1 (hrows r hr)
  dsimp only
  rw [hrow]
  refine ⟨rfl, ?_, ?_⟩
  · rw [List.map_map]
    refine List.map_congr_left fun r _ => ?_
    simp [curveOf, Function.comp_def]
  · rw [List.map_map]
    refine List.map_congr_left fun r _ => ?_
    simp [curveOf, Function.comp_def]

/-- a region whose curves are those of the rows `rows` -/
theorem region_average {space selected : List (Hp ℝ)} {mu sd : List ℝ → ℝ} {grid : List (List ℝ)} {F : Nat} {n : Node ℝ}
    (hn : RegionShape grid.length F n) {rows : List (List ℝ)} (hr : rows ≠ []) (hc : curves n = rows.map (curveOf space selected mu sd grid))
    (sp sl : List (Hp ℝ)) :
    ∃ c, regionPdp sp sl n = .ok c ∧ c.space = sp ∧ c.selected = sl ∧ c.y.length = grid.length ∧ c.v.length = grid.length ∧
      (∀ (p : Nat) t, grid[p]? = some t → c.y[p]? = some (averageOver rows fun r => mu (replaced space selected t r)) ∧
        c.v[p]? = some (averageOver rows fun r => sd (replaced space selected t r) ^ 2)) ∧
      meanConfidence n = .ok ((grid.map fun t => averageOver rows fun r => abs (sd (replaced space selected t r))).sum / grid.length) := by
  have hne : curves n ≠ [] := by rw [hc]; simpa using hr
  obtain ⟨c, h1, h2, h3, -, ay, av, h4⟩ := regionPdp_sum sp sl hn hne
  have hl : (curves n).length = rows.length := by rw [hc, List.length_map]
  have hl0 : (rows.length : ℝ) ≠ 0 := by exact_mod_cast (List.length_pos_iff.2 hr).ne'
  refine ⟨c, h1, h2, h3, ay.1, av.1, fun p t ht => ?_, ?_⟩
  · have hp := (List.getElem?_eq_some_iff.1 ht).1
    obtain ⟨e1, e2, -⟩ := h4 p hp
    have g1 : ∀ {l : List ℝ}, l.length = grid.length → l[p]? = some (l.getD p 0) := by
      intro l hl
      rw [List.getD_eq_getElem?_getD, List.getElem?_eq_getElem (by omega)]; rfl
    rw [g1 ay.1, g1 av.1]
    rw [hl, hc, List.map_map] at e1 e2
    have k1 : ((fun cv : Curve ℝ => cv.2.1.getD p 0) ∘ curveOf space selected mu sd grid) = fun r => mu (replaced space selected t r) := by
      funext r; simp [curveOf, List.getD_eq_getElem?_getD, ht]
    have k2 : ((fun cv : Curve ℝ => cv.2.2.getD p 0) ∘ curveOf space selected mu sd grid) = fun r => sd (replaced space selected t r) ^ 2 := by
      funext r; simp [curveOf, List.getD_eq_getElem?_getD, ht]
    rw [k1] at e1
    rw [k2] at e2
    unfold averageOver
    rw [← e1, ← e2]
    exact ⟨by rw [mul_div_cancel_left₀ _ hl0], by rw [mul_div_cancel_left₀ _ hl0]⟩
  · rw [C82_mean_confidence hn hne, hl, hc, List.map_map]
    have hg0 : (grid.length : ℝ) ≠ 0 := by exact_mod_cast (by have := hn.pos; omega)
    congr 1
    have key : ∀ r, (((fun c : Curve ℝ => ∑ p ∈ Finset.range grid.length, Real.sqrt (c.2.2.getD p 0)) ∘ curveOf space selected mu sd grid) r) =
        (grid.map fun t => abs (sd (replaced space selected t r))).sum := by
      intro r
      have : (grid.map fun t => abs (sd (replaced space selected t r))) =
          (List.ofFn fun i : Fin grid.length => abs (sd (replaced space selected (grid[i]) r))) := by
        refine List.ext_getElem (by simp) fun i h1 h2 => by simp
      dsimp only [Function.comp]
      rw [this, List.sum_ofFn, ← Fin.sum_univ_eq_sum_range (fun p => Real.sqrt ((curveOf space selected mu sd grid r).2.2.getD p 0))]
      refine Finset.sum_congr rfl fun i _ => ?_
      simp [curveOf, List.getD_eq_getElem?_getD, Real.sqrt_sq_eq_abs]
    rw [List.map_congr_left fun r _ => key r]
    have swap : ∀ (G : List (List ℝ)), (rows.map fun r => (G.map fun t => abs (sd (replaced space selected t r))).sum).sum =
        (G.map fun t => (rows.map fun r => abs (sd (replaced space selected t r))).sum).sum := by
      intro G
      induction G with
      | nil => simp
      | cons t ts ih => simp [ih, List.sum_map_add]
    rw [swap]
    unfold averageOver
    rw [show (grid.map fun t => (rows.map fun r => abs (sd (replaced space selected t r))).sum / (rows.length : ℝ)) =
      grid.map fun t => (rows.map fun r => abs (sd (replaced space selected t r))).sum * (rows.length : ℝ)⁻¹ from
        List.map_congr_left fun t _ => div_eq_mul_inv _ _]
    rw [List.sum_map_mul_right]
    field_simp

open Classical in
/-- the workflow, with the curves of the root and of the region (`C100_workflow` is the part that can be observed) -/
theorem workflow_curves {space : ConfigSpace ℝ} (hwf : space.WF) (hfloat : FloatSpace space) {predict : Predict ℝ} {mu sd : List ℝ → ℝ}
    (hp : RowWise space.length predict mu sd) {sel : Selection ℝ} {selected : List (Hp ℝ)} (hsel : convertHyperparameters sel space = .ok selected)
    (hmem : ∀ hp ∈ selected, hp ∈ space) (hd : (selected.map Hp.name).Nodup) (hne : selected ≠ [])
    {samples : List (List ℝ)} (hrows : ∀ r ∈ samples, r.length = space.length) (hs : samples ≠ []) {perAxis : Nat} (hg : 1 ≤ perAxis)
    (numSplits : Nat) {minPoints : Nat} (hm : 1 ≤ minPoints) {depth : Int} (hdep : 0 < depth)
    {incumbent : Config ℝ} (hinc : Within space incumbent)
    {config : List ℝ → Config ℝ} (hconf : ∀ r ∈ samples, ConfigOf space r (config r)) :
    ∃ c pdp curve tree tree' leaves region,
      algorithmInit space predict sel samples perAxis = .ok c ∧
      pdpFromIce (iceInit c) = .ok pdp ∧ (pdpCurve pdp).2 = .ok curve ∧
      dtFromIce (iceInit c) numSplits minPoints none = .ok tree ∧ dtPartition tree depth = (tree', .ok leaves) ∧
      dtIncumbentRegion tree' incumbent = .ok (some region) ∧
      ∃ grid box part inside, (gridPoints selected.length perAxis = .ok grid ∧ RegionShape grid.length space.length tree.root ∧
          RegionShape grid.length space.length region ∧ tree'.root = tree.root ∧ curves tree.root = samples.map (curveOf space selected mu sd grid) ∧
          curves region = inside.map (curveOf space selected mu sd grid)) ∧ IsFullGrid selected.length perAxis grid ∧ grid.length = perAxis ^ selected.length ∧
        curve.y.length = grid.length ∧ curve.v.length = grid.length ∧ part.y.length = grid.length ∧ part.v.length = grid.length ∧
        (∀ (p : Nat) t, grid[p]? = some t → curve.y[p]? = some (averageOver samples fun r => mu (replaced space selected t r)) ∧
          curve.v[p]? = some (averageOver samples fun r => sd (replaced space selected t r) ^ 2)) ∧
        containsAll space region.conds incumbent = .ok true ∧
        regionImplied space region.conds = .ok box ∧ box.map Hp.name = space.map Hp.name ∧ Within box incumbent ∧
        inside = samples.filter (fun r => decide (containsAll space region.conds (config r) = .ok true)) ∧
        inside ≠ [] ∧ (minPoints ≤ inside.length ∨ inside = samples) ∧
        regionPdp space selected region = .ok part ∧
        (∀ (p : Nat) t, grid[p]? = some t → part.y[p]? = some (averageOver inside fun r => mu (replaced space selected t r)) ∧
          part.v[p]? = some (averageOver inside fun r => sd (replaced space selected t r) ^ 2)) ∧
        meanConfidence tree.root = .ok ((grid.map fun t => averageOver samples fun r => abs (sd (replaced space selected t r))).sum / grid.length) ∧
        meanConfidence region = .ok ((grid.map fun t => averageOver inside fun r => abs (sd (replaced space selected t r))).sum / grid.length) := by
  obtain ⟨grid, d, hgr, hgl, hfull, hcalc, hdx, hdy, hdv⟩ := ice_curves hwf hmem hd hne hrows hs hg hp
  obtain ⟨c, hc⟩ : ∃ c : IceCfg ℝ, c = ⟨space, selected, samples, samples.length, perAxis, perAxis ^ selected.length, false, predict⟩ := ⟨_, rfl⟩
  rw [← hc] at hcalc
  have hinit : algorithmInit space predict sel samples perAxis = .ok c := by rw [algorithmInit, hsel, hc]; rfl
  have hself : algorithmInit c.space c.predict (.many (c.selected.map .hp)) c.samples c.perAxis = .ok c := by
    have := algorithmInit_self (c := c) (by rw [hc]) (by rw [hc])
    rw [this, hc]
  -- the arrays
  have hcurves : ∀ y, y = (⟨0, d.x, d.y, d.v, []⟩ : Node ℝ) → curves y = samples.map (curveOf space selected mu sd grid) := by
    rintro y rfl
    unfold curves
    dsimp only
    rw [hdx, hdy, hdv, zip_map3]
  -- the tree
  obtain ⟨i', hra, -, -⟩ := (readAll_fresh (fresh_init c)).1 d hcalc
  have hnode : mkNode 0 d.x d.y d.v ([] : List (Cond ℝ)) = .ok ⟨0, d.x, d.y, d.v, []⟩ := by
    unfold mkNode rowsAgree
    rw [if_pos (by simp [hdx, hdy, hdv, curveOf])]
  have hown : ownIce c = .ok (iceInit c) := ownIce_eq (by rw [hc]) (by rw [hc]) (by rw [hc])
  obtain ⟨q, hq⟩ : ∃ q : DT ℝ, q = ⟨c, possibleSplits space selected [], numSplits, minPoints, i', ⟨0, d.x, d.y, d.v, []⟩, []⟩ := ⟨_, rfl⟩
  have hcs : c.space = space := by rw [hc]
  have hcl : c.selected = selected := by rw [hc]
  have hdt : dtInit c.space c.predict (.many (c.selected.map .hp)) c.samples c.perAxis numSplits minPoints none = .ok q := by
    unfold dtInit
    rw [hself, Py.ok_bind, notSplittableHps, Py.ok_bind]
    dsimp only
    rw [hown, Py.ok_bind, hra, Py.ok_bind]
    dsimp only
    rw [hnode, Py.ok_bind, hq, hcs, hcl]
    rfl
  have hfrom : dtFromIce (iceInit c) numSplits minPoints none = .ok { q with ice := iceInit c } := by
    unfold dtFromIce
    have := hdt
    simp only [iceInit]
    rw [this, Py.ok_bind]; rfl
  have hqc : q.cfg = c := by rw [hq]
  have hqr : curves q.root = samples.map (curveOf space selected mu sd grid) := hcurves _ (by rw [hq])
  obtain ⟨hv, -, -, -⟩ := dt_valid (by rw [hcs]; exact hwf) (by rw [hcs, show c.samples = samples by rw [hc]]; exact hrows)
    (by rw [hc]; exact hg) hdt (by rw [hqc, hcl, hcs]; exact hmem) (by rw [hqc, hcl]; exact hd) (by rw [hqc, hcl]; exact hne)
  rw [hqc, hcl, show c.perAxis = perAxis by rw [hc], ← hgl] at hv
  have hv' : ValidDT grid.length { q with ice := iceInit c } := ⟨hv.wf, hv.possible_mem, hv.shape, hv.depth, hv.conds⟩
  obtain ⟨L, hL, -, hgreedy, -⟩ := partition_eq hv' hdep
  -- the incumbent
  have hnum : ∀ hp ∈ q.possible, hp.isNumerical = true := by
    intro hp hh
    have hh := hv.possible_mem hp hh
    rw [hqc, hcs] at hh
    obtain ⟨l, u, g, hk, -⟩ := hfloat hp hh
    simp [Hp.isNumerical, Hp.numerical?, hk]
  obtain ⟨L', i, region, h1, h2, h3, h4⟩ := C57_exactly_one_leaf hv' hnum hdep (cfg := incumbent) (by
    intro hp hh
    have hh := hv.possible_mem hp hh
    rw [hqc, hcs] at hh
    obtain ⟨x, l, u, g, -, hx, -⟩ := hinc hp hh
    exact ⟨x, hx⟩)
  rw [hL] at h1 h4
  obtain rfl := Except.ok.inj h1
  have hin : containsAll space region.conds incumbent = .ok true := by
    have := h3 i region h2
    dsimp only at this
    rw [hqc, hcs] at this
    simpa using this
  have hreg := List.mem_of_getElem? h2
  have hpart : (dtPartition q depth).2 = .ok L := by
    have : (dtPartition q depth).2 = (dtPartition { q with ice := iceInit c } depth).2 := by
      unfold dtPartition
      rw [if_pos hdep, if_pos hdep]
      dsimp only
      split <;> rfl
    rw [this, hL]
  have hinside : ∀ r ∈ samples, curveOf space selected mu sd grid r ∈ curves region ↔ containsAll space region.conds (config r) = .ok true := by
    intro r hr
    obtain ⟨s, hs'⟩ := List.mem_iff_getElem?.1 hr
    obtain ⟨L', cv, ir, e1, e2, -, e3⟩ := C58_curve_in_its_leaf (by rw [hcs]; exact hwf) (by rw [hcs]; exact hfloat)
      (by rw [hcs, show c.samples = samples by rw [hc]]; exact hrows) (by rw [hc]; exact hg) hdt (by rw [hqc, hcl, hcs]; exact hmem)
      (by rw [hqc, hcl]; exact hd) (by rw [hqc, hcl]; exact hne) hdep (s := s) (r := r) (by rw [hc]; exact hs') (cfg := config r)
      (by rw [hcs]; exact hconf r hr)
    rw [hpart] at e1
    obtain rfl := Except.ok.inj e1
    rw [hqr, List.getElem?_map, hs'] at e2
    obtain rfl := Option.some.inj e2
    obtain ⟨a1, a2⟩ := e3 i region h2
    rw [hcs] at a2
    rw [a1, a2]
    simp
  obtain ⟨more, e1, e2, e3⟩ := hgreedy.leaf_curves hv'.wf region hreg
  have hinc' : curves region = (samples.filter fun r => decide (containsAll space region.conds (config r) = .ok true)).map
      (curveOf space selected mu sd grid) := by
    dsimp only at e3
    have hQ : ∀ cv, cv ∈ curves region ↔ cv ∈ curves q.root ∧ _ := fun cv => by rw [e3, List.mem_filter]
    rw [e3, hqr, List.filter_map]
    congr 1
    refine List.filter_congr fun r hr => ?_
    rw [Bool.eq_iff_iff, decide_eq_true_iff, ← hinside r hr, hQ, hqr]
    exact ⟨fun h => ⟨List.mem_map_of_mem hr, h⟩, fun h => h.2⟩
  have hshape := hgreedy.shapes region hreg
  have hrootor := C52_min_points hv' (by rw [hL]) hreg
  obtain ⟨inside, hins⟩ : ∃ l, l = samples.filter fun r => decide (containsAll space region.conds (config r) = .ok true) := ⟨_, rfl⟩
  rw [← hins] at hinc'
  have hsize : minPoints ≤ inside.length ∨ inside = samples := by
    by_cases hroot : region = q.root
    · right
      rw [hins, List.filter_eq_self]
      intro r hr
      rw [decide_eq_true_iff, ← hinside r hr, hroot, hqr]
      exact List.mem_map_of_mem hr
    · left
      have := (hrootor hroot).1
      rw [hinc', List.length_map, show ({ q with ice := iceInit c } : DT ℝ).minPoints = minPoints by rw [hq]] at this
      exact this
  have hinne : inside ≠ [] := by
    rcases hsize with h | h
    · rintro rfl; simp at h; omega
    · rw [h]; exact hs
  obtain ⟨part, p1, -, -, p4, p5, p2, p3⟩ := region_average hshape hinne hinc' space selected
  obtain ⟨curve, r1, -, -, r4, r5, r2, r3⟩ := region_average hv.shape hs hqr space selected
  -- the implied space
  obtain ⟨L', f1, f2⟩ := C59_leaves hv' hdep
  rw [hL] at f1
  obtain rfl := Except.ok.inj f1
  have f2 := f2 region hreg
  dsimp only at f2
  rw [hqc, hcs] at f2
  have hns : NumericalSpace space := by
    intro hp hh
    obtain ⟨l, u, g, hk, h⟩ := hfloat hp hh
    exact ⟨l, u, g, by simp [Hp.numerical?, hk], h⟩
  obtain ⟨box, b, g1, g2, g3⟩ := C59_contains_iff hwf hns f2 (cfg := incumbent) (by
    intro hp hh
    obtain ⟨x, l, u, g, hk, h1, h2⟩ := hinc hp hh
    exact ⟨x, l, u, g, h1, by simp [Hp.numerical?, hk], h2⟩)
  rw [hin] at g2
  obtain rfl := Except.ok.inj g2
  have hbox : Within box incumbent := by
    intro hp hh
    obtain ⟨x, l, u, g, h1, h2, h3⟩ := (g3.1 rfl).1 hp hh
    exact ⟨x, l, u, g, h1, h2, h3⟩
  obtain ⟨box', k1, k2, k3⟩ := C59_box hwf hns f2
  rw [g1] at k1
  obtain rfl := Except.ok.inj k1
  have hnames : box.map Hp.name = space.map Hp.name := by
    refine List.ext_getElem (by simpa using k2) fun f h1 h2 => ?_
    have hf : f < space.length := by simpa using h2
    obtain ⟨l, u, g, hk, -⟩ := hns _ (List.getElem_mem hf)
    obtain ⟨l', u', ho, -⟩ := k3 f _ l u g (List.getElem?_eq_getElem hf) hk
    rw [List.getElem_map, List.getElem_map]
    rw [List.getElem?_eq_getElem (by simpa using h1)] at ho
    rw [Option.some.inj ho]
  -- the PDP
  have hpdp : pdpFromIce (iceInit c) = .ok ⟨c, some (iceInit c), none, none, none⟩ := by
    unfold pdpFromIce pdpInit
    simp only [iceInit]
    rw [hself]; rfl
  unfold regionPdp at r1
  obtain ⟨mx, hmx, r1⟩ := Py.bind_eq_ok.1 r1
  obtain ⟨my, hmy, r1⟩ := Py.bind_eq_ok.1 r1
  obtain ⟨mv, hmv, r1⟩ := Py.bind_eq_ok.1 r1
  rw [hq] at hmx hmy hmv
  have hpc := pdpCurve_eq (s := ⟨c, some (iceInit c), none, none, none⟩) ⟨rfl, rfl, rfl⟩ (i := iceInit c) rfl (.inr ⟨fresh_init c, hcalc⟩) hmx hmy hmv
  dsimp only at hpc
  rw [hcs, hcl, Except.ok.inj r1] at hpc
  have hsh0 : RegionShape grid.length space.length q.root := by have := hv.shape; rwa [hqc, hcs] at this
  have hsh1 : RegionShape grid.length space.length region := by have := hshape; dsimp only at this; rwa [hqc, hcs] at this
  exact ⟨c, _, curve, _, _, L, region, hinit, hpdp, hpc, hfrom, hL, h4, grid, box, part, inside,
    ⟨hgr, hsh0, hsh1, rfl, hqr, hinc'⟩, hfull, hgl, r4, r5, p4, p5, r2, hin, g1, hnames, hbox, hins, hinne,
    hsize, p1, p2, r3, p3⟩

open Classical in
/-- **C100** For float hyperparameters, any surrogate that predicts row by row and any samples: `ICE`, `PDP.from_ICE`,
`DecisionTreePartitioner.from_ICE`, `partition` and `get_incumbent_region` all succeed. The PDP is the average of the predictions over the
samples with the selected values replaced by the grid point; the region returned contains the incumbent, so does its implied space; the
PDP of the region is the same average over exactly the samples whose configurations lie in the region, of which there are at least
`min_points_per_node` (or it is all of them). -/
theorem C100_workflow {space : ConfigSpace ℝ} (hwf : space.WF) (hfloat : FloatSpace space) {predict : Predict ℝ} {mu sd : List ℝ → ℝ}
    (hp : RowWise space.length predict mu sd) {sel : Selection ℝ} {selected : List (Hp ℝ)} (hsel : convertHyperparameters sel space = .ok selected)
    (hmem : ∀ hp ∈ selected, hp ∈ space) (hd : (selected.map Hp.name).Nodup) (hne : selected ≠ [])
    {samples : List (List ℝ)} (hrows : ∀ r ∈ samples, r.length = space.length) (hs : samples ≠ []) {perAxis : Nat} (hg : 1 ≤ perAxis)
    (numSplits : Nat) {minPoints : Nat} (hm : 1 ≤ minPoints) {depth : Int} (hdep : 0 < depth)
    {incumbent : Config ℝ} (hinc : Within space incumbent)
    {config : List ℝ → Config ℝ} (hconf : ∀ r ∈ samples, ConfigOf space r (config r)) :
    ∃ c pdp curve tree tree' leaves region,
      algorithmInit space predict sel samples perAxis = .ok c ∧
      pdpFromIce (iceInit c) = .ok pdp ∧ (pdpCurve pdp).2 = .ok curve ∧
      dtFromIce (iceInit c) numSplits minPoints none = .ok tree ∧ dtPartition tree depth = (tree', .ok leaves) ∧
      dtIncumbentRegion tree' incumbent = .ok (some region) ∧
      ∃ grid box part inside, IsFullGrid selected.length perAxis grid ∧ grid.length = perAxis ^ selected.length ∧
        curve.y.length = grid.length ∧ curve.v.length = grid.length ∧ part.y.length = grid.length ∧ part.v.length = grid.length ∧
        (∀ (p : Nat) t, grid[p]? = some t → curve.y[p]? = some (averageOver samples fun r => mu (replaced space selected t r)) ∧
          curve.v[p]? = some (averageOver samples fun r => sd (replaced space selected t r) ^ 2)) ∧
        containsAll space region.conds incumbent = .ok true ∧
        regionImplied space region.conds = .ok box ∧ box.map Hp.name = space.map Hp.name ∧ Within box incumbent ∧
        inside = samples.filter (fun r => decide (containsAll space region.conds (config r) = .ok true)) ∧
        inside ≠ [] ∧ (minPoints ≤ inside.length ∨ inside = samples) ∧
        regionPdp space selected region = .ok part ∧
        (∀ (p : Nat) t, grid[p]? = some t → part.y[p]? = some (averageOver inside fun r => mu (replaced space selected t r)) ∧
          part.v[p]? = some (averageOver inside fun r => sd (replaced space selected t r) ^ 2)) ∧
        meanConfidence tree.root = .ok ((grid.map fun t => averageOver samples fun r => abs (sd (replaced space selected t r))).sum / grid.length) ∧
        meanConfidence region = .ok ((grid.map fun t => averageOver inside fun r => abs (sd (replaced space selected t r))).sum / grid.length) := by
  obtain ⟨c, pdp, curve, tree, tree', leaves, region, h1, h2, h3, h4, h5, h6, grid, box, part, inside, -, h7⟩ :=
    workflow_curves hwf hfloat hp hsel hmem hd hne hrows hs hg numSplits hm hdep hinc hconf
  exact ⟨c, pdp, curve, tree, tree', leaves, region, h1, h2, h3, h4, h5, h6, grid, box, part, inside, h7⟩

theorem averageOver_le {rows : List (List ℝ)} (hr : rows ≠ []) {φ : List ℝ → ℝ} {b : ℝ} (h : ∀ r ∈ rows, φ r ≤ b) : averageOver rows φ ≤ b := by
  have h0 : (0 : ℝ) < rows.length := by exact_mod_cast List.length_pos_iff.2 hr
  unfold averageOver
  rw [div_le_iff₀ h0]
  have : ∀ l : List (List ℝ), (∀ r ∈ l, φ r ≤ b) → (l.map φ).sum ≤ b * l.length := by
    intro l
    induction l with
    | nil => simp
    | cons a as ih =>
      intro h
      have h1 := ih fun r hr => h r (by simp [hr])
      have h2 := h a (by simp)
      simp only [List.map_cons, List.sum_cons, List.length_cons, Nat.cast_add, Nat.cast_one]
      linarith
  exact this rows h

theorem averageOver_nonneg {rows : List (List ℝ)} {φ : List ℝ → ℝ} (h : ∀ r ∈ rows, 0 ≤ φ r) : 0 ≤ averageOver rows φ :=
  div_nonneg (List.sum_nonneg fun v hv => by obtain ⟨r, hr, rfl⟩ := List.mem_map.1 hv; exact h r hr) (Nat.cast_nonneg _)

theorem replaced_length {space selected : List (Hp ℝ)} {t r : List ℝ} (hr : r.length = space.length) :
    (replaced space selected t r).length = space.length := by
  unfold replaced
  rw [List.length_zipWith, hr, min_self]

/-- **C100** The whole of examples/main.py up to the comparison of the two regions, with the default surrogate fitted to any evaluated
points: every step succeeds, and no uncertainty that is reported (variances of the PDP and of the region's PDP, mean confidence of the root
and of the region) exceeds what the spread of the evaluated values allows. -/
theorem C100_gaussian (ℓ : List (List ℝ) → List ℝ → ℝ) (hℓ : ∀ Z t, 0 < ℓ Z t) {space : ConfigSpace ℝ} (hwf : space.WF) (hfloat : FloatSpace space)
    {X : List (List ℝ)} {y : List ℝ} (hX : TrainingData space.length X y) {sel : Selection ℝ} {selected : List (Hp ℝ)}
    (hsel : convertHyperparameters sel space = .ok selected) (hmem : ∀ hp ∈ selected, hp ∈ space) (hd : (selected.map Hp.name).Nodup)
    (hne : selected ≠ []) {samples : List (List ℝ)} (hrows : ∀ r ∈ samples, r.length = space.length) (hs : samples ≠ []) {perAxis : Nat}
    (hg : 1 ≤ perAxis) (numSplits : Nat) {minPoints : Nat} (hm : 1 ≤ minPoints) {depth : Int} (hdep : 0 < depth)
    {incumbent : Config ℝ} (hinc : Within space incumbent) {config : List ℝ → Config ℝ} (hconf : ∀ r ∈ samples, ConfigOf space r (config r)) :
    ∃ s c pdp curve tree tree' leaves region part a b,
      GpSurrogate.new.fit (fun Z t => matern (ℓ Z t)) X y = (s, .ok ()) ∧
      algorithmInit space s.predict sel samples perAxis = .ok c ∧
      pdpFromIce (iceInit c) = .ok pdp ∧ (pdpCurve pdp).2 = .ok curve ∧
      dtFromIce (iceInit c) numSplits minPoints none = .ok tree ∧ dtPartition tree depth = (tree', .ok leaves) ∧
      dtIncumbentRegion tree' incumbent = .ok (some region) ∧ containsAll space region.conds incumbent = .ok true ∧
      regionPdp space selected region = .ok part ∧ meanConfidence tree.root = .ok a ∧ meanConfidence region = .ok b ∧
      curve.v.length = perAxis ^ selected.length ∧ part.v.length = perAxis ^ selected.length ∧
      (∀ v ∈ curve.v ++ part.v, 0 ≤ v ∧ v ≤ spread y ^ 2) ∧ (0 ≤ a ∧ a ≤ spread y) ∧ (0 ≤ b ∧ b ≤ spread y) := by
  obtain ⟨s, h1, -, mu, sd, hp, hsd, hub⟩ := C99_default ℓ hℓ hX
  obtain ⟨c, pdp, curve, tree, tree', leaves, region, k1, k2, k3, k4, k5, k6, grid, box, part, inside, -, hgl, -, hcv, -, hpv, hcurve, hin, -, -, -,
    hins, hinne, -, k7, hpart, hroot, hreg⟩ := C100_workflow hwf hfloat hp hsel hmem hd hne hrows hs hg numSplits hm hdep hinc hconf
  have hone : ∀ r ∈ samples, ∀ t, 0 ≤ abs (sd (replaced space selected t r)) ∧ abs (sd (replaced space selected t r)) ≤ spread y := by
    intro r hr t
    rw [abs_of_nonneg (hsd _)]
    exact ⟨hsd _, (hub _ (replaced_length (hrows r hr))).2.1⟩
  have hsub : ∀ r ∈ inside, r ∈ samples := by
    intro r hr; rw [hins] at hr; exact List.mem_of_mem_filter hr
  have hvar : ∀ rows : List (List ℝ), rows ≠ [] → (∀ r ∈ rows, r ∈ samples) → ∀ l : List ℝ, l.length = grid.length →
      (∀ (p : Nat) t, grid[p]? = some t → l[p]? = some (averageOver rows fun r => sd (replaced space selected t r) ^ 2)) →
      ∀ v ∈ l, 0 ≤ v ∧ v ≤ spread y ^ 2 := by
    intro rows hne hin l hl hat v hv
    obtain ⟨p, hp', rfl⟩ := List.getElem_of_mem hv
    have := hat p _ (List.getElem?_eq_getElem (by omega))
    rw [List.getElem?_eq_getElem hp'] at this
    rw [Option.some.inj this]
    refine ⟨averageOver_nonneg fun r _ => sq_nonneg _, averageOver_le hne fun r hr => ?_⟩
    rw [← sq_abs]
    exact pow_le_pow_left₀ (abs_nonneg _) (hone r (hin r hr) _).2 2
  have hg0 : grid ≠ [] := by
    intro h0
    rw [h0] at hgl
    exact absurd hgl.symm (pow_ne_zero _ (by omega))
  have hconfd : ∀ rows : List (List ℝ), rows ≠ [] → (∀ r ∈ rows, r ∈ samples) →
      0 ≤ (grid.map fun t => averageOver rows fun r => abs (sd (replaced space selected t r))).sum / grid.length ∧
      (grid.map fun t => averageOver rows fun r => abs (sd (replaced space selected t r))).sum / grid.length ≤ spread y := by
    intro rows hne hin
    refine ⟨averageOver_nonneg (rows := grid) fun t _ => averageOver_nonneg fun r _ => abs_nonneg _, averageOver_le (rows := grid) hg0 fun t _ => ?_⟩
    exact averageOver_le hne fun r hr => (hone r (hin r hr) t).2
  refine ⟨s, c, pdp, curve, tree, tree', leaves, region, part, _, _, h1, k1, k2, k3, k4, k5, k6, hin, k7, hroot, hreg, by rw [hcv, hgl],
    by rw [hpv, hgl], ?_, hconfd samples hs fun r hr => hr, hconfd inside hinne hsub⟩
  intro v hv
  rcases List.mem_append.1 hv with hv | hv
  · exact hvar samples hs (fun r hr => hr) curve.v hcv (fun p t ht => (hcurve p t ht).2) v hv
  · exact hvar inside hinne hsub part.v hpv (fun p t ht => (hpart p t ht).2) v hv

/-- two axes from -5 to 5 -/
noncomputable def exFlow : ConfigSpace ℝ := [⟨"x1", .float (-5) 5 false⟩, ⟨"x2", .float (-5) 5 false⟩]

/-- the row of grid point 1/2 with "x2" selected -/
example : replaced exFlow [⟨"x2", .float (-5) 5 false⟩] [1/2] [1/4, 3/4] = [1/4, 1/2] := by
  simp [replaced, exFlow, List.findIdx?_cons]

/-- the hypotheses of `C100_gaussian` hold for three evaluated points, the axis "x1" given by name, two samples, twenty grid points and
the incumbent `(-5, 5)` -/
example (ℓ : List (List ℝ) → List ℝ → ℝ) (hℓ : ∀ Z t, 0 < ℓ Z t) :
    ∃ (s : GpSurrogate) (c : IceCfg ℝ) (tree tree' : DT ℝ) (leaves : List (Node ℝ)) (region : Node ℝ),
      GpSurrogate.new.fit (fun Z t => matern (ℓ Z t)) [[0, 0], [0, 1], [1, 1]] [3, 1, 2] = (s, .ok ()) ∧
      algorithmInit exFlow s.predict (.name "x1") [[1/4, 3/4], [1/2, 1/3]] 20 = .ok c ∧
      dtFromIce (iceInit c) 100 10 none = .ok tree ∧ dtPartition tree 3 = (tree', .ok leaves) ∧
      dtIncumbentRegion tree' ⟨[0, 1], [("x1", .num (-5)), ("x2", .num 5)]⟩ = .ok (some region) := by
  have hspace : ∀ hp ∈ exFlow, hp.kind = .float (-5) 5 false ∧ (hp.name = "x1" ∨ hp.name = "x2") := by
    intro hp h
    simp only [exFlow, List.mem_cons, List.not_mem_nil, or_false] at h
    rcases h with rfl | rfl <;> simp
  have hsel : convertHyperparameters (.name "x1") exFlow = .ok [⟨"x1", .float (-5) 5 false⟩] := by
    simp [convertHyperparameters, resolveItem, exFlow, ConfigSpace.get]
  obtain ⟨s, c, _, _, tree, tree', leaves, region, _, _, _, h1, h2, -, -, h3, h4, h5, -⟩ := C100_gaussian ℓ hℓ (space := exFlow)
    (by simp [ConfigSpace.WF, exFlow]) (fun hp h => ⟨-5, 5, false, (hspace hp h).1, by norm_num, by simp⟩)
    (X := [[0, 0], [0, 1], [1, 1]]) (y := [3, 1, 2]) ⟨by simp, by simp [exFlow], by simp [exFlow], rfl⟩ hsel
    (by simp [exFlow]) (by simp) (by simp) (samples := [[1/4, 3/4], [1/2, 1/3]]) (by simp [exFlow]) (by simp) (perAxis := 20) (by norm_num) 100
    (minPoints := 10) (by norm_num) (depth := 3) (by norm_num) (incumbent := ⟨[0, 1], [("x1", .num (-5)), ("x2", .num 5)]⟩)
    (by
      intro hp h
      obtain ⟨hk, hn | hn⟩ := hspace hp h
      · exact ⟨-5, -5, 5, false, hk, by simp [Config.get?, hn], by norm_num, by norm_num⟩
      · exact ⟨5, -5, 5, false, hk, by simp [Config.get?, hn], by norm_num, by norm_num⟩)
    (config := fun r => ⟨r, [("x1", .num (interpolate (-5) 5 false (r.getD 0 0))), ("x2", .num (interpolate (-5) 5 false (r.getD 1 0)))]⟩)
    (by
      intro r _ f hp l u g e hf hk he
      obtain ⟨hk', -⟩ := hspace hp (List.mem_of_getElem? hf)
      rw [hk'] at hk
      cases hk
      match f, hf, he with
      | 0, hf, he => simp [exFlow] at hf; subst hf; simp [Config.get?, List.getD_eq_getElem?_getD, he]
      | 1, hf, he => simp [exFlow] at hf; subst hf; simp [Config.get?, List.getD_eq_getElem?_getD, he]
      | f + 2, hf, _ => simp [exFlow] at hf)
  exact ⟨s, c, tree, tree', leaves, region, h1, h2, h3, h4, h5⟩

end PyPDP
