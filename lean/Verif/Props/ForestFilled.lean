/-
C103: whether the incumbent region of a forest holds a curve.
-/
import Verif.Props.ForestRegion
import Verif.Props.Workflow

namespace PyPDP
open Spec

/-- hyperparameters that are not selected keep the value of the sample all along its curve -/
theorem curveAt_feature {space selected : List (Hp ℝ)} (hwf : ConfigSpace.WF space) {idx : List Nat} (hidx : getSelectedIdx selected space = .ok idx)
    {grid : List (List ℝ)} (hg : grid ≠ []) (mu sd : List ℝ → ℝ) {r : List ℝ} {hp : Hp ℝ} (hn : hp.name ∉ selected.map Hp.name) {f : Nat} {e : ℝ}
    (hf : ConfigSpace.idx space hp.name = .ok f) (he : r[f]? = some e) : featureOf f (curveAt idx grid mu sd r) = e := by
  have hfeat : List.Forall₂ (fun hp i => IsFeature space hp i) selected idx := (C06_positions hwf selected idx).1 hidx
  have hlen := hfeat.length_eq
  have hni : f ∉ idx := by
    intro hm
    obtain ⟨j, hj⟩ := List.mem_iff_getElem?.1 hm
    obtain ⟨hjl, hj'⟩ := List.getElem?_eq_some_iff.1 hj
    have := hfeat.get (i := j) (by omega) hjl
    simp only [List.get_eq_getElem, hj'] at this
    obtain ⟨q, hq1, hq2⟩ := this
    obtain ⟨q', hq1', hq2'⟩ := (isFeature_idx hwf).2 hf
    rw [hq1] at hq1'
    obtain rfl := Option.some.inj hq1'
    exact hn (List.mem_map.2 ⟨selected[j]'(by omega), List.getElem_mem _, by rw [← hq2, hq2']⟩)
  obtain ⟨g, gs, rfl⟩ := List.exists_cons_of_ne_nil hg
  unfold featureOf curveAt
  change (assignRow idx g r).getD f 0 = e
  rw [List.getD_eq_getElem?_getD, assignRow_other hni, he]
  rfl

/-- In every tree of a forest, the incumbent shares its leaf with one of the samples. -/
theorem tree_shares {p : RF ℝ} (hp : ValidRF p) (hfloat : FloatSpace p.cfg.space) {mu sd : List ℝ → ℝ}
    {idx : List Nat} (hidx : getSelectedIdx p.cfg.selected p.cfg.space = .ok idx) {grid : List (List ℝ)}
    (hgr : grid ≠ []) {own : IceData ℝ} (hown : dataCurves own = p.cfg.samples.map (curveAt idx grid mu sd)) {N P : Nat} {d : Int} {w : ForestDraw} {t : DT ℝ}
    (ht : IsForestTree p (dataCurves own) N 1 P d w t) (hroot : curves t.root ≠ [])
    {ofVector : List ℝ → Config ℝ} (hof : ∀ r ∈ p.cfg.samples, ConfigOf p.cfg.space r (ofVector r)) {inc : Config ℝ} (hinc : HasNumbers p.possible inc) :
    ∃ r ∈ p.cfg.samples, SharesLeaf t (ofVector r) inc := by
  have hsub : ∀ q ∈ t.possible, q ∈ p.possible := fun q h => ht.splits_sub.subset h
  have hps : ∀ q ∈ p.possible, q ∈ p.cfg.space ∧ q.name ∉ p.cfg.selected.map Hp.name := by
    intro q hq
    rw [hp.possible, List.mem_filter] at hq
    exact ⟨hq.1, of_decide_eq_true hq.2⟩
  have hnum : ∀ q ∈ p.cfg.space, q.isNumerical = true := by
    intro q hq
    obtain ⟨l, u, g, hk, -⟩ := hfloat q hq
    simp [Hp.isNumerical, Hp.numerical?, hk]
  obtain ⟨i, leaf, hi, hone⟩ := ht.leaves.one_leaf hp.cfg.wf ht.conds (fun q h => ⟨(hps q (hsub q h)).1, hnum q (hps q (hsub q h)).1⟩)
    fun q h => hinc q (hsub q h)
  have hm := List.mem_of_getElem? hi
  obtain ⟨hsl, more, -, -, -, hmin, -⟩ := ht.leaves.path leaf hm
  have hne : curves leaf ≠ [] := by
    rcases hmin with h | h
    · rw [h]; exact hroot
    · exact List.ne_nil_of_length_pos (by omega)
  obtain ⟨c, hc⟩ := List.exists_mem_of_ne_nil _ hne
  have hcr := hsl.subset hc
  obtain ⟨k, hk⟩ := List.mem_iff_getElem?.1 hcr
  obtain ⟨hkl, hk'⟩ := List.getElem?_eq_some_iff.1 hk
  have hdraw := ht.root.get (i := k) (by rw [ht.root.length_eq]; exact hkl) hkl
  simp only [List.get_eq_getElem, hk'] at hdraw
  have hcm := List.mem_of_getElem? hdraw
  rw [hown] at hcm
  obtain ⟨r, hr, hrc⟩ := List.mem_map.1 hcm
  obtain ⟨b, hb1, hb2⟩ := ht.leaves.config_curve hp.cfg.wf hfloat (fun q h => (hps q (hsub q h)).1) ht.conds (hp.cfg.rows r hr) (hof r hr) hcr
    (fun q hq f e hf he => by
      rw [← hrc]
      exact curveAt_feature hp.cfg.wf hidx hgr mu sd (hps q (hsub q hq)).2 hf he) leaf hm
  rw [hb2.2 hc] at hb1
  have hci := hone i leaf hi
  simp only [decide_true] at hci
  exact ⟨r, hr, leaf, hm, by rw [ht.space]; exact hb1, by rw [ht.space]; exact hci⟩

open Classical in
theorem votes_total {trees : List (DT ℝ)} {rows : List (Config ℝ)} {inc : Config ℝ} (h : ∀ t ∈ trees, ∃ a ∈ rows, SharesLeaf t a inc) :
    trees.length ≤ (rows.map fun a => votes trees a inc).sum := by
  induction trees with
  | nil => simp
  | cons t ts ih =>
    have h1 := ih fun t ht => h t (by simp [ht])
    obtain ⟨a, ha, hsh⟩ := h t (by simp)
    have hv : ∀ a, votes (t :: ts) a inc = votes ts a inc + if SharesLeaf t a inc then 1 else 0 := by
      intro a
      unfold votes
      rw [List.countP_cons]
      simp
    simp only [hv, List.sum_map_add, List.length_cons]
    have : 1 ≤ (rows.map fun a => if SharesLeaf t a inc then 1 else 0).sum := by
      have := List.single_le_sum (l := rows.map fun a => if SharesLeaf t a inc then 1 else 0) (by simp) 1
        (List.mem_map.2 ⟨a, ha, by rw [if_pos hsh]⟩)
      exact this
    omega

theorem curveAt_eq {c : IceCfg ℝ} (hc : ValidCfg c) {idx : List Nat} (hidx : getSelectedIdx c.selected c.space = .ok idx) {grid : List (List ℝ)}
    (hgrid : ∀ t ∈ grid, t.length = c.selected.length) (mu sd : List ℝ → ℝ) {r : List ℝ} (hr : r ∈ c.samples) :
    curveAt idx grid mu sd r = curveOf c.space c.selected mu sd grid r := by
  have : ∀ t ∈ grid, assignRow idx t r = replaced c.space c.selected t r := fun t htm =>
    assignRow_eq_replaced hc.wf hc.sel_distinct hidx (hgrid t htm) (hc.rows r hr)
  unfold curveAt curveOf
  rw [List.map_map, List.map_map]
  exact Prod.ext (List.map_congr_left this) (Prod.ext (List.map_congr_left fun t htm => by rw [Function.comp_apply, this t htm])
    (List.map_congr_left fun t htm => by rw [Function.comp_apply, this t htm]))

open Classical in
/-- A call of `partition` and `get_incumbent_region`: the forest stays valid, the region holds the curves of the samples that share the leaf of
the incumbent in at least `overlap` trees. -/
theorem forest_call {p : RF ℝ} (hp : ValidRF p) (hfloat : FloatSpace p.cfg.space)
    (hice : ∀ i own, p.ice = some i → calcNow (iceInit p.cfg) = .ok own → Gives i own)
    {mu sd : List ℝ → ℝ} (hmu : RowWise p.cfg.space.length p.cfg.predict mu sd) (hn : p.cfg.samples ≠ []) (hg : 1 ≤ p.cfg.perAxis)
    {numTrees maxDepth size : Int} (ht : 0 < numTrees) (hd : 0 < maxDepth) (hs : 0 < size) {draw : Nat → ForestDraw}
    (hw : ∀ k : Nat, (k : Int) < numTrees → ValidDraw p size.toNat (draw k))
    {ofVector : List ℝ → Config ℝ} (hof : ∀ r ∈ p.cfg.samples, ConfigOf p.cfg.space r (ofVector r)) {inc : Config ℝ}
    (hinc : HasNumbers p.possible inc) (overlap : Int) {grid : List (List ℝ)} (hgr : gridPoints p.cfg.selected.length p.cfg.perAxis = .ok grid) :
    ∃ trees i R, rfPartition p numTrees maxDepth (some size) draw = ({ p with ice := some i, trees := some trees }, .ok ()) ∧
      (p.ice = none → i = iceInit p.cfg) ∧ (∀ i', p.ice = some i' → i = i') ∧ ValidRF { p with ice := some i, trees := some trees } ∧
      (trees.length : Int) = numTrees ∧
      rfIncumbentRegion ofVector { p with ice := some i, trees := some trees } inc (some overlap) = .ok R ∧ RegionShape grid.length p.cfg.space.length R ∧
      curves R = (p.cfg.samples.filter fun r => decide (overlap ≤ votes trees (ofVector r) inc)).map
        (curveOf p.cfg.space p.cfg.selected mu sd grid) ∧
      ((overlap - 1) * p.cfg.samples.length < numTrees → ∃ r ∈ p.cfg.samples, overlap ≤ votes trees (ofVector r) inc) ∧
      ∀ (k : Nat) t, trees[k]? = some t → IsForestTree p (p.cfg.samples.map (curveOf p.cfg.space p.cfg.selected mu sd grid)) 100 1
        (p.cfg.perAxis ^ p.cfg.selected.length) maxDepth (draw k) t := by
  obtain ⟨own, trees, i, h1, h2, h2', h3, h4, h5, h6⟩ := C66_partition hp hmu hn hg ht hd hs hw
  obtain ⟨idx, hidx, -⟩ := hp.cfg.idx
  obtain ⟨grid', hgr', hgl, hfull⟩ := C40_grid (K := ℝ) (List.length_pos_iff.2 hp.cfg.sel_ne) p.cfg.perAxis
  rw [hgr] at hgr'
  obtain rfl := Except.ok.inj hgr'
  have hgne : grid ≠ [] := List.ne_nil_of_length_pos (by rw [hgl]; exact Nat.one_le_pow _ _ hg)
  obtain ⟨own', o1, o2, o3⟩ := calcNow_curves hp.cfg hp.not_centered hmu hn hg hidx hgr
  rw [h1] at o1
  obtain rfl := Except.ok.inj o1
  have hlen : own.x.length = p.cfg.samples.length := by
    have := o2.curves_length
    change (dataCurves own).length = own.x.length at this
    rw [← this, o3, List.length_map]
  have hgives : Gives i own := by
    cases hpi : p.ice with
    | none => rw [h2 hpi]; exact .inr ⟨fresh_init _, h1⟩
    | some i' => rw [h2' i' hpi]; exact hice i' own hpi h1
  have hposs : ∀ q ∈ p.possible, q ∈ p.cfg.space := by
    intro q hq
    rw [hp.possible] at hq
    exact List.mem_of_mem_filter hq
  have hnum : ∀ q ∈ p.cfg.space, q.isNumerical = true := by
    intro q hq
    obtain ⟨l, u, g, hk, -⟩ := hfloat q hq
    simp [Hp.isNumerical, Hp.numerical?, hk]
  have hofn : ∀ r ∈ p.cfg.samples, HasNumbers p.possible (ofVector r) := by
    intro r hr q hq
    have hqs := hposs q hq
    obtain ⟨l, u, g, hk, -⟩ := hfloat q hqs
    obtain ⟨f, hf⟩ := List.mem_iff_getElem?.1 hqs
    have hfl := (List.getElem?_eq_some_iff.1 hf).1
    have hrl := hp.cfg.rows r hr
    exact ⟨_, hof r hr f q l u g _ hf hk (List.getElem?_eq_getElem (by omega))⟩
  obtain ⟨R, r1, r2, r3⟩ := C69_votes (p := { p with ice := some i, trees := some trees }) hp.cfg.wf
    (fun q h => ⟨hposs q h, hnum q (hposs q h)⟩) (trees := trees) rfl
    (by intro h; rw [h] at h5; simp at h5; omega)
    (fun t htm => by
      obtain ⟨k, hk⟩ := List.mem_iff_getElem?.1 htm
      have := (h6 k t hk).2
      exact ⟨_, _, _, _, _, _, ⟨this.space, this.selected, this.root, this.depth, this.conds, this.splits_ne, this.splits_sub, this.splits_mask, this.splits_choice, this.leaves⟩⟩)
    (i := i) rfl (own := own) hgives o2 hlen hofn hinc (some overlap)
  have hshare : ∀ t ∈ trees, ∃ a ∈ p.cfg.samples.map ofVector, SharesLeaf t a inc := by
    intro t htm
    obtain ⟨k, hk⟩ := List.mem_iff_getElem?.1 htm
    obtain ⟨hsz, htree⟩ := h6 k t hk
    obtain ⟨r, hr, hsh⟩ := tree_shares hp hfloat hidx hgne o3 htree (List.ne_nil_of_length_pos (by omega)) hof hinc
    exact ⟨_, List.mem_map_of_mem hr, hsh⟩
  have htot := votes_total hshare
  have hcur : ∀ r ∈ p.cfg.samples, curveAt idx grid mu sd r = curveOf p.cfg.space p.cfg.selected mu sd grid r :=
    fun r hr => curveAt_eq hp.cfg hidx (fun t ht => ((hfull.2 t).1 ht).1) mu sd hr
  refine ⟨trees, i, R, h3, h2, h2', h4, h5, r1, by rw [hgl]; exact r2, ?_, ?_, fun k t hk => ?_⟩
  · rw [r3, o3]
    dsimp only [Option.getD_some]
    have : ∀ (l : List (List ℝ)) (f : List ℝ → Curve ℝ) (q : List ℝ → Bool), ((l.zip (l.map f)).filter fun e => q e.1).map Prod.snd = (l.filter q).map f := by
      intro l f q
      induction l with
      | nil => rfl
      | cons a as ih =>
        rw [List.map_cons, List.zip_cons_cons, List.filter_cons, List.filter_cons]
        by_cases h : q a = true
        · simp only [h, if_true, List.map_cons, ih]
        · simp [h, ih]
    rw [this p.cfg.samples (curveAt idx grid mu sd) fun r => decide (overlap ≤ votes trees (ofVector r) inc)]
    exact List.map_congr_left fun r hr => hcur r (List.mem_of_mem_filter hr)
  · intro ho
    by_contra hemp
    push Not at hemp
    have hall : ∀ r ∈ p.cfg.samples, (votes trees (ofVector r) inc : Int) ≤ overlap - 1 := fun r hr => by have := hemp r hr; omega
    have hsum : (((p.cfg.samples.map ofVector).map fun a => votes trees a inc).sum : Int) ≤ p.cfg.samples.length * (overlap - 1) := by
      rw [List.map_map]
      have : ∀ l : List (List ℝ), (∀ r ∈ l, (votes trees (ofVector r) inc : Int) ≤ overlap - 1) →
          (((l.map ((fun a => votes trees a inc) ∘ ofVector)).sum : Nat) : Int) ≤ l.length * (overlap - 1) := by
        intro l
        induction l with
        | nil => intro _; simp
        | cons a as ih =>
          intro hl
          have h1 := ih fun r hr => hl r (by simp [hr])
          have h2 := hl a (by simp)
          simp only [List.map_cons, List.sum_cons, Function.comp_apply, List.length_cons]
          rw [Nat.cast_add, Nat.cast_add, Nat.cast_one]
          linarith
      exact this _ hall
    have : ((trees.length : Nat) : Int) ≤ ((((p.cfg.samples.map ofVector).map fun a => votes trees a inc).sum : Nat) : Int) := by exact_mod_cast htot
    rw [mul_comm] at ho
    omega
  · have := (h6 k t hk).2
    rw [o3, List.map_congr_left hcur] at this
    exact this

/-- **C103** (partial) For float hyperparameters and all draws of the generator: the incumbent region holds a curve, and `mean_confidence` is a
number, whenever `(min_incumbent_overlap - 1) * len(samples) < num_trees`, in particular for an overlap of at most 1 (every tree has a sample in
the incumbent's leaf). Missing: larger overlaps, the default among them, see `C103_default_counterexample`. -/
theorem C103_filled_partial {p : RF ℝ} (hp : ValidRF p) (hfloat : FloatSpace p.cfg.space)
    (hice : ∀ i own, p.ice = some i → calcNow (iceInit p.cfg) = .ok own → Gives i own)
    {mu sd : List ℝ → ℝ} (hmu : RowWise p.cfg.space.length p.cfg.predict mu sd) (hn : p.cfg.samples ≠ []) (hg : 1 ≤ p.cfg.perAxis)
    {numTrees maxDepth size : Int} (ht : 0 < numTrees) (hd : 0 < maxDepth) (hs : 0 < size) {draw : Nat → ForestDraw}
    (hw : ∀ k : Nat, (k : Int) < numTrees → ValidDraw p size.toNat (draw k))
    {ofVector : List ℝ → Config ℝ} (hof : ∀ r ∈ p.cfg.samples, ConfigOf p.cfg.space r (ofVector r)) {inc : Config ℝ}
    (hinc : HasNumbers p.possible inc) {overlap : Int} (ho : (overlap - 1) * p.cfg.samples.length < numTrees) :
    ∃ R m, rfIncumbentRegion ofVector (rfPartition p numTrees maxDepth (some size) draw).1 inc (some overlap) = .ok R ∧ curves R ≠ [] ∧
      meanConfidence R = .ok m ∧ 0 ≤ m := by
  obtain ⟨grid, hgr, hgl, -⟩ := C40_grid (K := ℝ) (List.length_pos_iff.2 hp.cfg.sel_ne) p.cfg.perAxis
  obtain ⟨trees, i, R, h1, -, -, -, -, r1, r2, r3, r4, -⟩ := forest_call hp hfloat hice hmu hn hg ht hd hs hw hof hinc overlap hgr
  obtain ⟨r, hr, hrv⟩ := r4 ho
  rw [h1]
  have hne : curves R ≠ [] := by
    rw [r3]
    simp only [ne_eq, List.map_eq_nil_iff, List.filter_eq_nil_iff, decide_eq_true_eq, not_forall, not_not]
    exact ⟨r, hr, hrv⟩
  have hvar : ∀ c ∈ curves R, ∀ a ∈ c.2.2, 0 ≤ a := by
    intro c hc a ha
    rw [r3] at hc
    obtain ⟨r, -, rfl⟩ := List.mem_map.1 hc
    obtain ⟨q, -, rfl⟩ := List.mem_map.1 ha
    positivity
  obtain ⟨m, m1, m2, -⟩ := C82_bounds r2 hne hvar
  exact ⟨R, m, r1, hne, m1, m2⟩

/-- **C103** exactly when it holds, for every overlap and all draws: the region holds a curve if and only if some sample shares the incumbent's
leaf in at least as many trees as asked for (default: in all trees); then `mean_confidence` is a number, otherwise it is nan. -/
theorem C103_exact {p : RF ℝ} (hp : ValidRF p) (hfloat : FloatSpace p.cfg.space)
    (hice : ∀ i own, p.ice = some i → calcNow (iceInit p.cfg) = .ok own → Gives i own)
    {mu sd : List ℝ → ℝ} (hmu : RowWise p.cfg.space.length p.cfg.predict mu sd) (hn : p.cfg.samples ≠ []) (hg : 1 ≤ p.cfg.perAxis)
    {numTrees maxDepth size : Int} (ht : 0 < numTrees) (hd : 0 < maxDepth) (hs : 0 < size) {draw : Nat → ForestDraw}
    (hw : ∀ k : Nat, (k : Int) < numTrees → ValidDraw p size.toNat (draw k))
    {ofVector : List ℝ → Config ℝ} (hof : ∀ r ∈ p.cfg.samples, ConfigOf p.cfg.space r (ofVector r)) {inc : Config ℝ}
    (hinc : HasNumbers p.possible inc) (overlap : Option Int) :
    ∃ trees R, (rfPartition p numTrees maxDepth (some size) draw).1.trees = some trees ∧ (trees.length : Int) = numTrees ∧
      rfIncumbentRegion ofVector (rfPartition p numTrees maxDepth (some size) draw).1 inc overlap = .ok R ∧
      (curves R ≠ [] ↔ ∃ r ∈ p.cfg.samples, overlap.getD numTrees ≤ votes trees (ofVector r) inc) ∧
      (curves R ≠ [] → ∃ m, meanConfidence R = .ok m ∧ 0 ≤ m) ∧ (curves R = [] → meanConfidence R = .error .nan) := by
  obtain ⟨grid, hgr, hgl, -⟩ := C40_grid (K := ℝ) (List.length_pos_iff.2 hp.cfg.sel_ne) p.cfg.perAxis
  obtain ⟨trees, i, R, h1, -, -, -, hlen, r1, r2, r3, -⟩ := forest_call hp hfloat hice hmu hn hg ht hd hs hw hof hinc (overlap.getD numTrees) hgr
  have hdef : rfIncumbentRegion ofVector { p with ice := some i, trees := some trees } inc overlap =
      rfIncumbentRegion ofVector { p with ice := some i, trees := some trees } inc (some (overlap.getD numTrees)) := by
    unfold rfIncumbentRegion
    dsimp only
    rcases trees with - | ⟨t, ts⟩
    · rfl
    · dsimp only [Option.getD_some]
      rw [hlen]
  refine ⟨trees, R, by rw [h1], hlen, by rw [h1, hdef]; exact r1, ?_, ?_, ?_⟩
  · rw [r3]
    simp only [ne_eq, List.map_eq_nil_iff, List.filter_eq_nil_iff, decide_eq_true_eq, not_forall, not_not, exists_prop]
  · intro hne
    have hvar : ∀ c ∈ curves R, ∀ a ∈ c.2.2, 0 ≤ a := by
      intro c hc a ha
      rw [r3] at hc
      obtain ⟨r, -, rfl⟩ := List.mem_map.1 hc
      obtain ⟨q, -, rfl⟩ := List.mem_map.1 ha
      positivity
    obtain ⟨m, m1, m2, -⟩ := C82_bounds r2 hne hvar
    exact ⟨m, m1, m2⟩
  · intro hem
    refine C82_empty (List.length_eq_zero_iff.1 ?_)
    rw [← r2.yv, ← r2.xy, ← r2.curves_length, hem]; rfl

/-- the hypotheses of `C103_filled_partial` hold for a forest of three trees made from an ICE object with two samples, overlap 2 -/
example : ∃ (p : RF ℝ) (R : Node ℝ) (m : ℝ),
    rfFromIce (iceInit ⟨exFlow, [⟨"x1", .float (-5) 5 false⟩], [[1/4, 3/4], [1/2, 1/3]], 2, 20, 20, false,
      fun rows => .ok (rows.map fun r => r.getD 0 0, rows.map fun r => r.getD 1 0)⟩) = .ok p ∧
    rfIncumbentRegion (fun r => ⟨r, [("x1", .num (interpolate (-5) 5 false (r.getD 0 0))), ("x2", .num (interpolate (-5) 5 false (r.getD 1 0)))]⟩)
      (rfPartition p 3 3 (some 2) fun k => ⟨[k % 2, 1], [true], 0⟩).1 ⟨[0, 1], [("x1", .num (-5)), ("x2", .num 5)]⟩ (some 2) = .ok R ∧
    meanConfidence R = .ok m := by
  have hspace : ∀ hp ∈ exFlow, hp.kind = .float (-5) 5 false ∧ (hp.name = "x1" ∨ hp.name = "x2") := by
    intro hp h
    simp only [exFlow, List.mem_cons, List.not_mem_nil, or_false] at h
    rcases h with rfl | rfl <;> simp
  obtain ⟨c, hc⟩ : ∃ c : IceCfg ℝ, c = ⟨exFlow, [⟨"x1", .float (-5) 5 false⟩], [[1/4, 3/4], [1/2, 1/3]], 2, 20, 20, false,
    fun rows => .ok (rows.map fun r => r.getD 0 0, rows.map fun r => r.getD 1 0)⟩ := ⟨_, rfl⟩
  have hv : ValidCfg c := by
    rw [hc]
    exact ⟨by simp [ConfigSpace.WF, exFlow], by simp [exFlow], by simp, by simp, by simp [exFlow], rfl, by simp⟩
  obtain ⟨p, h1, h2, h3, -, h4, h5⟩ := C66_from_ice (i := iceInit c) hv
  rw [← hc]
  have hcfg : p.cfg = c := by
    unfold rfFromIce rfInit at h1
    rw [algorithmInit_self (c := (iceInit c).cfg) hv.num_samples hv.num_grid] at h1
    simp only [Py.ok_bind] at h1
    rw [← Except.ok.inj h1]
    change { c with centered := false } = c
    rw [hc]
  have hpl : p.possible.length = 1 := by
    rw [h2.possible, hcfg, hc]
    simp [exFlow]
  have hnum : HasNumbers p.possible ⟨[0, 1], [("x1", .num (-5)), ("x2", .num 5)]⟩ := by
    intro hp h
    rw [h2.possible, hcfg, hc] at h
    obtain ⟨-, hn | hn⟩ := hspace hp (List.mem_of_mem_filter h)
    · exact ⟨-5, by simp [Config.get?, hn]⟩
    · exact ⟨5, by simp [Config.get?, hn]⟩
  obtain ⟨R, m, r1, -, r2, -⟩ := C103_filled_partial (p := p) h2 (by rw [hcfg, hc]; exact fun hp h => ⟨-5, 5, false, (hspace hp h).1, by norm_num, by simp⟩)
    (fun i own hi ho => by
      rw [h3] at hi
      obtain rfl := Option.some.inj hi
      rw [hcfg] at ho
      exact .inr ⟨fresh_init c, ho⟩) (mu := fun r => r.getD 0 0) (sd := fun r => r.getD 1 0) (by rw [hcfg, hc]; intro X _ _; rfl)
    (by rw [hcfg, hc]; simp) (by rw [hcfg, hc]; norm_num) (numTrees := 3) (maxDepth := 3) (size := 2) (by norm_num) (by norm_num) (by norm_num)
    (draw := fun k => ⟨[k % 2, 1], [true], 0⟩) (fun k _ => ⟨rfl, by
      intro i hi
      rw [hcfg, hc]
      simp only [List.mem_cons, List.not_mem_nil, or_false] at hi
      simp only [List.length_cons, List.length_nil]
      omega, by rw [hpl]; rfl, by rw [hpl]; norm_num⟩)
    (ofVector := fun r => ⟨r, [("x1", .num (interpolate (-5) 5 false (r.getD 0 0))), ("x2", .num (interpolate (-5) 5 false (r.getD 1 0)))]⟩) (by
      rw [hcfg, hc]
      intro r _ f hp l u g e hf hk he
      obtain ⟨hk', -⟩ := hspace hp (List.mem_of_getElem? hf)
      rw [hk'] at hk
      cases hk
      match f, hf, he with
      | 0, hf, he => simp [exFlow] at hf; subst hf; simp [Config.get?, List.getD_eq_getElem?_getD, he]
      | 1, hf, he => simp [exFlow] at hf; subst hf; simp [Config.get?, List.getD_eq_getElem?_getD, he]
      | f + 2, hf, _ => simp [exFlow] at hf) hnum (overlap := 2) (by rw [hcfg, hc]; norm_num)
  exact ⟨p, R, m, h1, r1, r2⟩

/-! ### the default overlap -/

section concrete
local instance : Transc ℚ := ⟨id, id⟩

/-- a forest on four hyperparameters, `x1` selected; sample number `k` of three is low in `x2`, `x3` or `x4` only -/
def exLow : Py (RF ℚ) :=
  rfInit [⟨"x1", .float 0 1 false⟩, ⟨"x2", .float 0 1 false⟩, ⟨"x3", .float 0 1 false⟩, ⟨"x4", .float 0 1 false⟩]
    (fun rows => .ok (rows.map fun r => r.getD 0 0, rows.map fun r => r.getD 1 0 + 2 * r.getD 2 0 + 4 * r.getD 3 0))
    (.name "x1") [[0, 1/5, 4/5, 4/5], [0, 4/5, 1/5, 4/5], [0, 4/5, 4/5, 1/5]] 2 100 10

/-- tree number `k` draws every sample once and may split `x2`, `x3`, `x4` in turn -/
def exLowDraw (k : Nat) : ForestDraw := ⟨[0, 1, 2], [k = 0, k = 1, k = 2], 0⟩

def exLowVector (r : List ℚ) : Config ℚ :=
  ⟨r, [("x1", .num (r.getD 0 0)), ("x2", .num (r.getD 1 0)), ("x3", .num (r.getD 2 0)), ("x4", .num (r.getD 3 0))]⟩

set_option synthInstance.maxSize 100000 in
set_option synthInstance.maxHeartbeats 200000 in
/-- **C103** is false of the code: with the incumbent low in all hyperparameters, each tree keeps another sample beside the incumbent, so no
sample shares the incumbent's leaf in two trees. The region is empty with the default overlap for two and for three trees, and for three trees
also with an overlap of half the trees (rounded up), which examples/main_random_forest.py passes. An overlap of 1 gives a filled region. -/
theorem C103_default_counterexample : ∃ p, exLow = .ok p ∧
    (∀ n ∈ [(2 : Int), 3], (rfPartition p n 1 (some 3) exLowDraw).2 = .ok () ∧
      ∀ o ∈ [none, some 2], ∃ R, rfIncumbentRegion exLowVector (rfPartition p n 1 (some 3) exLowDraw).1 (exLowVector [0, 1/10, 1/10, 1/10]) o = .ok R ∧
        curves R = [] ∧ R.v = []) ∧
    ∃ R, rfIncumbentRegion exLowVector (rfPartition p 3 1 (some 3) exLowDraw).1 (exLowVector [0, 1/10, 1/10, 1/10]) (some 1) = .ok R ∧
      (curves R).length = 3 := by
  have h : exLow.map (fun p => ([(2 : Int), 3].map fun n => ((rfPartition p n 1 (some 3) exLowDraw).2,
      [none, some 2].map fun o => (rfIncumbentRegion exLowVector (rfPartition p n 1 (some 3) exLowDraw).1 (exLowVector [0, 1/10, 1/10, 1/10]) o).map
        fun R => ((curves R).length, R.v.length)),
      (rfIncumbentRegion exLowVector (rfPartition p 3 1 (some 3) exLowDraw).1 (exLowVector [0, 1/10, 1/10, 1/10]) (some 1)).map
        fun R => (curves R).length)) =
      .ok ([2, 3].map fun _ => (.ok (), [.ok (0, 0), .ok (0, 0)]), .ok 3) := by decide +kernel
  obtain ⟨p, hp, h⟩ := Py.map_eq_ok.1 h
  refine ⟨p, hp, ?_, ?_⟩
  · have h := (Prod.mk.inj h).1
    simp only [List.map_cons, List.map_nil, List.cons.injEq, Prod.mk.injEq, and_true] at h
    obtain ⟨⟨a1, a2, a3⟩, b1, b2, b3⟩ := h
    intro n hn
    simp only [List.mem_cons, List.not_mem_nil, or_false] at hn
    rcases hn with rfl | rfl
    · refine ⟨a1, fun o ho => ?_⟩
      simp only [List.mem_cons, List.not_mem_nil, or_false] at ho
      rcases ho with rfl | rfl
      · obtain ⟨R, r1, r2⟩ := Py.map_eq_ok.1 a2
        exact ⟨R, r1, List.eq_nil_of_length_eq_zero (Prod.mk.inj r2).1, List.eq_nil_of_length_eq_zero (Prod.mk.inj r2).2⟩
      · obtain ⟨R, r1, r2⟩ := Py.map_eq_ok.1 a3
        exact ⟨R, r1, List.eq_nil_of_length_eq_zero (Prod.mk.inj r2).1, List.eq_nil_of_length_eq_zero (Prod.mk.inj r2).2⟩
    · refine ⟨b1, fun o ho => ?_⟩
      simp only [List.mem_cons, List.not_mem_nil, or_false] at ho
      rcases ho with rfl | rfl
      · obtain ⟨R, r1, r2⟩ := Py.map_eq_ok.1 b2
        exact ⟨R, r1, List.eq_nil_of_length_eq_zero (Prod.mk.inj r2).1, List.eq_nil_of_length_eq_zero (Prod.mk.inj r2).2⟩
      · obtain ⟨R, r1, r2⟩ := Py.map_eq_ok.1 b3
        exact ⟨R, r1, List.eq_nil_of_length_eq_zero (Prod.mk.inj r2).1, List.eq_nil_of_length_eq_zero (Prod.mk.inj r2).2⟩
  · exact Py.map_eq_ok.1 (Prod.mk.inj h).2

end concrete

end PyPDP
