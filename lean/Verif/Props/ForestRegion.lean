/-
C69: the incumbent region of a forest is a vote.
-/
import Verif.Props.Forest

namespace PyPDP
open Spec
variable {K : Type} [Field K] [LinearOrder K]

/-! ### picking curves -/

omit [Field K] [LinearOrder K] in
theorem pick_indices {α β : Type} (q : α → Bool) (ss : List α) :
    ∀ (pre L : List β), L.length = ss.length →
      ((((ss.zipIdx pre.length).filter fun e => q e.1).map Prod.snd).mapM (pyGet (pre ++ L))) =
        .ok (((ss.zip L).filter fun e => q e.1).map Prod.snd) := by
  induction ss with
  | nil => intro pre L _; rfl
  | cons s ss ih =>
    intro pre L hL
    cases L with
    | nil => simp at hL
    | cons b L =>
      have h1 := ih (pre ++ [b]) L (by simpa using hL)
      rw [List.append_assoc, List.length_append, List.length_singleton] at h1
      simp only [List.zipIdx_cons, List.zip_cons_cons, List.filter_cons]
      cases hq : q s with
      | false => simpa using h1
      | true =>
        simp only [if_true, List.map_cons]
        rw [Py.mapM_eq_ok] at h1 ⊢
        refine .cons ?_ h1
        simp [pyGet]

omit [Field K] [LinearOrder K] in
theorem picked_zip {α β γ : Type} (q : α → Bool) (ss : List α) :
    ∀ (x : List β) (y : List γ), x.length = y.length →
      (((ss.zip x).filter fun e => q e.1).map Prod.snd).zip (((ss.zip y).filter fun e => q e.1).map Prod.snd) =
        ((ss.zip (x.zip y)).filter fun e => q e.1).map Prod.snd := by
  induction ss with
  | nil => intro x y _; rfl
  | cons s ss ih =>
    intro x y h
    cases x with
    | nil => cases y with
      | nil => rfl
      | cons => simp at h
    | cons a x => cases y with
      | nil => simp at h
      | cons b y =>
        have := ih x y (by simpa using h)
        simp only [List.zip_cons_cons, List.filter_cons]
        cases q s with
        | false => simpa using this
        | true => simpa using this

omit [Field K] [LinearOrder K] in
theorem picked_mem {α β : Type} {q : α → Bool} {ss : List α} {x : List β} {b : β} (h : b ∈ ((ss.zip x).filter fun e => q e.1).map Prod.snd) :
    b ∈ x := by
  obtain ⟨⟨s, b'⟩, h1, rfl⟩ := List.mem_map.1 h
  exact (List.of_mem_zip (List.mem_of_mem_filter h1)).2

omit [Field K] [LinearOrder K] in
theorem picked_length {α β γ : Type} (q : α → Bool) (ss : List α) :
    ∀ (x : List β) (y : List γ), x.length = y.length →
      (((ss.zip x).filter fun e => q e.1).map Prod.snd).length = (((ss.zip y).filter fun e => q e.1).map Prod.snd).length := by
  induction ss with
  | nil => intro x y _; rfl
  | cons s ss ih =>
    intro x y h
    cases x with
    | nil => cases y with
      | nil => rfl
      | cons => simp at h
    | cons a x => cases y with
      | nil => simp at h
      | cons b y =>
        have := ih x y (by simpa using h)
        simp only [List.zip_cons_cons, List.filter_cons]
        cases q s with
        | false => simpa using this
        | true => simpa using this

omit [LinearOrder K] in
theorem readAll_gives {i : IceState K} {d : IceData K} (h : Gives i d) : ∃ i', readAll i = .ok (i', d) := by
  rcases h with h | ⟨hf, hc⟩
  · obtain ⟨h1, h2, h3⟩ := reads_of_stored h
    refine ⟨i, ?_⟩
    unfold readAll
    rw [h1]; dsimp only; rw [Py.ok_bind, h2]; dsimp only; rw [Py.ok_bind, h3]; rfl
  · obtain ⟨i', h1, -⟩ := (readAll_fresh hf).1 d hc
    exact ⟨i', h1⟩

variable [Transc K]

/-! ### the incumbent's leaf of every tree -/

theorem Spec.Greedy.one_leaf {cs possible : List (Hp K)} {N minPoints P : Nat} {d : Int} {n : Node K} {L : List (Node K)}
    (h : Greedy cs possible N minPoints P d n L) (hwf : ConfigSpace.WF cs) (hroot : n.conds = [])
    (hpos : ∀ hp ∈ possible, hp ∈ cs ∧ hp.isNumerical = true) {cfg : Config K} (hcfg : HasNumbers possible cfg) :
    ∃ (i : Nat) (leaf : Node K), L[i]? = some leaf ∧ ∀ (j : Nat) m, L[j]? = some m → containsAll cs m.conds cfg = .ok (decide (j = i)) := by
  obtain ⟨bs, hbs, hcount⟩ := h.contains hwf hpos hcfg (b := true) (by rw [hroot]; rfl)
  rw [if_pos rfl] at hcount
  obtain ⟨i, hi⟩ := one_true hcount
  have hlen := hbs.length_eq
  have hil : i < bs.length := by
    obtain ⟨k, hk⟩ : ∃ k, bs[k]? = some true := List.mem_iff_getElem?.1 (List.count_pos_iff.1 (by omega))
    exact (hi k true hk).2
  have hleaf : L[i]? = some L[i] := List.getElem?_eq_getElem (by omega)
  refine ⟨i, _, hleaf, ?_⟩
  intro j m hm
  obtain ⟨hj, rfl⟩ := List.getElem?_eq_some_iff.1 hm
  have hj' : j < bs.length := by omega
  have := hbs.get hj hj'
  simp only [List.get_eq_getElem] at this
  rw [this]
  have h4 := (hi j bs[j] (List.getElem?_eq_getElem hj')).1
  congr 1
  rw [Bool.eq_iff_iff, h4]
  simp

/-- Tree of a forest: something `C66_partition` produces. -/
def TreeOf (p : RF K) (t : DT K) : Prop := ∃ own N minPoints P d w, IsForestTree p own N minPoints P d w t

open Classical in
theorem tree_region {p : RF K} (hwf : p.cfg.space.WF) (hnum : ∀ hp ∈ p.possible, hp ∈ p.cfg.space ∧ hp.isNumerical = true) {t : DT K} (ht : TreeOf p t)
    {inc : Config K} (hinc : HasNumbers p.possible inc) :
    ∃ leaf, dtIncumbentRegion t inc = .ok (some leaf) ∧
      ∀ a, HasNumbers p.possible a → inRegion p.cfg.space (some leaf) a = .ok (decide (SharesLeaf t a inc)) := by
  obtain ⟨own, N, m, P, d, w, ht⟩ := ht
  have hsub : ∀ hp ∈ t.possible, hp ∈ p.possible := fun hp h => ht.splits_sub.subset h
  have hpos : ∀ hp ∈ t.possible, hp ∈ p.cfg.space ∧ hp.isNumerical = true := fun hp h => hnum hp (hsub hp h)
  obtain ⟨i, leaf, hi, hone⟩ := ht.leaves.one_leaf hwf ht.conds hpos fun hp h => hinc hp (hsub hp h)
  refine ⟨leaf, ?_, fun a ha => ?_⟩
  · unfold dtIncumbentRegion
    rw [if_neg (List.ne_nil_of_mem (List.mem_of_getElem? hi)), ht.space]
    exact firstContaining_eq hi hone
  · obtain ⟨k, leaf', hk, hone'⟩ := ht.leaves.one_leaf hwf ht.conds hpos fun hp h => ha hp (hsub hp h)
    have h1 := hone' i leaf hi
    unfold inRegion
    dsimp only
    rw [h1]
    congr 1
    refine decide_eq_decide.2 ⟨fun hik => ?_, ?_⟩
    · subst hik
      refine ⟨leaf, List.mem_of_getElem? hi, ?_, ?_⟩
      · rw [ht.space, h1]; simp
      · rw [ht.space, hone i leaf hi]; simp
    · rintro ⟨l, hl, hla, hli⟩
      obtain ⟨j, hj⟩ := List.mem_iff_getElem?.1 hl
      rw [ht.space, hone' j l hj] at hla
      rw [ht.space, hone j l hj] at hli
      have e1 : j = k := of_decide_eq_true (Except.ok.inj hla)
      have e2 : j = i := of_decide_eq_true (Except.ok.inj hli)
      rw [← e1, e2]

theorem regions_ok {p : RF K} (hwf : p.cfg.space.WF) (hnum : ∀ hp ∈ p.possible, hp ∈ p.cfg.space ∧ hp.isNumerical = true) {trees : List (DT K)}
    (ht : ∀ t ∈ trees, TreeOf p t) {inc : Config K} (hinc : HasNumbers p.possible inc) :
    ∃ regions, trees.mapM (fun t => dtIncumbentRegion t inc) = .ok regions ∧
      ∀ a, HasNumbers p.possible a → countRegions p.cfg.space regions a = .ok (votes trees a inc) := by
  classical
  suffices h : ∃ regions, trees.mapM (fun t => dtIncumbentRegion t inc) = .ok regions ∧
      ∀ a, HasNumbers p.possible a → regions.mapM (fun r => inRegion p.cfg.space r a) = .ok (trees.map fun t => decide (SharesLeaf t a inc)) by
    obtain ⟨regions, h1, h2⟩ := h
    refine ⟨regions, h1, fun a ha => ?_⟩
    unfold countRegions votes
    rw [h2 a ha, Py.ok_bind]
    congr 1
    rw [List.count, List.countP_map]
    refine List.countP_congr fun t _ => ?_
    simp
  induction trees with
  | nil => exact ⟨[], rfl, fun a _ => rfl⟩
  | cons t ts ih =>
    obtain ⟨regions, h1, h2⟩ := ih fun t h => ht t (by simp [h])
    obtain ⟨leaf, h3, h4⟩ := tree_region hwf hnum (ht t (by simp)) hinc
    refine ⟨some leaf :: regions, ?_, fun a ha => ?_⟩
    · rw [Py.mapM_eq_ok] at h1 ⊢
      exact .cons h3 h1
    · have := h2 a ha
      rw [Py.mapM_eq_ok] at this ⊢
      refine .cons ?_ this
      rw [h4 a ha]

theorem overlapIndices_eq {cs : ConfigSpace K} {ofVector : List K → Config K} {regions : List (Option (Node K))} {m : Int} {f : List K → Nat}
    (samples : List (List K)) (h : ∀ r ∈ samples, countRegions cs regions (ofVector r) = .ok (f r)) :
    ∀ k, overlapIndices cs ofVector regions m k samples = .ok (((samples.zipIdx k).filter fun e => decide (m ≤ f e.1)).map Prod.snd) := by
  induction samples with
  | nil => intro k; rfl
  | cons s ss ih =>
    intro k
    rw [overlapIndices, h s (by simp), Py.ok_bind, ih (fun r hr => h r (by simp [hr])) (k + 1), Py.ok_bind]
    simp only [List.zipIdx_cons, List.filter_cons]
    by_cases hm : m ≤ f s
    · simp only [hm, decide_true, if_true]; rfl
    · simp only [hm, decide_false, if_false]; rfl

/-- **C69** The region consists of the forest's own curves, in order, of exactly those samples that share a leaf with the incumbent in at
least `min_incumbent_overlap` trees (default: in all trees). (`ofVector` makes configurations of sample vectors; configurations have
numbers for the hyperparameters that may be split.) -/
theorem C69_votes {p : RF K} (hwf : p.cfg.space.WF) (hnum : ∀ hp ∈ p.possible, hp ∈ p.cfg.space ∧ hp.isNumerical = true) {trees : List (DT K)}
    (htr : p.trees = some trees) (hne : trees ≠ []) (ht : ∀ t ∈ trees, TreeOf p t) {i : IceState K} (hi : rfIce p = .ok i) {own : IceData K}
    (hown : Gives i own) {P F : Nat} (hsh : RegionShape P F (⟨0, own.x, own.y, own.v, []⟩ : Node K)) (hlen : own.x.length = p.cfg.samples.length)
    {ofVector : List K → Config K} (hof : ∀ r ∈ p.cfg.samples, HasNumbers p.possible (ofVector r)) {inc : Config K}
    (hinc : HasNumbers p.possible inc) (overlap : Option Int) :
    ∃ R, rfIncumbentRegion ofVector p inc overlap = .ok R ∧ RegionShape P F R ∧
      curves R = ((p.cfg.samples.zip (dataCurves own)).filter fun e =>
        decide (overlap.getD (trees.length : Int) ≤ votes trees (ofVector e.1) inc)).map Prod.snd := by
  obtain ⟨regions, h1, h2⟩ := regions_ok hwf hnum ht hinc
  have h3 := overlapIndices_eq (m := overlap.getD (trees.length : Int)) p.cfg.samples (fun r hr => h2 _ (hof r hr)) 0
  obtain ⟨i', h4⟩ := readAll_gives hown
  obtain ⟨q, hq⟩ : ∃ q : List K → Bool, q = fun r => decide (overlap.getD (trees.length : Int) ≤ votes trees (ofVector r) inc) := ⟨_, rfl⟩
  have hx := pick_indices q p.cfg.samples [] own.x hlen
  have hxy := hsh.xy
  have hyv := hsh.yv
  dsimp only at hxy hyv
  have hy := pick_indices q p.cfg.samples [] own.y (by rw [← hxy, hlen])
  have hv := pick_indices q p.cfg.samples [] own.v (by rw [← hyv, ← hxy, hlen])
  rw [List.length_nil, List.nil_append] at hx hy hv
  obtain ⟨R, hR⟩ : ∃ R : Node K, R = ⟨0, ((p.cfg.samples.zip own.x).filter fun e => q e.1).map Prod.snd,
    ((p.cfg.samples.zip own.y).filter fun e => q e.1).map Prod.snd, ((p.cfg.samples.zip own.v).filter fun e => q e.1).map Prod.snd, []⟩ := ⟨_, rfl⟩
  have hRs : RegionShape P F R := by
    rw [hR]
    exact ⟨hsh.pos, picked_length q _ _ _ hxy, picked_length q _ _ _ hyv, fun m hm => hsh.xs m (picked_mem hm), fun m hm => hsh.ys m (picked_mem hm),
      fun m hm => hsh.vs m (picked_mem hm)⟩
  refine ⟨R, ?_, hRs, ?_⟩
  · have hmk := hRs.mk_ok
    rw [hR] at hmk ⊢
    cases trees with
    | nil => exact absurd rfl hne
    | cons t ts =>
      unfold rfIncumbentRegion
      rw [htr]
      dsimp only at hmk ⊢
      rw [hq] at hx hy hv hmk ⊢
      rw [h1, Py.ok_bind, h3, Py.ok_bind, hi, Py.ok_bind, h4, Py.ok_bind]
      dsimp only
      rw [hx, Py.ok_bind, hy, Py.ok_bind, hv, Py.ok_bind, hmk]
  · have : ∀ e : List K × Curve K, decide (overlap.getD (trees.length : Int) ≤ votes trees (ofVector e.1) inc) = q e.1 := fun e => by rw [hq]
    simp only [this]
    rw [hR, curves, dataCurves, picked_zip q _ _ _ hyv, picked_zip q _ _ _ (by rw [List.length_zip, ← hyv, min_self, hxy])]

/-- **C69** without trees: AssertionError. -/
theorem C69_no_trees (ofVector : List K → Config K) {p : RF K} (h : p.trees = none ∨ p.trees = some []) (inc : Config K) (overlap : Option Int) :
    rfIncumbentRegion ofVector p inc overlap = .error .assertion := by
  unfold rfIncumbentRegion
  rcases h with h | h <;> rw [h]

section consequences
variable {p : RF K} (hwf : p.cfg.space.WF) (hnum : ∀ hp ∈ p.possible, hp ∈ p.cfg.space ∧ hp.isNumerical = true) {trees : List (DT K)}
    (htr : p.trees = some trees) (hne : trees ≠ []) (ht : ∀ t ∈ trees, TreeOf p t) {i : IceState K} (hi : rfIce p = .ok i) {own : IceData K}
    (hown : Gives i own) {P F : Nat} (hsh : RegionShape P F (⟨0, own.x, own.y, own.v, []⟩ : Node K)) (hlen : own.x.length = p.cfg.samples.length)
    {ofVector : List K → Config K} (hof : ∀ r ∈ p.cfg.samples, HasNumbers p.possible (ofVector r)) {inc : Config K}
    (hinc : HasNumbers p.possible inc)
include hwf hnum htr hne ht hi hown hsh hlen hof hinc

/-- **C69** A larger overlap gives a part of the region. -/
theorem C69_shrinks {a b : Int} (hab : a ≤ b) :
    ∃ Ra Rb, rfIncumbentRegion ofVector p inc (some a) = .ok Ra ∧ rfIncumbentRegion ofVector p inc (some b) = .ok Rb ∧
      (curves Rb).Sublist (curves Ra) := by
  obtain ⟨Ra, a1, -, a3⟩ := C69_votes hwf hnum htr hne ht hi hown hsh hlen hof hinc (some a)
  obtain ⟨Rb, b1, -, b3⟩ := C69_votes hwf hnum htr hne ht hi hown hsh hlen hof hinc (some b)
  refine ⟨Ra, Rb, a1, b1, ?_⟩
  rw [a3, b3]
  refine List.Sublist.map _ (List.monotone_filter_right _ fun e => ?_)
  intro he
  have := of_decide_eq_true he
  exact decide_eq_true (hab.trans this)

/-- **C69** Overlap 0 (or less): all curves. -/
theorem C69_all {a : Int} (ha : a ≤ 0) : ∃ R, rfIncumbentRegion ofVector p inc (some a) = .ok R ∧ curves R = dataCurves own := by
  obtain ⟨R, a1, -, a3⟩ := C69_votes hwf hnum htr hne ht hi hown hsh hlen hof hinc (some a)
  refine ⟨R, a1, ?_⟩
  rw [a3, List.filter_eq_self.2, List.map_snd_zip]
  · have h1 := hsh.curves_length
    change (dataCurves own).length = own.x.length at h1
    rw [h1, hlen]
  · intro e _
    simp only [Option.getD_some, decide_eq_true_eq]
    omega

/-- **C69** More than the number of trees: no curve. -/
theorem C69_none {a : Int} (ha : (trees.length : Int) < a) : ∃ R, rfIncumbentRegion ofVector p inc (some a) = .ok R ∧ curves R = [] := by
  obtain ⟨R, a1, -, a3⟩ := C69_votes hwf hnum htr hne ht hi hown hsh hlen hof hinc (some a)
  refine ⟨R, a1, ?_⟩
  rw [a3, List.filter_eq_nil_iff.2, List.map_nil]
  intro e _
  have : votes trees (ofVector e.1) inc ≤ trees.length := by unfold votes; exact List.countP_le_length
  simp only [Option.getD_some, decide_eq_true_eq]
  omega

/-- **C69** A sample whose configuration is the incumbent is in the region (unless more trees are asked for than there are). -/
theorem C69_incumbent {overlap : Option Int} (ho : overlap.getD (trees.length : Int) ≤ trees.length) {s : Nat} {r : List K}
    (hs : p.cfg.samples[s]? = some r) (hr : ofVector r = inc) :
    ∃ R c, rfIncumbentRegion ofVector p inc overlap = .ok R ∧ (dataCurves own)[s]? = some c ∧ c ∈ curves R := by
  obtain ⟨R, a1, -, a3⟩ := C69_votes hwf hnum htr hne ht hi hown hsh hlen hof hinc overlap
  have h1 := hsh.curves_length
  change (dataCurves own).length = own.x.length at h1
  obtain ⟨hsl, hsr⟩ := List.getElem?_eq_some_iff.1 hs
  have hsl' : s < (dataCurves own).length := by rw [h1, hlen]; exact hsl
  refine ⟨R, _, a1, List.getElem?_eq_getElem hsl', ?_⟩
  rw [a3]
  refine List.mem_map.2 ⟨(r, (dataCurves own)[s]), List.mem_filter.2 ⟨?_, ?_⟩, rfl⟩
  · refine List.mem_of_getElem? (i := s) ?_
    rw [List.getElem?_zip_eq_some]
    exact ⟨hs, List.getElem?_eq_getElem hsl'⟩
  · rw [decide_eq_true_eq]
    have hall : votes trees (ofVector r) inc = trees.length := by
      classical
      unfold votes
      rw [List.countP_eq_length]
      intro t htm
      obtain ⟨ow, N, m, P', d, w, hf⟩ := ht t htm
      obtain ⟨k, leaf, hk, hone⟩ := hf.leaves.one_leaf hwf hf.conds (fun hp h => hnum hp (hf.splits_sub.subset h))
        fun hp h => hinc hp (hf.splits_sub.subset h)
      have hc := hone k leaf hk
      simp only [decide_true] at hc
      refine decide_eq_true ⟨leaf, List.mem_of_getElem? hk, ?_, ?_⟩
      · rw [hr, hf.space, hc]
      · rw [hf.space, hc]
    dsimp only
    rw [hall]
    exact ho

end consequences

/-- **C69** from the constructor on: a forest that was partitioned with any draws, for a surrogate that predicts row by row. -/
theorem C69_after_partition [IsStrictOrderedRing K] {p : RF K} (hp : ValidRF p) (hice : p.ice = none) (hnum : ∀ hp ∈ p.possible, hp.isNumerical = true)
    {mu sd : List K → K} (hmu : RowWise p.cfg.space.length p.cfg.predict mu sd) (hn : p.cfg.samples ≠ []) (hg : 1 ≤ p.cfg.perAxis)
    {numTrees maxDepth size : Int} (ht : 0 < numTrees) (hd : 0 < maxDepth) (hs : 0 < size) {draw : Nat → ForestDraw}
    (hw : ∀ k : Nat, (k : Int) < numTrees → ValidDraw p size.toNat (draw k))
    {ofVector : List K → Config K} (hof : ∀ r ∈ p.cfg.samples, HasNumbers p.possible (ofVector r)) {inc : Config K}
    (hinc : HasNumbers p.possible inc) (overlap : Option Int) :
    ∃ own trees R, calcNow (iceInit p.cfg) = .ok own ∧ (rfPartition p numTrees maxDepth (some size) draw).1.trees = some trees ∧
      (trees.length : Int) = numTrees ∧
      rfIncumbentRegion ofVector (rfPartition p numTrees maxDepth (some size) draw).1 inc overlap = .ok R ∧
      curves R = ((p.cfg.samples.zip (dataCurves own)).filter fun e =>
        decide (overlap.getD numTrees ≤ votes trees (ofVector e.1) inc)).map Prod.snd := by
  obtain ⟨own, trees, i, h1, h2, -, h3, h4, h5, h6⟩ := C66_partition hp hmu hn hg ht hd hs hw
  obtain ⟨idx, hidx, -⟩ := hp.cfg.idx
  obtain ⟨grid, hgr, -⟩ := C40_grid (K := K) (List.length_pos_iff.2 hp.cfg.sel_ne) p.cfg.perAxis
  obtain ⟨own', o1, o2, o3⟩ := calcNow_curves hp.cfg hp.not_centered hmu hn hg hidx hgr
  rw [h1] at o1
  obtain rfl := Except.ok.inj o1
  have hlen : own.x.length = p.cfg.samples.length := by
    have := o2.curves_length
    change (dataCurves own).length = own.x.length at this
    rw [← this, o3, List.length_map]
  rw [h3]
  obtain ⟨R, r1, -, r2⟩ := C69_votes (p := { p with ice := some i, trees := some trees }) hp.cfg.wf
    (fun hp' h => ⟨by
      have : hp' ∈ p.possible := h
      rw [hp.possible] at this
      exact List.mem_of_mem_filter this, hnum hp' h⟩) (trees := trees) rfl
    (by intro h; rw [h] at h5; simp at h5; omega)
    (fun t htm => by
      obtain ⟨k, hk⟩ := List.mem_iff_getElem?.1 htm
      have := (h6 k t hk).2
      exact ⟨_, _, _, _, _, _, ⟨this.space, this.selected, this.root, this.depth, this.conds, this.splits_ne, this.splits_sub, this.splits_mask, this.splits_choice, this.leaves⟩⟩)
    (i := i) rfl (own := own) (by rw [h2 hice]; exact .inr ⟨fresh_init _, h1⟩) o2 hlen hof hinc overlap
  refine ⟨own, trees, R, h1, rfl, h5, r1, ?_⟩
  rw [r2, h5]

/-! ### a concrete forest -/

section concrete

local instance : Transc ℚ := ⟨id, id⟩

def exVector (r : List ℚ) : Config ℚ := ⟨r, [("x1", .num (-5 + 10 * r.getD 0 0)), ("x2", .num (r.getD 1 0)), ("x3", .num (r.getD 2 0))]⟩

/-- The tree of `x1` splits at 11/101 and separates the first sample from the others; the tree of `x3` has one leaf. -/
example : ([none, some 2, some 1, some 0].map fun o => exForest.bind fun p =>
      (rfIncumbentRegion exVector (rfPartition p 2 1 (some 2) exDraw).1 (exVector [0, 0, 0]) o).map fun R => R.y.map fun y => y.getD 0 0) =
    [.ok [1/10], .ok [1/10], .ok [1/10, 9/10, 2/10], .ok [1/10, 9/10, 2/10]] := by decide +kernel

/-- the hypotheses of `C69_after_partition` about configurations hold -/
example : ∃ p, exForest = .ok p ∧ (∀ hp ∈ p.possible, hp.isNumerical = true) ∧ ∀ r, HasNumbers p.possible (exVector r) := by
  have h : exForest.map (fun p => p.possible) = .ok [⟨"x1", .float (-5) 5 false⟩, ⟨"x3", .float 0 1 false⟩] := by decide +kernel
  cases hp : exForest with
  | error e => rw [hp] at h; cases h
  | ok p =>
    rw [hp] at h
    have h := Except.ok.inj h
    dsimp only at h
    refine ⟨p, rfl, by rw [h]; decide +kernel, fun r hp hm => ?_⟩
    rw [h] at hm
    rcases List.mem_cons.1 hm with rfl | hm
    · exact ⟨_, rfl⟩
    · rw [List.mem_singleton.1 hm]; exact ⟨_, rfl⟩

end concrete

end PyPDP
