/-
C122, C123: what the tree depends on: not on the order of the samples, not on the means, not on the scale of the standard deviations.
-/
import Verif.Props.Forest
import Verif.Props.Likelihood

namespace PyPDP
open Spec
variable {K : Type}

/-! ### one relation between lists of curves is enough -/

section core
variable [Field K] [LinearOrder K] [IsStrictOrderedRing K]

/-- a relation between lists of curves that no step of the tree can tell apart: same number of curves, same thresholds, losses in a fixed ratio -/
structure Indist (P : Nat) (s : K) (R : List (Curve K) → List (Curve K) → Prop) : Prop where
  pos : 0 < s
  len : ∀ {L L'}, R L L' → L'.length = L.length
  lower : ∀ {L L'} (f : Nat) (t : K), R L L' → R (lowerPart f t L) (lowerPart f t L')
  upper : ∀ {L L'} (f : Nat) (t : K), R L L' → R (upperPart f t L) (upperPart f t L')
  loss : ∀ {L L'}, R L L' → curveLoss P L' = s * curveLoss P L

variable {P : Nat} {s : K} {R : List (Curve K) → List (Curve K) → Prop} {space possible : List (Hp K)} {N minPoints : Nat}

omit [IsStrictOrderedRing K] in
theorem Indist.cand (h : Indist P s R) {L L' : List (Curve K)} (hR : R L L') {i j : Nat} {hp : Hp K} {f : Nat} :
    IsCandidate space possible N minPoints L' i j hp f ↔ IsCandidate space possible N minPoints L i j hp f := by
  have h1 := h.len (h.lower f (threshold N j) hR)
  have h2 := h.len (h.upper f (threshold N j) hR)
  constructor
  · rintro ⟨a, b, c, d, e, g⟩; exact ⟨a, b, c, d, by rw [← h1]; exact e, by rw [← h2]; exact g⟩
  · rintro ⟨a, b, c, d, e, g⟩; exact ⟨a, b, c, d, by rw [h1]; exact e, by rw [h2]; exact g⟩

omit [IsStrictOrderedRing K] in
theorem Indist.cost (h : Indist P s R) {L L' : List (Curve K)} (hR : R L L') (f j : Nat) : splitCost P N L' f j = s * splitCost P N L f j := by
  unfold splitCost
  rw [h.loss (h.lower f (threshold N j) hR), h.loss (h.upper f (threshold N j) hR)]
  ring

theorem Indist.best (h : Indist P s R) {L L' : List (Curve K)} (hR : R L L') {i j : Nat} {hp : Hp K} {f : Nat}
    (hb : IsBestCandidate space possible N minPoints P L' i j hp f) : IsBestCandidate space possible N minPoints P L i j hp f := by
  refine ⟨(h.cand hR).1 hb.1, fun i' j' hp' f' hc => ?_⟩
  have := hb.2 i' j' hp' f' ((h.cand hR).2 hc)
  rw [h.cost hR, h.cost hR] at this
  exact ⟨le_of_mul_le_mul_left this.1 h.pos, fun e => this.2 (by rw [e])⟩

omit [IsStrictOrderedRing K] in
theorem best_unique (hwf : ConfigSpace.WF space) {L : List (Curve K)} {i j i' j' : Nat} {hp hp' : Hp K} {f f' : Nat}
    (h : IsBestCandidate space possible N minPoints P L i j hp f) (h' : IsBestCandidate space possible N minPoints P L i' j' hp' f') :
    i = i' ∧ j = j' ∧ hp = hp' ∧ f = f' := by
  obtain ⟨a1, a2⟩ := h.2 _ _ _ _ h'.1
  obtain ⟨b1, b2⟩ := h'.2 _ _ _ _ h.1
  have e := le_antisymm a1 b1
  have c1 := a2 e
  have c2 := b2 e.symm
  obtain ⟨rfl, rfl⟩ : i = i' ∧ j = j' := by omega
  have e1 := h.1.hp_at
  rw [h'.1.hp_at] at e1
  obtain rfl := Option.some.inj e1
  have f1 := h.1.feature
  have f2 := h'.1.feature
  rw [isFeature_idx hwf] at f1 f2
  rw [f1] at f2
  exact ⟨rfl, rfl, rfl, Except.ok.inj f2⟩

/-- two regions with the same conditions, whose curves are related -/
structure SameCut (R : List (Curve K) → List (Curve K) → Prop) (m m' : Node K) : Prop where
  depth : m'.depth = m.depth
  conds : m'.conds = m.conds
  curves : R (curves m) (curves m')

theorem Indist.greedy (h : Indist P s R) (hwf : ConfigSpace.WF space) {d : Int} {n : Node K} {L : List (Node K)}
    (hg : Greedy space possible N minPoints P d n L) :
    ∀ {n' : Node K} {L' : List (Node K)}, Greedy space possible N minPoints P d n' L' → SameCut R n n' → List.Forall₂ (SameCut R) L L' := by
  induction hg with
  | @leaf n hn hs =>
    intro n' L' hg' hc
    cases hg' with
    | leaf _ _ => exact .cons hc .nil
    | @branch _ l r Ll Lr i j hp f _ h1 h2 h3 _ _ _ =>
      exfalso
      rw [hc.depth] at h1
      rw [h.len hc.curves] at h2
      rcases hs with hs | hs | hs
      · omega
      · omega
      · exact hs _ _ _ _ (h.best hc.curves h3).1
  | @branch n l r Ll Lr i j hp f hn h1 h2 h3 hsp hgl hgr ih1 ih2 =>
    intro n' L' hg' hc
    cases hg' with
    | leaf _ hs =>
      exfalso
      rw [hc.depth, h.len hc.curves] at hs
      rcases hs with hs | hs | hs
      · omega
      · omega
      · exact hs _ _ _ _ ((h.cand hc.curves).2 h3.1)
    | @branch _ l' r' Ll' Lr' i' j' hp' f' _ _ _ h3' hsp' hgl' hgr' =>
      obtain ⟨rfl, rfl, rfl, rfl⟩ := best_unique hwf h3 (h.best hc.curves h3')
      refine List.rel_append (ih2 hgr' ⟨?_, ?_, ?_⟩) (ih1 hgl' ⟨?_, ?_, ?_⟩)
      · rw [hsp'.right_depth, hsp.right_depth, hc.depth]
      · rw [hsp'.right_conds, hsp.right_conds, hc.conds]
      · rw [hsp'.right_curves, hsp.right_curves]; exact h.upper f (threshold N j) hc.curves
      · rw [hsp'.left_depth, hsp.left_depth, hc.depth]
      · rw [hsp'.left_conds, hsp.left_conds, hc.conds]
      · rw [hsp'.left_curves, hsp.left_curves]; exact h.lower f (threshold N j) hc.curves

/-! ### the two relations -/

omit [LinearOrder K] [IsStrictOrderedRing K] in
theorem curveLoss_perm {L L' : List (Curve K)} (h : L.Perm L') : curveLoss P L' = curveLoss P L := by
  have hm : ∀ p, meanVar p L' = meanVar p L := by
    intro p
    unfold meanVar
    rw [(h.map _).sum_eq, h.length_eq]
  unfold curveLoss
  refine Finset.sum_congr rfl fun p _ => ?_
  rw [hm p]
  exact ((h.map _).sum_eq).symm

theorem indist_perm : Indist P (1 : K) (fun L L' => L.Perm L') where
  pos := one_pos
  len h := h.length_eq.symm
  lower _ _ h := h.filter _
  upper _ _ h := h.filter _
  loss h := by rw [curveLoss_perm h, one_mul]

/-- the second curve runs through the same points and has `a` times the variances of the first -/
def ScaledVar (a : K) (c c' : Curve K) : Prop := c'.1 = c.1 ∧ c'.2.2 = c.2.2.map (a * ·)

omit [LinearOrder K] [IsStrictOrderedRing K] in
theorem related_filter {α : Type} {Q : α → α → Prop} {q : α → Bool} {L L' : List α} (h : List.Forall₂ Q L L') (hq : ∀ a b, Q a b → q a = q b) :
    List.Forall₂ Q (L.filter q) (L'.filter q) := by
  induction h with
  | nil => exact .nil
  | @cons a b l l' hab _ ih =>
    rw [List.filter_cons, List.filter_cons, ← hq a b hab]
    split
    · exact .cons hab ih
    · exact ih

omit [LinearOrder K] [IsStrictOrderedRing K] in
theorem getD_map_mul (a : K) (l : List K) (p : Nat) : (l.map (a * ·)).getD p 0 = a * l.getD p 0 := by
  simp only [List.getD_eq_getElem?_getD, List.getElem?_map]
  cases l[p]? <;> simp

omit [LinearOrder K] [IsStrictOrderedRing K] in
theorem curveLoss_scaled {a : K} {L L' : List (Curve K)} (h : List.Forall₂ (ScaledVar a) L L') : curveLoss P L' = a ^ 2 * curveLoss P L := by
  have hs : ∀ (p : Nat) (F : K → K), (L'.map fun c => F (c.2.2.getD p 0)) = L.map fun c => F (a * c.2.2.getD p 0) := by
    intro p F
    induction h with
    | nil => rfl
    | cons hab _ ih => simp only [List.map_cons, ih, hab.2, getD_map_mul]
  have hm : ∀ p, meanVar p L' = a * meanVar p L := by
    intro p
    unfold meanVar
    rw [hs p fun x => x, ← h.length_eq, List.sum_map_mul_left, mul_div_assoc]
  unfold curveLoss
  rw [Finset.mul_sum]
  refine Finset.sum_congr rfl fun p _ => ?_
  rw [hs p fun x => (x - meanVar p L') ^ 2, hm p, ← List.sum_map_mul_left]
  congr 1
  refine List.map_congr_left fun c _ => ?_
  ring

theorem indist_scaled {a : K} (ha : 0 < a) : Indist P (a ^ 2) (List.Forall₂ (ScaledVar a)) where
  pos := by positivity
  len h := h.length_eq.symm
  lower f t h := related_filter h fun c c' hc => by unfold featureOf; rw [hc.1]
  upper f t h := related_filter h fun c c' hc => by unfold featureOf; rw [hc.1]
  loss h := curveLoss_scaled h

end core

/-! ### the trees -/

section trees
variable [Field K] [LinearOrder K] [IsStrictOrderedRing K]

/-- the constructor succeeds for a row-wise surrogate, and the root holds the curves of the samples -/
theorem dtInit_rows {space : ConfigSpace K} (hwf : space.WF) {predict : Predict K} {mu sd : List K → K} (hp : RowWise space.length predict mu sd)
    {sel : Selection K} {selected : List (Hp K)} (hsel : convertHyperparameters sel space = .ok selected)
    (hmem : ∀ hp ∈ selected, hp ∈ space) (hd : (selected.map Hp.name).Nodup) (hne : selected ≠ [])
    {samples : List (List K)} (hrows : ∀ r ∈ samples, r.length = space.length) (hs : samples ≠ []) {perAxis : Nat} (hg : 1 ≤ perAxis)
    (numSplits minPoints : Nat) {notSplittable : Option (Selection K)} {ns : List (Hp K)} (hns : notSplittableHps notSplittable space = .ok ns)
    {idx : List Nat} (hidx : getSelectedIdx selected space = .ok idx) {grid : List (List K)} (hgr : gridPoints selected.length perAxis = .ok grid) :
    ∃ p, dtInit space predict sel samples perAxis numSplits minPoints notSplittable = .ok p ∧ p.cfg.space = space ∧ p.cfg.selected = selected ∧
      p.possible = possibleSplits space selected ns ∧ p.numSplits = numSplits ∧ p.minPoints = minPoints ∧
      ValidDT (perAxis ^ selected.length) p ∧ curves p.root = samples.map (curveAt idx grid mu sd) := by
  obtain ⟨c, hc⟩ : ∃ c : IceCfg K, c = ⟨space, selected, samples, samples.length, perAxis, perAxis ^ selected.length, false, predict⟩ := ⟨_, rfl⟩
  have hv : ValidCfg c := by rw [hc]; exact ⟨hwf, hmem, hd, hne, hrows, rfl, rfl⟩
  have hinit : algorithmInit space predict sel samples perAxis = .ok c := by rw [algorithmInit, hsel, hc]; rfl
  obtain ⟨d, h1, h2, h3⟩ := calcNow_curves hv (by rw [hc]) (mu := mu) (sd := sd) (by rw [hc]; exact hp) (by rw [hc]; exact hs) (by rw [hc]; exact hg)
    (idx := idx) (by rw [hc]; exact hidx) (grid := grid) (by rw [hc]; exact hgr)
  obtain ⟨i, r1, -, -⟩ := (readAll_fresh (fresh_init c)).1 d h1
  have hcs : c.space = space := by rw [hc]
  have hcl : c.selected = selected := by rw [hc]
  have hcg : c.perAxis = perAxis := by rw [hc]
  refine ⟨⟨c, possibleSplits space c.selected ns, numSplits, minPoints, i, ⟨0, d.x, d.y, d.v, []⟩, []⟩, ?_, hcs, hcl, by rw [hcl], rfl, rfl, ?_, ?_⟩
  · unfold dtInit
    rw [hinit, Py.ok_bind, hns, Py.ok_bind, ownIce_eq hv.num_samples hv.num_grid (by rw [hc]), Py.ok_bind, r1, Py.ok_bind]
    dsimp only
    rw [h2.mk_ok, Py.ok_bind]
    rfl
  · rw [hcl, hcg] at h2
    refine ⟨hv.wf, fun hp hm => ?_, h2, rfl, rfl⟩
    dsimp only
    rw [hcs]
    exact List.mem_of_mem_filter hm
  · rw [show c.samples = samples by rw [hc]] at h3
    exact h3

theorem partition_related [Transc K] {P : Nat} {s : K} {R : List (Curve K) → List (Curve K) → Prop} (h : Indist P s R) {p p' : DT K}
    (hv : ValidDT P p) (hv' : ValidDT P p') (e1 : p'.cfg.space = p.cfg.space) (e2 : p'.possible = p.possible) (e3 : p'.numSplits = p.numSplits)
    (e4 : p'.minPoints = p.minPoints) (hR : R (curves p.root) (curves p'.root)) {d : Int} (hd : 0 < d) :
    ∃ L L', dtPartition p d = ({ p with leaves := L }, .ok L) ∧ dtPartition p' d = ({ p' with leaves := L' }, .ok L') ∧
      Greedy p.cfg.space p.possible p.numSplits p.minPoints P d p.root L ∧ Greedy p.cfg.space p.possible p.numSplits p.minPoints P d p'.root L' ∧
      List.Forall₂ (SameCut R) L L' := by
  obtain ⟨L, h1, -, h3, -⟩ := partition_eq hv hd
  obtain ⟨L', h1', -, h3', -⟩ := partition_eq hv' hd
  rw [e1, e2, e3, e4] at h3'
  exact ⟨L, L', h1, h1', h3, h3', h.greedy hv.wf h3 h3' ⟨by rw [hv.depth, hv'.depth], by rw [hv.conds, hv'.conds], hR⟩⟩

omit [IsStrictOrderedRing K] in
theorem firstContaining_related [Transc K] {R : List (Curve K) → List (Curve K) → Prop} (cs : ConfigSpace K) (cfg : Config K) {L L' : List (Node K)}
    (h : List.Forall₂ (SameCut R) L L') :
    (∀ e, firstContaining cs cfg L = .error e ↔ firstContaining cs cfg L' = .error e) ∧
    (firstContaining cs cfg L = .ok none ↔ firstContaining cs cfg L' = .ok none) ∧
    (∀ m, firstContaining cs cfg L = .ok (some m) → ∃ m', firstContaining cs cfg L' = .ok (some m') ∧ SameCut R m m') := by
  induction h with
  | nil => exact ⟨fun e => Iff.rfl, Iff.rfl, fun m hm => by cases hm⟩
  | @cons a b l l' hab _ ih =>
    unfold firstContaining
    rw [hab.conds]
    cases containsAll cs a.conds cfg with
    | error e => exact ⟨fun e => Iff.rfl, Iff.rfl, fun m hm => by cases hm⟩
    | ok v =>
      cases v with
      | false => exact ih
      | true =>
        refine ⟨fun e => ⟨?_, ?_⟩, ⟨?_, ?_⟩, fun m hm => ?_⟩
        iterate 4 (intro h; cases h)
        obtain rfl := Option.some.inj (Except.ok.inj hm)
        exact ⟨b, rfl, hab⟩

omit [IsStrictOrderedRing K] in
theorem incumbent_related [Transc K] {R : List (Curve K) → List (Curve K) → Prop} {p p' : DT K} (e1 : p'.cfg.space = p.cfg.space)
    (h : List.Forall₂ (SameCut R) p.leaves p'.leaves) (cfg : Config K) :
    (∀ e, dtIncumbentRegion p cfg = .error e ↔ dtIncumbentRegion p' cfg = .error e) ∧
    (dtIncumbentRegion p cfg = .ok none ↔ dtIncumbentRegion p' cfg = .ok none) ∧
    (∀ m, dtIncumbentRegion p cfg = .ok (some m) → ∃ m', dtIncumbentRegion p' cfg = .ok (some m') ∧ SameCut R m m') := by
  unfold dtIncumbentRegion
  by_cases h0 : p.leaves = []
  · have h0' : p'.leaves = [] := by rw [h0] at h; exact List.forall₂_nil_left_iff.1 h
    rw [if_pos h0, if_pos h0']
    exact ⟨fun e => Iff.rfl, Iff.rfl, fun m hm => by cases hm⟩
  · have h0' : p'.leaves ≠ [] := by intro h1; rw [h1] at h; exact h0 (List.forall₂_nil_right_iff.1 h)
    rw [if_neg h0, if_neg h0', e1]
    exact firstContaining_related _ cfg h

theorem forall₂_mem {α β : Type} {Q S : α → β → Prop} {L : List α} {L' : List β} (h : List.Forall₂ Q L L')
    (hi : ∀ a b, a ∈ L → b ∈ L' → Q a b → S a b) : List.Forall₂ S L L' := by
  induction h with
  | nil => exact .nil
  | cons hab _ ih => exact .cons (hi _ _ (by simp) (by simp) hab) (ih fun a b ha hb => hi a b (by simp [ha]) (by simp [hb]))

omit [LinearOrder K] [IsStrictOrderedRing K] in
theorem regionPdp_perm {P F : Nat} {m m' : Node K} (hm : RegionShape P F m) (hm' : RegionShape P F m') (h : (curves m).Perm (curves m'))
    (sp : ConfigSpace K) (sl : List (Hp K)) : regionPdp sp sl m' = regionPdp sp sl m := by
  have hx := h.map Prod.fst
  have hy := h.map (fun c => c.2.1)
  have hv := h.map (fun c => c.2.2)
  rw [hm.map_x, hm'.map_x] at hx
  rw [hm.map_y, hm'.map_y] at hy
  rw [hm.map_v, hm'.map_v] at hv
  unfold regionPdp
  rw [meanAxis0_perm (⟨rfl, fun r hr => ⟨(hm.xs r hr).1, (hm.xs r hr).2⟩⟩ : Shape3 m.x.length P F m.x) hx, meanRows_perm ⟨rfl, hm.ys⟩ hy,
    meanRows_perm ⟨rfl, hm.vs⟩ hv]

/-- a second tree of the same space and selection, with other samples and another surrogate -/
theorem tree_pair {space : ConfigSpace K} (hwf : space.WF) {predict predict' : Predict K} {mu sd mu' sd' : List K → K}
    (hp : RowWise space.length predict mu sd) (hp' : RowWise space.length predict' mu' sd')
    {samples samples' : List (List K)} (hrows : ∀ r ∈ samples, r.length = space.length) (hs : samples ≠ [])
    (hrows' : ∀ r ∈ samples', r.length = space.length) (hs' : samples' ≠ [])
    {sel : Selection K} {perAxis numSplits minPoints : Nat} (hg : 1 ≤ perAxis) {notSplittable : Option (Selection K)} {p : DT K}
    (h : dtInit space predict sel samples perAxis numSplits minPoints notSplittable = .ok p)
    (hmem : ∀ hp ∈ p.cfg.selected, hp ∈ space) (hd : (p.cfg.selected.map Hp.name).Nodup) (hne : p.cfg.selected ≠ []) :
    ∃ p' P idx grid, dtInit space predict' sel samples' perAxis numSplits minPoints notSplittable = .ok p' ∧ ValidDT P p ∧ ValidDT P p' ∧
      p.cfg.space = space ∧ p'.cfg.space = p.cfg.space ∧ p'.cfg.selected = p.cfg.selected ∧ p'.possible = p.possible ∧ p'.numSplits = p.numSplits ∧
      p'.minPoints = p.minPoints ∧ getSelectedIdx p.cfg.selected space = .ok idx ∧ gridPoints p.cfg.selected.length perAxis = .ok grid ∧
      (∀ t ∈ grid, t.length = p.cfg.selected.length) ∧
      curves p.root = samples.map (curveAt idx grid mu sd) ∧ curves p'.root = samples'.map (curveAt idx grid mu' sd') := by
  obtain ⟨c, ns, i, d, hc, hns, -, -, -, e⟩ := dtInit_ok h
  obtain ⟨hsel, -⟩ := algorithmInit_eq hc
  have hpc : p.cfg = c := by rw [e]
  rw [← hpc] at hsel
  obtain ⟨grid, hgr, -, hfull⟩ := C40_grid (K := K) (List.length_pos_iff.2 hne) perAxis
  obtain ⟨idx, hidx, -⟩ := (⟨hwf, hmem, hd, hne, hrows, rfl, rfl⟩ : ValidCfg (⟨space, p.cfg.selected, samples, samples.length, perAxis,
    perAxis ^ p.cfg.selected.length, false, predict⟩ : IceCfg K)).idx
  obtain ⟨q, q1, q2, q3, q4, q5, q6, q7, q8⟩ := dtInit_rows hwf hp hsel hmem hd hne hrows hs hg numSplits minPoints hns hidx hgr
  obtain ⟨q', r1, r2, r3, r4, r5, r6, r7, r8⟩ := dtInit_rows hwf hp' hsel hmem hd hne hrows' hs' hg numSplits minPoints hns hidx hgr
  rw [h] at q1
  obtain rfl := Except.ok.inj q1
  exact ⟨q', _, idx, grid, r1, q7, r7, q2, by rw [r2, q2], r3, by rw [r4, q4], by rw [r5, q5], by rw [r6, q6], hidx, hgr,
    fun t ht => ((hfull.2 t).1 ht).1, q8, r8⟩

/-- **C122** The samples in another order: the constructor succeeds again, and for every depth the new tree has the same leaves in the same order,
with the same conditions and the same curves in another order; loss and partial dependence of every leaf are the same. -/
theorem C122_tree [Transc K] {space : ConfigSpace K} (hwf : space.WF) {predict : Predict K} {mu sd : List K → K} (hp : RowWise space.length predict mu sd)
    {samples samples' : List (List K)} (hperm : samples.Perm samples') (hrows : ∀ r ∈ samples, r.length = space.length) (hs : samples ≠ [])
    {sel : Selection K} {perAxis numSplits minPoints : Nat} (hg : 1 ≤ perAxis) {notSplittable : Option (Selection K)} {p : DT K}
    (h : dtInit space predict sel samples perAxis numSplits minPoints notSplittable = .ok p)
    (hmem : ∀ hp ∈ p.cfg.selected, hp ∈ space) (hd : (p.cfg.selected.map Hp.name).Nodup) (hne : p.cfg.selected ≠ []) :
    ∃ p', dtInit space predict sel samples' perAxis numSplits minPoints notSplittable = .ok p' ∧ ∀ depth : Int, 0 < depth →
      ∃ leaves leaves', (dtPartition p depth).2 = .ok leaves ∧ (dtPartition p' depth).2 = .ok leaves' ∧
        List.Forall₂ (fun m m' => m'.depth = m.depth ∧ m'.conds = m.conds ∧ (curves m).Perm (curves m') ∧ regionLoss m'.v = regionLoss m.v ∧
          ∀ sp sl, regionPdp sp sl m' = regionPdp sp sl m) leaves leaves' := by
  obtain ⟨p', P, idx, grid, h1, hv, hv', -, e1, -, e2, e3, e4, -, -, -, c1, c2⟩ := tree_pair hwf hp hp hrows hs
    (fun r hr => hrows r (hperm.mem_iff.2 hr)) (by rintro rfl; exact hs (List.perm_nil.1 hperm)) hg h hmem hd hne
  refine ⟨p', h1, fun depth hdep => ?_⟩
  obtain ⟨L, L', g1, g2, g3, g4, g5⟩ := partition_related indist_perm hv hv' e1 e2 e3 e4 (by rw [c1, c2]; exact hperm.map _) hdep
  refine ⟨L, L', by rw [g1], by rw [g2], ?_⟩
  refine forall₂_mem g5 fun m m' hm hm' hc => ?_
  have s1 := g3.shapes m hm
  have s2 := g4.shapes m' hm'
  refine ⟨hc.depth, hc.conds, hc.curves, ?_, regionPdp_perm s1 s2 hc.curves⟩
  rw [regionLoss_curves s1, regionLoss_curves s2, curveLoss_perm hc.curves]

/-- **C122** and every configuration belongs to the same leaf: `get_incumbent_region` fails for both trees or for none, finds a region in both
or in none, and the two regions have the same conditions and the same curves. -/
theorem C122_incumbent [Transc K] {space : ConfigSpace K} (hwf : space.WF) {predict : Predict K} {mu sd : List K → K}
    (hp : RowWise space.length predict mu sd) {samples samples' : List (List K)} (hperm : samples.Perm samples')
    (hrows : ∀ r ∈ samples, r.length = space.length) (hs : samples ≠ [])
    {sel : Selection K} {perAxis numSplits minPoints : Nat} (hg : 1 ≤ perAxis) {notSplittable : Option (Selection K)} {p p' : DT K}
    (h : dtInit space predict sel samples perAxis numSplits minPoints notSplittable = .ok p)
    (h' : dtInit space predict sel samples' perAxis numSplits minPoints notSplittable = .ok p')
    (hmem : ∀ hp ∈ p.cfg.selected, hp ∈ space) (hd : (p.cfg.selected.map Hp.name).Nodup) (hne : p.cfg.selected ≠ []) {depth : Int} (hdep : 0 < depth)
    (cfg : Config K) :
    (∀ e, dtIncumbentRegion (dtPartition p depth).1 cfg = .error e ↔ dtIncumbentRegion (dtPartition p' depth).1 cfg = .error e) ∧
    (dtIncumbentRegion (dtPartition p depth).1 cfg = .ok none ↔ dtIncumbentRegion (dtPartition p' depth).1 cfg = .ok none) ∧
    (∀ m, dtIncumbentRegion (dtPartition p depth).1 cfg = .ok (some m) →
      ∃ m', dtIncumbentRegion (dtPartition p' depth).1 cfg = .ok (some m') ∧ m'.conds = m.conds ∧ (curves m).Perm (curves m')) := by
  obtain ⟨q', P, idx, grid, h1, hv, hv', e0, e1, -, e2, e3, e4, -, -, -, c1, c2⟩ := tree_pair hwf hp hp hrows hs
    (fun r hr => hrows r (hperm.mem_iff.2 hr)) (by rintro rfl; exact hs (List.perm_nil.1 hperm)) hg h hmem hd hne
  rw [h'] at h1
  obtain rfl := Except.ok.inj h1
  obtain ⟨L, L', g1, g2, g3, g4, g5⟩ := partition_related indist_perm hv hv' e1 e2 e3 e4 (by rw [c1, c2]; exact hperm.map _) hdep
  rw [g1, g2]
  obtain ⟨r1, r2, r3⟩ := incumbent_related (p := { p with leaves := L }) (p' := { p' with leaves := L' }) e1 g5 cfg
  exact ⟨r1, r2, fun m hm => by obtain ⟨m', h1, h2⟩ := r3 m hm; exact ⟨m', h1, h2.conds, h2.curves⟩⟩

/-- **C123** Another surrogate on the same samples, whose variances are `a > 0` times those of the first one at every row, and whose means may be
anything: for every depth the tree has the same leaves in the same order, cut out by the same conditions and holding the same rows; the variances
are multiplied by `a`, the losses by `a²`. -/
theorem C123_tree [Transc K] {space : ConfigSpace K} (hwf : space.WF) {predict predict' : Predict K} {mu sd mu' sd' : List K → K}
    (hp : RowWise space.length predict mu sd) (hp' : RowWise space.length predict' mu' sd') {a : K} (ha : 0 < a)
    (hsd : ∀ r : List K, r.length = space.length → sd' r ^ 2 = a * sd r ^ 2)
    {samples : List (List K)} (hrows : ∀ r ∈ samples, r.length = space.length) (hs : samples ≠ [])
    {sel : Selection K} {perAxis numSplits minPoints : Nat} (hg : 1 ≤ perAxis) {notSplittable : Option (Selection K)} {p : DT K}
    (h : dtInit space predict sel samples perAxis numSplits minPoints notSplittable = .ok p)
    (hmem : ∀ hp ∈ p.cfg.selected, hp ∈ space) (hd : (p.cfg.selected.map Hp.name).Nodup) (hne : p.cfg.selected ≠ []) :
    ∃ p', dtInit space predict' sel samples perAxis numSplits minPoints notSplittable = .ok p' ∧ ∀ depth : Int, 0 < depth →
      ∃ leaves leaves', (dtPartition p depth).2 = .ok leaves ∧ (dtPartition p' depth).2 = .ok leaves' ∧
        List.Forall₂ (fun m m' => m'.depth = m.depth ∧ m'.conds = m.conds ∧ m'.x = m.x ∧ m'.v = m.v.map (fun row => row.map (a * ·)) ∧
          regionLoss m'.v = a ^ 2 * regionLoss m.v) leaves leaves' := by
  obtain ⟨p', P, idx, grid, h1, hv, hv', e0, e1, -, e2, e3, e4, -, -, -, c1, c2⟩ := tree_pair hwf hp hp' hrows hs hrows hs hg h hmem hd hne
  refine ⟨p', h1, fun depth hdep => ?_⟩
  obtain ⟨L, L', g1, g2, g3, g4, g5⟩ := partition_related (indist_scaled ha) hv hv' e1 e2 e3 e4 (by
    rw [c1, c2]
    clear c1 c2 hs h h1
    induction samples with
    | nil => exact .nil
    | cons r rs ih =>
      refine .cons ⟨rfl, ?_⟩ (ih fun r' hr' => hrows r' (by simp [hr']))
      simp only [curveAt, List.map_map]
      refine List.map_congr_left fun t _ => ?_
      simp only [Function.comp]
      exact hsd _ (by rw [assignRow_length]; exact hrows r (by simp))) hdep
  refine ⟨L, L', by rw [g1], by rw [g2], forall₂_mem g5 fun m m' hm hm' hc => ?_⟩
  have s1 := g3.shapes m hm
  have s2 := g4.shapes m' hm'
  refine ⟨hc.depth, hc.conds, ?_, ?_, ?_⟩
  · rw [← s1.map_x, ← s2.map_x]
    have := hc.curves
    generalize curves m = A at this
    generalize curves m' = B at this
    induction this with
    | nil => rfl
    | cons hab _ ih => rw [List.map_cons, List.map_cons, ih, hab.1]
  · rw [← s1.map_v, ← s2.map_v]
    have := hc.curves
    generalize curves m = A at this
    generalize curves m' = B at this
    induction this with
    | nil => rfl
    | cons hab _ ih => rw [List.map_cons, List.map_cons, ih, hab.2, List.map_cons]
  · rw [regionLoss_curves s1, regionLoss_curves s2, curveLoss_scaled hc.curves]

end trees

/-! ### confidence and likelihood -/

theorem meanConfidence_perm {P F : Nat} {m m' : Node ℝ} (hm : RegionShape P F m) (hm' : RegionShape P F m') (h : (curves m).Perm (curves m')) :
    meanConfidence m' = meanConfidence m := by
  by_cases hne : curves m = []
  · have hne' : curves m' = [] := by rw [hne] at h; exact h.nil_eq.symm
    have e : ∀ {n : Node ℝ}, RegionShape P F n → curves n = [] → n.v = [] := fun {n} hn h0 => by
      have := hn.map_v; rw [h0] at this; exact this.symm
    rw [C82_empty (e hm hne), C82_empty (e hm' hne')]
  · have hne' : curves m' ≠ [] := fun h0 => hne (by rw [h0] at h; exact List.perm_nil.1 h)
    rw [C82_mean_confidence hm hne, C82_mean_confidence hm' hne', h.length_eq, (h.map _).sum_eq]

theorem trueY_grid (inv : Hp ℝ → Val ℝ → ℝ) (space : ConfigSpace ℝ) (hp : Hp ℝ) {f : Nat} (integral : BlackboxFn ℝ) {idx : List Nat} (hnd : idx.Nodup)
    (hf : idx[0]? = some f) {grid : List (List ℝ)} (hgrid : ∀ t ∈ grid, t ≠ []) {r r' : List ℝ} (hr : f < r.length) (hr' : f < r'.length) :
    (grid.map fun g => assignRow idx g r').mapM (trueAt inv space hp f integral) =
      (grid.map fun g => assignRow idx g r).mapM (trueAt inv space hp f integral) := by
  have key : ∀ (t : List ℝ), t ≠ [] → trueAt inv space hp f integral (assignRow idx t r') = trueAt inv space hp f integral (assignRow idx t r) := by
    intro t ht
    obtain ⟨a, as, rfl⟩ := List.exists_cons_of_ne_nil ht
    have h1 := assignRow_selected hnd (vals := a :: as) (row := r) hf (by simp : (a :: as)[0]? = some a) hr
    have h2 := assignRow_selected hnd (vals := a :: as) (row := r') hf (by simp : (a :: as)[0]? = some a) hr'
    unfold trueAt pyGet
    rw [h1, h2]
  induction grid with
  | nil => rfl
  | cons t ts ih =>
    rw [List.map_cons, List.map_cons, List.mapM_cons, List.mapM_cons, key t (hgrid t (by simp)), ih fun t' ht' => hgrid t' (by simp [ht'])]

/-- **C122** (real numbers) moreover every leaf has the same `mean_confidence`, and the same `negative_log_likelihood` for every true function. -/
theorem C122_measures {space : ConfigSpace ℝ} (hwf : space.WF) {predict : Predict ℝ} {mu sd : List ℝ → ℝ} (hp : RowWise space.length predict mu sd)
    {samples samples' : List (List ℝ)} (hperm : samples.Perm samples') (hrows : ∀ r ∈ samples, r.length = space.length) (hs : samples ≠ [])
    {sel : Selection ℝ} {perAxis numSplits minPoints : Nat} (hg : 1 ≤ perAxis) {notSplittable : Option (Selection ℝ)} {p p' : DT ℝ}
    (h : dtInit space predict sel samples perAxis numSplits minPoints notSplittable = .ok p)
    (h' : dtInit space predict sel samples' perAxis numSplits minPoints notSplittable = .ok p')
    (hmem : ∀ hp ∈ p.cfg.selected, hp ∈ space) (hd : (p.cfg.selected.map Hp.name).Nodup) (hne : p.cfg.selected ≠ []) {depth : Int} (hdep : 0 < depth) :
    ∃ leaves leaves', (dtPartition p depth).2 = .ok leaves ∧ (dtPartition p' depth).2 = .ok leaves' ∧
      List.Forall₂ (fun m m' => m'.conds = m.conds ∧ meanConfidence m' = meanConfidence m ∧
        ∀ inv f, negativeLogLikelihood inv space p.cfg.selected m' f = negativeLogLikelihood inv space p.cfg.selected m f) leaves leaves' := by
  obtain ⟨q', P, idx, grid, h1, hv, hv', e0, e1, -, e2, e3, e4, hidx, hgr, hgl, c1, c2⟩ := tree_pair hwf hp hp hrows hs
    (fun r hr => hrows r (hperm.mem_iff.2 hr)) (by rintro rfl; exact hs (List.perm_nil.1 hperm)) hg h hmem hd hne
  rw [h'] at h1
  obtain rfl := Except.ok.inj h1
  obtain ⟨L, L', g1, g2, g3, g4, g5⟩ := partition_related indist_perm hv hv' e1 e2 e3 e4 (by rw [c1, c2]; exact hperm.map _) hdep
  refine ⟨L, L', by rw [g1], by rw [g2], forall₂_mem g5 fun m m' hm hm' hc => ?_⟩
  have s1 := g3.shapes m hm
  have s2 := g4.shapes m' hm'
  refine ⟨hc.conds, meanConfidence_perm s1 s2 hc.curves, fun inv f => ?_⟩
  -- the rows of the leaves come from the samples
  have hsub : ∀ {n : Node ℝ} {Ln : List (Node ℝ)} {S : List (List ℝ)}, Greedy p.cfg.space p.possible p.numSplits p.minPoints P depth n Ln →
      curves n = S.map (curveAt idx grid mu sd) → (∀ r ∈ S, r.length = space.length) → ∀ k ∈ Ln, ∀ a ∈ k.x,
        ∃ r : List ℝ, r.length = space.length ∧ a = grid.map fun t => assignRow idx t r := by
    intro n Ln S hG hS hl k hk a ha
    have hks := hG.shapes k hk
    rw [← hks.map_x] at ha
    obtain ⟨cv, hcv, rfl⟩ := List.mem_map.1 ha
    have := (hG.path k hk).1.subset hcv
    rw [hS] at this
    obtain ⟨r, hr, rfl⟩ := List.mem_map.1 this
    exact ⟨r, hl r hr, rfl⟩
  have hfeat : List.Forall₂ (fun hp i => IsFeature space hp i) p.cfg.selected idx := (C06_positions hwf _ idx).1 hidx
  have hnd := C06_distinct hwf hidx hd
  obtain ⟨hp0, rest, hsel⟩ := List.exists_cons_of_ne_nil hne
  rw [hsel] at hfeat
  obtain ⟨f0, idx', hf0, -, rfl⟩ := List.forall₂_cons_left_iff.1 hfeat
  have hfl : f0 < space.length := by obtain ⟨hh, h1, -⟩ := hf0; exact (List.getElem?_eq_some_iff.1 h1).1
  have hx := hc.curves.map Prod.fst
  have hy := hc.curves.map (fun c => c.2.1)
  have hvv := hc.curves.map (fun c => c.2.2)
  rw [s1.map_x, s2.map_x] at hx
  rw [s1.map_y, s2.map_y] at hy
  rw [s1.map_v, s2.map_v] at hvv
  have htrue : ∀ integral, (pyGet m'.x 0 >>= fun a => a.mapM (trueAt inv space hp0 f0 integral)) =
      (pyGet m.x 0 >>= fun a => a.mapM (trueAt inv space hp0 f0 integral)) := by
    intro integral
    rcases hmx : m.x with _ | ⟨a, as⟩
    · rw [hmx] at hx
      rw [← hx.nil_eq]
    · rcases hmx' : m'.x with _ | ⟨b, bs⟩
      · rw [hmx, hmx'] at hx; simp at hx
      · obtain ⟨r, hr, rfl⟩ := hsub g3 c1 hrows m hm a (by rw [hmx]; simp)
        obtain ⟨r', hr', rfl⟩ := hsub g4 c2 (fun r hr => hrows r (hperm.mem_iff.2 hr)) m' hm' b (by rw [hmx']; simp)
        exact trueY_grid inv space hp0 integral hnd rfl (fun t ht h0 => by
          have := hgl t ht; rw [h0, hsel] at this; simp at this) (by rw [hr]; exact hfl) (by rw [hr']; exact hfl)
  unfold negativeLogLikelihood
  rw [hsel, ← meanRows_perm ⟨rfl, s1.ys⟩ hy, ← meanRows_perm ⟨rfl, s1.vs⟩ hvv]
  have hi : space.idx hp0.name = .ok f0 := (isFeature_idx hwf).1 hf0
  simp only [pyGet, List.getElem?_cons_zero, Py.ok_bind, hi]
  simp only [pyGet] at htrue
  congr 1
  funext integral
  have := htrue integral
  rw [← bind_assoc, ← bind_assoc, this]

/-! ### concrete cases -/

section ex

local instance transcInvariance : Transc ℚ := ⟨id, id⟩

/-- two hyperparameters, the first is selected -/
def invSpace : ConfigSpace ℚ := [⟨"a", .float 0 1 false⟩, ⟨"b", .float 0 1 false⟩]

/-- mean `m`, standard deviation `s` times: 1 in the lower part of the second feature, 2 and more in the upper part -/
def invPredict (m : List ℚ → ℚ) (s : ℚ) : Predict ℚ := fun X => .ok (X.map m, X.map fun r => s * (if r.getD 1 0 ≤ 1/2 then 1 else 1 + 2 * r.getD 1 0))

theorem invPredict_rows (m : List ℚ → ℚ) (s : ℚ) :
    RowWise 2 (invPredict m s) m (fun r => s * (if r.getD 1 0 ≤ 1/2 then 1 else 1 + 2 * r.getD 1 0)) := fun _ _ _ => rfl

/-- conditions, rows and loss of a leaf -/
structure InvLeaf where
  conds : List (ℚ × Option Bool)
  x : List (List (List ℚ))
  loss : ℚ
  deriving DecidableEq

def invLeaves (predict : Predict ℚ) (samples : List (List ℚ)) : Py (List InvLeaf) := do
  let p ← dtInit invSpace predict (.name "a") samples 2 3 1 none
  let leaves ← (dtPartition p 2).2
  return leaves.map fun m => ⟨m.conds.map fun c => ((match c.nval with | .flt t => t | _ => 0), c.lessEqual), m.x, regionLoss m.v⟩

def invSamples : List (List ℚ) := [[0, 1/8], [0, 7/8], [0, 3/8], [0, 1]]

def lowerLeaves : List InvLeaf :=
  [⟨[(1/2, some true), (1/4, some false)], [[[0, 3/8], [1, 3/8]]], 0⟩, ⟨[(1/2, some true), (1/4, some true)], [[[0, 1/8], [1, 1/8]]], 0⟩]

/-- three leaves -/
example : invLeaves (invPredict (fun _ => 0) 1) invSamples =
    .ok (⟨[(1/2, some false)], [[[0, 7/8], [1, 7/8]], [[0, 1], [1, 1]]], 529/256⟩ :: lowerLeaves) := by decide +kernel

/-- the samples in reverse order: the same leaves, only the two curves of the first one have changed places -/
example : invLeaves (invPredict (fun _ => 0) 1) invSamples.reverse =
    .ok (⟨[(1/2, some false)], [[[0, 1], [1, 1]], [[0, 7/8], [1, 7/8]]], 529/256⟩ :: lowerLeaves) := by decide +kernel

/-- other means, standard deviations three times as large: the same leaves, the loss is 81 times as large -/
example : invLeaves (invPredict (fun r => r.getD 0 0 - 5) 3) invSamples =
    .ok (⟨[(1/2, some false)], [[[0, 7/8], [1, 7/8]], [[0, 1], [1, 1]]], 81 * (529/256)⟩ :: lowerLeaves) := by decide +kernel

/-- equal standard deviations everywhere: all thresholds cost the same, the first one wins whatever the order of the samples -/
example : invLeaves (fun X => .ok (X.map (fun _ => 0), X.map fun _ => 1)) [[0, 1/8], [0, 7/8]] =
    .ok [⟨[(1/4, some false)], [[[0, 7/8], [1, 7/8]]], 0⟩, ⟨[(1/4, some true)], [[[0, 1/8], [1, 1/8]]], 0⟩] := by decide +kernel

end ex

end PyPDP
