/-
C154: giving every sample equally often changes neither the PDP nor the tree (the minimal number of points growing accordingly).
-/
import Verif.Spec.Copies
import Verif.Props.TreeInvariance
import Verif.Props.Inherit

namespace PyPDP
open Spec
variable {K : Type}

/-! ### copies of lists -/

theorem copies_succ {α : Type} (k : Nat) (L : List α) : copies (k + 1) L = L ++ copies k L := by
  simp [copies, List.replicate_succ]

theorem copies_zero {α : Type} (L : List α) : copies 0 L = [] := rfl

theorem copies_length {α : Type} (k : Nat) (L : List α) : (copies k L).length = k * L.length := by
  induction k with
  | zero => simp [copies_zero]
  | succ k ih => rw [copies_succ, List.length_append, ih, Nat.succ_mul, Nat.add_comm]

theorem copies_map {α β : Type} (f : α → β) (k : Nat) (L : List α) : (copies k L).map f = copies k (L.map f) := by
  induction k with
  | zero => rfl
  | succ k ih => rw [copies_succ, copies_succ, List.map_append, ih]

theorem copies_filter {α : Type} (q : α → Bool) (k : Nat) (L : List α) : (copies k L).filter q = copies k (L.filter q) := by
  induction k with
  | zero => rfl
  | succ k ih => rw [copies_succ, copies_succ, List.filter_append, ih]

theorem mem_copies {α : Type} {k : Nat} {L : List α} {a : α} (h : a ∈ copies k L) : a ∈ L := by
  induction k with
  | zero => cases h
  | succ k ih =>
    rw [copies_succ] at h
    rcases List.mem_append.1 h with h | h
    · exact h
    · exact ih h

theorem copies_sum [Field K] (k : Nat) (L : List K) : (copies k L).sum = (k : K) * L.sum := by
  induction k with
  | zero => simp [copies_zero]
  | succ k ih => rw [copies_succ, List.sum_append, ih]; push_cast; ring

/-- averages do not change -/
theorem copies_mean [Field K] [CharZero K] {k : Nat} (hk : k ≠ 0) {α : Type} (f : α → K) (L : List α) :
    ((copies k L).map f).sum / ((copies k L).length : K) = (L.map f).sum / (L.length : K) := by
  rw [copies_map, copies_sum, copies_length, Nat.cast_mul]
  have : (k : K) ≠ 0 := by exact_mod_cast hk
  exact mul_div_mul_left _ _ this

/-- **C154** the PDP and its variances of samples that are each given `k` times, in any order, are those of the samples given once. -/
theorem C154_pdp [Field K] [CharZero K] {space : ConfigSpace K} {sel : Selection K} {selected : List (Hp K)} {samples samples' : List (List K)}
    {g : Nat} {grid : List (List K)} (h : DependenceInput space sel selected samples g grid) {k : Nat} (hk : k ≠ 0)
    (hcop : samples'.Perm (copies k samples)) {p : Predict K} {mu sd : List K → K} (hp : RowWise space.length p mu sd) :
    ∃ y v, yPdp space p sel samples g = .ok y ∧ yPdp space p sel samples' g = .ok y ∧
      vPdp space p sel samples g = .ok v ∧ vPdp space p sel samples' g = .ok v := by
  have hmem : ∀ r ∈ samples', r ∈ samples := fun r hr => mem_copies (hcop.mem_iff.1 hr)
  have hne : samples' ≠ [] := by
    rintro rfl
    have := hcop.length_eq
    rw [copies_length] at this
    rcases Nat.mul_eq_zero.1 this.symm with h1 | h1
    · exact hk h1
    · exact h.samples_ne (List.length_eq_zero_iff.1 h1)
  have h' : DependenceInput space sel selected samples' g grid :=
    ⟨h.wf, h.sel_eq, h.mem, h.ne, h.distinct, hne, fun r hr => h.rows r (hmem r hr), h.grid_pos, h.grid_eq⟩
  have hm : ∀ q : List K → K, (samples'.map q).sum / (samples'.length : K) = (samples.map q).sum / (samples.length : K) := fun q => by
    rw [(hcop.map q).sum_eq, hcop.length_eq, copies_mean hk]
  refine ⟨_, _, h.pdp hp, ?_, (pdp_values h.wf h.sel_eq h.mem h.ne h.distinct hp h.samples_ne h.rows h.grid_pos h.grid_eq).2, ?_⟩
  · rw [h'.pdp hp]
    congr 1
    exact List.map_congr_left fun t _ => hm _
  · rw [(pdp_values h'.wf h'.sel_eq h'.mem h'.ne h'.distinct hp h'.samples_ne h'.rows h'.grid_pos h'.grid_eq).2]
    congr 1
    exact List.map_congr_left fun t _ => hm _

/-! ### the tree -/

section tree
variable [Field K] [LinearOrder K] [IsStrictOrderedRing K] {P : Nat} {k : Nat} {space possible : List (Hp K)} {N minPoints : Nat}

/-- the second list holds every curve of the first one `k` times -/
def Copied (k : Nat) (L L' : List (Curve K)) : Prop := L'.Perm (copies k L)

omit [IsStrictOrderedRing K] in
theorem Copied.lower {L L' : List (Curve K)} (h : Copied k L L') (f : Nat) (t : K) : Copied k (lowerPart f t L) (lowerPart f t L') := by
  unfold Copied lowerPart
  rw [← copies_filter]
  exact h.filter _

omit [IsStrictOrderedRing K] in
theorem Copied.upper {L L' : List (Curve K)} (h : Copied k L L') (f : Nat) (t : K) : Copied k (upperPart f t L) (upperPart f t L') := by
  unfold Copied upperPart
  rw [← copies_filter]
  exact h.filter _

omit [Field K] [LinearOrder K] [IsStrictOrderedRing K] in
theorem Copied.len {L L' : List (Curve K)} (h : Copied k L L') : L'.length = k * L.length := by
  rw [List.Perm.length_eq h, copies_length]

theorem Copied.loss {L L' : List (Curve K)} (hk : k ≠ 0) (h : Copied k L L') : curveLoss P L' = (k : K) * curveLoss P L := by
  have hm : ∀ p, meanVar p L' = meanVar p L := by
    intro p
    unfold meanVar
    rw [(List.Perm.map _ h).sum_eq, List.Perm.length_eq h, copies_mean hk]
  unfold curveLoss
  rw [Finset.mul_sum]
  refine Finset.sum_congr rfl fun p _ => ?_
  rw [hm p, (List.Perm.map _ h).sum_eq, copies_map, copies_sum]

omit [IsStrictOrderedRing K] in
theorem Copied.cand (hk : k ≠ 0) {L L' : List (Curve K)} (hR : Copied k L L') {i j : Nat} {hp : Hp K} {f : Nat} :
    IsCandidate space possible N (k * minPoints) L' i j hp f ↔ IsCandidate space possible N minPoints L i j hp f := by
  have h1 := (hR.lower f (threshold N j)).len
  have h2 := (hR.upper f (threshold N j)).len
  have hk' := Nat.pos_of_ne_zero hk
  constructor
  · rintro ⟨a, b, c, d, e, g⟩
    rw [h1] at e; rw [h2] at g
    exact ⟨a, b, c, d, Nat.le_of_mul_le_mul_left e hk', Nat.le_of_mul_le_mul_left g hk'⟩
  · rintro ⟨a, b, c, d, e, g⟩
    exact ⟨a, b, c, d, by rw [h1]; exact Nat.mul_le_mul_left k e, by rw [h2]; exact Nat.mul_le_mul_left k g⟩

theorem Copied.best (hk : k ≠ 0) {L L' : List (Curve K)} (hR : Copied k L L') {i j : Nat} {hp : Hp K} {f : Nat}
    (hb : IsBestCandidate space possible N (k * minPoints) P L' i j hp f) : IsBestCandidate space possible N minPoints P L i j hp f := by
  have hcost : ∀ f j, splitCost P N L' f j = (k : K) * splitCost P N L f j := fun f j => by
    unfold splitCost
    rw [(hR.lower f (threshold N j)).loss hk, (hR.upper f (threshold N j)).loss hk]
    ring
  have hpos : (0 : K) < k := by exact_mod_cast Nat.pos_of_ne_zero hk
  refine ⟨(hR.cand hk).1 hb.1, fun i' j' hp' f' hc => ?_⟩
  have := hb.2 i' j' hp' f' ((hR.cand hk).2 hc)
  rw [hcost, hcost] at this
  exact ⟨le_of_mul_le_mul_left this.1 hpos, fun e => this.2 (by rw [e])⟩

omit [IsStrictOrderedRing K] in
theorem parts_length (f : Nat) (t : K) (L : List (Curve K)) : (lowerPart f t L).length + (upperPart f t L).length = L.length := by
  unfold lowerPart upperPart
  induction L with
  | nil => rfl
  | cons c L ih =>
    simp only [List.filter_cons]
    by_cases h : featureOf f c ≤ t
    · simp [h, not_lt.2 h, ← ih]; omega
    · simp [h, not_le.1 h, ← ih]; omega

theorem copied_greedy (hk : k ≠ 0) (hmin : 1 ≤ minPoints) (hwf : ConfigSpace.WF space) {d : Int} {n : Node K} {L : List (Node K)}
    (hg : Greedy space possible N minPoints P d n L) :
    ∀ {n' : Node K} {L' : List (Node K)}, Greedy space possible N (k * minPoints) P d n' L' → SameCut (Copied k) n n' →
      List.Forall₂ (SameCut (Copied k)) L L' := by
  have hk' := Nat.pos_of_ne_zero hk
  induction hg with
  | @leaf n hn hs =>
    intro n' L' hg' hc
    cases hg' with
    | leaf _ _ => exact .cons hc .nil
    | @branch _ l r Ll Lr i j hp f _ h1 h2 h3 _ _ _ =>
      exfalso
      have hb := (hc.curves.best hk h3).1
      have hl := parts_length f (threshold N j) (curves n)
      have a1 := hb.left_size
      have a2 := hb.right_size
      rw [hc.depth] at h1
      rcases hs with hs | hs | hs
      · omega
      · omega
      · exact hs _ _ _ _ hb
  | @branch n l r Ll Lr i j hp f hn h1 h2 h3 hsp hgl hgr ih1 ih2 =>
    intro n' L' hg' hc
    cases hg' with
    | leaf _ hs =>
      exfalso
      rw [hc.depth, hc.curves.len] at hs
      have : 1 * 2 ≤ k * (curves n).length := Nat.mul_le_mul hk' h2
      rcases hs with hs | hs | hs
      · omega
      · omega
      · exact hs _ _ _ _ ((hc.curves.cand hk).2 h3.1)
    | @branch _ l' r' Ll' Lr' i' j' hp' f' _ _ _ h3' hsp' hgl' hgr' =>
      obtain ⟨rfl, rfl, rfl, rfl⟩ := best_unique hwf h3 (hc.curves.best hk h3')
      refine List.rel_append (ih2 hgr' ⟨?_, ?_, ?_⟩) (ih1 hgl' ⟨?_, ?_, ?_⟩)
      · rw [hsp'.right_depth, hsp.right_depth, hc.depth]
      · rw [hsp'.right_conds, hsp.right_conds, hc.conds]
      · rw [hsp'.right_curves, hsp.right_curves]; exact hc.curves.upper f (threshold N j)
      · rw [hsp'.left_depth, hsp.left_depth, hc.depth]
      · rw [hsp'.left_conds, hsp.left_conds, hc.conds]
      · rw [hsp'.left_curves, hsp.left_curves]; exact hc.curves.lower f (threshold N j)

omit [LinearOrder K] [IsStrictOrderedRing K] in
theorem meanRows_copies [CharZero K] (hk : k ≠ 0) (y : List (List K)) : meanRows (copies k y) = meanRows y := by
  obtain ⟨j, rfl⟩ := Nat.exists_eq_succ_of_ne_zero hk
  unfold meanRows mean0
  by_cases h0 : y = []
  · subst h0
    have : copies (j + 1) ([] : List (List K)) = [] := List.length_eq_zero_iff.1 (by rw [copies_length]; rfl)
    rw [this]
  · obtain ⟨r, rs, rfl⟩ := List.exists_cons_of_ne_nil h0
    have e : (copies (j + 1) (r :: rs)).headD [] = r := by rw [copies_succ]; rfl
    rw [if_neg (by rw [copies_length]; simp), if_neg (by simp), e]
    congr 1
    exact List.map_congr_left fun c _ => copies_mean hk _ _

omit [LinearOrder K] [IsStrictOrderedRing K] in
theorem meanAxis0_copies [CharZero K] (hk : k ≠ 0) (x : List (List (List K))) : meanAxis0 (copies k x) = meanAxis0 x := by
  obtain ⟨j, rfl⟩ := Nat.exists_eq_succ_of_ne_zero hk
  cases x with
  | nil =>
    have : copies (j + 1) ([] : List (List (List K))) = [] := List.length_eq_zero_iff.1 (by rw [copies_length]; rfl)
    rw [this]
  | cons m ms =>
    obtain ⟨l, hl⟩ : ∃ l, copies (j + 1) (m :: ms) = m :: l := ⟨ms ++ copies j (m :: ms), by rw [copies_succ]; rfl⟩
    have e : meanAxis0 (copies (j + 1) (m :: ms)) = .ok ((List.range m.length).map fun p => (List.range (m.getD p []).length).map fun f =>
        ((copies (j + 1) (m :: ms)).map fun q => entry q p f).sum / ((copies (j + 1) (m :: ms)).length : K)) := by
      rw [hl]; rfl
    rw [e]
    unfold meanAxis0
    dsimp only
    congr 1
    exact List.map_congr_left fun p _ => List.map_congr_left fun f _ => copies_mean hk _ _

omit [LinearOrder K] [IsStrictOrderedRing K] in
theorem regionPdp_copied [CharZero K] (hk : k ≠ 0) {F : Nat} {m m' : Node K} (hm : RegionShape P F m) (hm' : RegionShape P F m')
    (h : Copied k (curves m) (curves m')) (sp : ConfigSpace K) (sl : List (Hp K)) : regionPdp sp sl m' = regionPdp sp sl m := by
  have hx := List.Perm.map Prod.fst h
  have hy := List.Perm.map (fun c => c.2.1) h
  have hv := List.Perm.map (fun c => c.2.2) h
  rw [copies_map, hm.map_x, hm'.map_x] at hx
  rw [copies_map, hm.map_y, hm'.map_y] at hy
  rw [copies_map, hm.map_v, hm'.map_v] at hv
  unfold regionPdp
  rw [meanAxis0_perm (⟨rfl, fun r hr => ⟨(hm'.xs r hr).1, (hm'.xs r hr).2⟩⟩ : Shape3 m'.x.length P F m'.x) hx, meanRows_perm ⟨rfl, hm'.ys⟩ hy,
    meanRows_perm ⟨rfl, hm'.vs⟩ hv, meanAxis0_copies hk, meanRows_copies hk, meanRows_copies hk]

/-- **C154** the tree of samples that are each given `k` times, in any order, with `k` times the minimal number of points per node (at least 1): for
every depth the same leaves in the same order, with the same conditions; every leaf holds its curves `k` times, has `k` times the loss and
the same PDP; every configuration has its incumbent region in the corresponding leaf. -/
theorem C154_tree [Transc K] {space : ConfigSpace K} (hwf : space.WF) {predict : Predict K} {mu sd : List K → K} (hp : RowWise space.length predict mu sd)
    {samples samples' : List (List K)} {k : Nat} (hk : k ≠ 0) (hcop : samples'.Perm (copies k samples))
    (hrows : ∀ r ∈ samples, r.length = space.length) (hs : samples ≠ [])
    {sel : Selection K} {perAxis numSplits minPoints : Nat} (hg : 1 ≤ perAxis) (hmin : 1 ≤ minPoints) {notSplittable : Option (Selection K)} {p : DT K}
    (h : dtInit space predict sel samples perAxis numSplits minPoints notSplittable = .ok p)
    (hmem : ∀ hp ∈ p.cfg.selected, hp ∈ space) (hd : (p.cfg.selected.map Hp.name).Nodup) (hne : p.cfg.selected ≠ []) :
    ∃ p', dtInit space predict sel samples' perAxis numSplits (k * minPoints) notSplittable = .ok p' ∧ ∀ depth : Int, 0 < depth →
      ∃ leaves leaves', (dtPartition p depth).2 = .ok leaves ∧ (dtPartition p' depth).2 = .ok leaves' ∧
        List.Forall₂ (fun m m' => m'.depth = m.depth ∧ m'.conds = m.conds ∧ (curves m').Perm (copies k (curves m)) ∧
          regionLoss m'.v = (k : K) * regionLoss m.v ∧ ∀ sp sl, regionPdp sp sl m' = regionPdp sp sl m) leaves leaves' ∧
        ∀ (cfg : Config K) m, dtIncumbentRegion (dtPartition p depth).1 cfg = .ok (some m) →
          ∃ m', dtIncumbentRegion (dtPartition p' depth).1 cfg = .ok (some m') ∧ m'.conds = m.conds ∧ (curves m').Perm (copies k (curves m)) := by
  have hrows' : ∀ r ∈ samples', r.length = space.length := fun r hr => hrows r (mem_copies (hcop.mem_iff.1 hr))
  have hs' : samples' ≠ [] := by
    rintro rfl
    have := hcop.length_eq
    rw [copies_length] at this
    rcases Nat.mul_eq_zero.1 this.symm with h1 | h1
    · exact hk h1
    · exact hs (List.length_eq_zero_iff.1 h1)
  obtain ⟨c, ns, i, dd, hc, hns, -, -, -, e⟩ := dtInit_ok h
  obtain ⟨hsel, -⟩ := algorithmInit_eq hc
  have hpc : p.cfg = c := by rw [e]
  rw [← hpc] at hsel
  obtain ⟨grid, hgr, -, hfull⟩ := C40_grid (K := K) (List.length_pos_iff.2 hne) perAxis
  obtain ⟨idx, hidx, -⟩ := (⟨hwf, hmem, hd, hne, hrows, rfl, rfl⟩ : ValidCfg (⟨space, p.cfg.selected, samples, samples.length, perAxis,
    perAxis ^ p.cfg.selected.length, false, predict⟩ : IceCfg K)).idx
  obtain ⟨q, q1, q2, q3, q4, q5, q6, q7, q8⟩ := dtInit_rows hwf hp hsel hmem hd hne hrows hs hg numSplits minPoints hns hidx hgr
  obtain ⟨p', r1, r2, r3, r4, r5, r6, r7, r8⟩ := dtInit_rows hwf hp hsel hmem hd hne hrows' hs' hg numSplits (k * minPoints) hns hidx hgr
  rw [h] at q1
  obtain rfl := Except.ok.inj q1
  refine ⟨p', r1, fun depth hdep => ?_⟩
  have hR : Copied k (curves p.root) (curves p'.root) := by
    unfold Copied
    rw [q8, r8, ← copies_map]
    exact hcop.map _
  obtain ⟨L, h1, -, h3, -⟩ := partition_eq q7 hdep
  obtain ⟨L', h1', -, h3', -⟩ := partition_eq r7 hdep
  rw [r2, r4, r5, r6] at h3'
  rw [q2, q4, q5, q6] at h3
  have hall := copied_greedy hk hmin hwf h3 h3' ⟨by rw [q7.depth, r7.depth], by rw [q7.conds, r7.conds], hR⟩
  refine ⟨L, L', by rw [h1], by rw [h1'], ?_, ?_⟩
  · refine forall₂_mem hall fun m m' hm hm' hcut => ?_
    have s1 := h3.shapes m hm
    have s2 := h3'.shapes m' hm'
    refine ⟨hcut.depth, hcut.conds, hcut.curves, ?_, regionPdp_copied hk s1 s2 hcut.curves⟩
    rw [regionLoss_curves s1, regionLoss_curves s2, hcut.curves.loss hk]
  · intro cfg m hm
    obtain ⟨m', a1, a2⟩ := (incumbent_related (p := (dtPartition p depth).1) (p' := (dtPartition p' depth).1) (R := Copied k)
      (by rw [h1, h1']; dsimp only; rw [r2, q2]) (by rw [h1, h1']; exact hall) cfg).2.2 m hm
    exact ⟨m', a1, a2.conds, a2.curves⟩

end tree

/-! ### concrete cases -/

section concrete

local instance cpTransc : Transc ℚ := ⟨id, id⟩
private def cpSpace : ConfigSpace ℚ := [⟨"x1", .float 0 1 false⟩, ⟨"x2", .float 0 1 false⟩]
private def cpMean : Predict ℚ := fun rows => .ok (rows.map fun r => r.getD 0 0 * r.getD 1 0, rows.map fun r => r.getD 1 0)

/-- three samples, given twice in another order: same PDP; with `min_points_per_node` 2 instead of 1 the same split, every leaf
with twice the curves and twice the loss -/
example :
    [[1/4, 1/3], [1, 4/5], [1/2, 1/5], [1/4, 1/3], [1/2, 1/5], [1, 4/5]].Perm (copies 2 [[1/4, (1/3 : ℚ)], [1/2, 1/5], [1, 4/5]]) ∧
    yPdp cpSpace cpMean (.name "x1") [[1/4, 1/3], [1/2, 1/5], [1, 4/5]] 2 = .ok [0, 4/9] ∧
    yPdp cpSpace cpMean (.name "x1") [[1/4, 1/3], [1, 4/5], [1/2, 1/5], [1/4, 1/3], [1/2, 1/5], [1, 4/5]] 2 = .ok [0, 4/9] ∧
    (dtInit cpSpace cpMean (.name "x1") [[1/4, 1/3], [1/2, 1/5], [1, 4/5]] 2 3 1 none).bind
      (fun p => (dtPartition p 1).2.map fun L => L.map fun m => (m.conds.map (·.lessEqual), m.x.length, regionLoss m.v)) =
      .ok [([some false], 1, 0), ([some true], 2, 256/50625)] ∧
    (dtInit cpSpace cpMean (.name "x1") [[1/4, 1/3], [1, 4/5], [1/2, 1/5], [1/4, 1/3], [1/2, 1/5], [1, 4/5]] 2 3 2 none).bind
      (fun p => (dtPartition p 1).2.map fun L => L.map fun m => (m.conds.map (·.lessEqual), m.x.length, regionLoss m.v)) =
      .ok [([some false], 2, 0), ([some true], 4, 512/50625)] := by decide +kernel

end concrete

end PyPDP
