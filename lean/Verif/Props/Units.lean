/-
C163: names, bounds, types and scales of the hyperparameters do not influence the tree.
-/
import Verif.Props.TreeInvariance
import Verif.Props.Regions
import Verif.Spec.Units

namespace PyPDP
open Spec
variable {K : Type}

section match_
variable {space space' : ConfigSpace K}

theorem Spec.Matches.symm {hp hp' : Hp K} (h : Matches space space' hp hp') : Matches space' space hp' hp := by
  obtain ⟨k, h1, h2⟩ := h; exact ⟨k, h2, h1⟩

theorem name_inj_at {cs : ConfigSpace K} (hwf : cs.WF) {i j : Nat} {a b : Hp K} (ha : cs[i]? = some a) (hb : cs[j]? = some b) (hn : a.name = b.name) :
    i = j := by
  have h1 : (cs.map Hp.name)[i]? = some a.name := by simp [ha]
  have h2 : (cs.map Hp.name)[j]? = some a.name := by simp [hb, hn]
  obtain ⟨hi, -⟩ := List.getElem?_eq_some_iff.1 h1
  exact (List.getElem?_inj hi hwf).1 (h1.trans h2.symm)

theorem Spec.Matches.feature (hwf : space.WF) {hp hp' : Hp K} (h : Matches space space' hp hp') {f : Nat} (hf : IsFeature space hp f) :
    IsFeature space' hp' f := by
  obtain ⟨k, h1, h2⟩ := h
  obtain ⟨g, hg, hn⟩ := hf
  obtain rfl := name_inj_at hwf hg h1 hn
  exact ⟨hp', h2, rfl⟩

/-- a name is listed in both spaces or in none -/
theorem matches_listed (hwf : space.WF) (hwf' : space'.WF) {L L' : List (Hp K)} (hL : List.Forall₂ (Matches space space') L L') {k : Nat} {a a' : Hp K}
    (ha : space[k]? = some a) (ha' : space'[k]? = some a') : a.name ∈ L.map Hp.name ↔ a'.name ∈ L'.map Hp.name := by
  induction hL with
  | nil => simp
  | @cons b b' L L' hb _ ih =>
    obtain ⟨j, h1, h2⟩ := hb
    rw [List.map_cons, List.map_cons, List.mem_cons, List.mem_cons, ih]
    refine or_congr ⟨fun h => ?_, fun h => ?_⟩ Iff.rfl
    · obtain rfl := name_inj_at hwf ha h1 h
      rw [ha'] at h2; rw [Option.some.inj h2]
    · obtain rfl := name_inj_at hwf' ha' h2 h
      rw [ha] at h1; rw [Option.some.inj h1]

/-- two spaces of the same size correspond -/
theorem matches_all (hl : space'.length = space.length) : List.Forall₂ (Matches space space') space space' := by
  rw [List.forall₂_iff_get]
  refine ⟨hl.symm, fun i h1 h2 => ⟨i, ?_, ?_⟩⟩ <;> simp

theorem matching_filter {α : Type} {Q : α → α → Prop} {q q' : α → Bool} {L L' : List α} (h : List.Forall₂ Q L L') (hq : ∀ a b, Q a b → q a = q' b) :
    List.Forall₂ Q (L.filter q) (L'.filter q') := by
  induction h with
  | nil => exact .nil
  | @cons a b L L' hab _ ih =>
    rw [List.filter_cons, List.filter_cons, ← hq a b hab]
    cases q a
    · exact ih
    · exact .cons hab ih

theorem possible_matches (hwf : space.WF) (hwf' : space'.WF) (hl : space'.length = space.length) {S S' N N' : List (Hp K)}
    (hS : List.Forall₂ (Matches space space') S S') (hN : List.Forall₂ (Matches space space') N N') :
    List.Forall₂ (Matches space space') (possibleSplits space S N) (possibleSplits space' S' N') := by
  refine matching_filter (matches_all hl) fun a b hab => ?_
  obtain ⟨k, h1, h2⟩ := hab
  rw [decide_eq_decide, matches_listed hwf hwf' hS h1 h2, matches_listed hwf hwf' hN h1 h2]

theorem selectedIdx_matches (hwf : space.WF) (hwf' : space'.WF) {S S' : List (Hp K)} (hS : List.Forall₂ (Matches space space') S S') {idx : List Nat}
    (h : getSelectedIdx S space = .ok idx) : getSelectedIdx S' space' = .ok idx := by
  unfold getSelectedIdx at h ⊢
  rw [Py.mapM_eq_ok] at h ⊢
  induction hS generalizing idx with
  | nil => cases h; exact .nil
  | cons hab _ ih =>
    cases h with
    | cons h1 h2 => exact .cons ((isFeature_idx hwf').1 (hab.feature hwf ((isFeature_idx hwf).2 h1))) (ih h2)

end match_

section greedy
variable [Field K] [LinearOrder K] {space space' possible possible' : List (Hp K)} {N minPoints P : Nat}

theorem cand_matches (hwf : ConfigSpace.WF space) (hpos : List.Forall₂ (Matches space space') possible possible') {L : List (Curve K)} {i j : Nat}
    {hp : Hp K} {f : Nat} (h : IsCandidate space possible N minPoints L i j hp f) :
    ∃ hp', Matches space space' hp hp' ∧ IsCandidate space' possible' N minPoints L i j hp' f := by
  obtain ⟨a, b, c, d, e, g⟩ := h
  obtain ⟨h1, h2⟩ := List.forall₂_iff_get.1 hpos
  obtain ⟨hi, hi'⟩ := List.getElem?_eq_some_iff.1 a
  have := h2 i hi (h1 ▸ hi)
  simp only [List.get_eq_getElem, hi'] at this
  exact ⟨_, this, List.getElem?_eq_getElem _, this.feature hwf b, c, d, e, g⟩

theorem best_matches (hwf : ConfigSpace.WF space) (hwf' : ConfigSpace.WF space') (hpos : List.Forall₂ (Matches space space') possible possible')
    (hpos' : List.Forall₂ (Matches space' space) possible' possible) {L : List (Curve K)} {i j : Nat}
    {hp : Hp K} {f : Nat} (h : IsBestCandidate space possible N minPoints P L i j hp f) :
    ∃ hp', Matches space space' hp hp' ∧ IsBestCandidate space' possible' N minPoints P L i j hp' f := by
  obtain ⟨hp', h1, h2⟩ := cand_matches hwf hpos h.1
  refine ⟨hp', h1, h2, fun i' j' q f' hq => ?_⟩
  obtain ⟨r, -, h4⟩ := cand_matches hwf' hpos' hq
  exact h.2 i' j' r f' h4

theorem greedy_matches (hwf : ConfigSpace.WF space) (hwf' : ConfigSpace.WF space') (hpos : List.Forall₂ (Matches space space') possible possible')
    {d : Int} {n : Node K} {L : List (Node K)} (hg : Greedy space possible N minPoints P d n L) :
    ∀ {n' : Node K} {L' : List (Node K)}, Greedy space' possible' N minPoints P d n' L' → n'.depth = n.depth → curves n' = curves n →
      List.Forall₂ (MatchingCond space space') n.conds n'.conds →
      List.Forall₂ (fun m m' => m'.depth = m.depth ∧ curves m' = curves m ∧ List.Forall₂ (MatchingCond space space') m.conds m'.conds) L L' := by
  have hpos' : List.Forall₂ (Matches space' space) possible' possible := hpos.flip.imp fun a b h => Spec.Matches.symm h
  induction hg with
  | @leaf n hn hs =>
    intro n' L' hg' e1 e2 e3
    cases hg' with
    | leaf _ _ => exact .cons ⟨e1, e2, e3⟩ .nil
    | @branch _ l r Ll Lr i j hp f _ h1 h2 h3 _ _ _ =>
      exfalso
      rw [e2] at h2 h3
      rcases hs with hs | hs | hs
      · omega
      · omega
      · obtain ⟨q, -, hq⟩ := cand_matches hwf' hpos' h3.1
        exact hs _ _ _ _ hq
  | @branch n l r Ll Lr i j hp f hn h1 h2 h3 hsp hgl hgr ih1 ih2 =>
    intro n' L' hg' e1 e2 e3
    cases hg' with
    | leaf _ hs =>
      exfalso
      rw [e1, e2] at hs
      rcases hs with hs | hs | hs
      · omega
      · omega
      · obtain ⟨q, -, hq⟩ := cand_matches hwf hpos h3.1
        exact hs _ _ _ _ hq
    | @branch _ l' r' Ll' Lr' i' j' hp' f' _ _ _ h3' hsp' hgl' hgr' =>
      rw [e2] at h3'
      obtain ⟨q, hq1, hq2⟩ := best_matches hwf' hwf hpos' hpos h3'
      obtain ⟨rfl, rfl, rfl, rfl⟩ := best_unique hwf h3 hq2
      refine List.rel_append (ih2 hgr' ?_ ?_ ?_) (ih1 hgl' ?_ ?_ ?_)
      · rw [hsp'.right_depth, hsp.right_depth, e1]
      · rw [hsp'.right_curves, hsp.right_curves, e2]
      · rw [hsp'.right_conds, hsp.right_conds]; exact List.rel_append e3 (.cons ⟨hq1.symm, rfl, rfl⟩ .nil)
      · rw [hsp'.left_depth, hsp.left_depth, e1]
      · rw [hsp'.left_curves, hsp.left_curves, e2]
      · rw [hsp'.left_conds, hsp.left_conds]; exact List.rel_append e3 (.cons ⟨hq1.symm, rfl, rfl⟩ .nil)

end greedy

section trees
variable [Field K] [LinearOrder K] [IsStrictOrderedRing K]

/-- **C163** The same samples (normalised vectors) and the same surrogate, but a config space whose hyperparameters have other names, bounds, types or
scales: if the hyperparameters at the same positions are selected and excluded, the constructor succeeds again with the same arrays, and for every
depth the new tree has the same leaves in the same order, with the same curves and the same conditions on the corresponding hyperparameters. -/
theorem C163_tree [Transc K] {space space' : ConfigSpace K} (hwf : space.WF) (hwf' : space'.WF) (hl : space'.length = space.length)
    {predict : Predict K} {mu sd : List K → K} (hp : RowWise space.length predict mu sd)
    {samples : List (List K)} (hrows : ∀ r ∈ samples, r.length = space.length) (hs : samples ≠ [])
    {sel sel' : Selection K} {perAxis numSplits minPoints : Nat} (hg : 1 ≤ perAxis) {notSplittable notSplittable' : Option (Selection K)} {p : DT K}
    (h : dtInit space predict sel samples perAxis numSplits minPoints notSplittable = .ok p)
    (hmem : ∀ hp ∈ p.cfg.selected, hp ∈ space) (hd : (p.cfg.selected.map Hp.name).Nodup) (hne : p.cfg.selected ≠ [])
    {selected' : List (Hp K)} (hsel' : convertHyperparameters sel' space' = .ok selected')
    (hmatch : List.Forall₂ (Matches space space') p.cfg.selected selected')
    {ns ns' : List (Hp K)} (hns : notSplittableHps notSplittable space = .ok ns) (hns' : notSplittableHps notSplittable' space' = .ok ns')
    (hmatchns : List.Forall₂ (Matches space space') ns ns') :
    ∃ p', dtInit space' predict sel' samples perAxis numSplits minPoints notSplittable' = .ok p' ∧ p'.cfg.selected = selected' ∧
      MatchingRegion space space' p.root p'.root ∧ List.Forall₂ (Matches space space') p.possible p'.possible ∧
      ∀ depth : Int, 0 < depth →
        ∃ leaves leaves', dtPartition p depth = ({ p with leaves := leaves }, .ok leaves) ∧
          dtPartition p' depth = ({ p' with leaves := leaves' }, .ok leaves') ∧ List.Forall₂ (MatchingRegion space space') leaves leaves' := by
  obtain ⟨c, ns0, i, dd, hc, hns0, -, -, -, e⟩ := dtInit_ok h
  rw [hns] at hns0
  obtain rfl := Except.ok.inj hns0
  obtain ⟨hsel, -⟩ := algorithmInit_eq hc
  have hpc : p.cfg = c := by rw [e]
  rw [← hpc] at hsel
  obtain ⟨grid, hgr, -, hfull⟩ := C40_grid (K := K) (List.length_pos_iff.2 hne) perAxis
  obtain ⟨idx, hidx, -⟩ := (⟨hwf, hmem, hd, hne, hrows, rfl, rfl⟩ : ValidCfg (⟨space, p.cfg.selected, samples, samples.length, perAxis,
    perAxis ^ p.cfg.selected.length, false, predict⟩ : IceCfg K)).idx
  obtain ⟨q, q1, q2, q3, q4, q5, q6, q7, q8⟩ := dtInit_rows hwf hp hsel hmem hd hne hrows hs hg numSplits minPoints hns hidx hgr
  have hlen : selected'.length = p.cfg.selected.length := hmatch.length_eq.symm
  have hmem' : ∀ a ∈ selected', a ∈ space' := by
    intro a ha
    obtain ⟨k, hk⟩ := List.getElem?_of_mem ha
    obtain ⟨h1, h2⟩ := List.getElem?_eq_some_iff.1 hk
    obtain ⟨-, h3⟩ := List.forall₂_iff_get.1 hmatch
    have := h3 k (hlen ▸ h1) h1
    simp only [List.get_eq_getElem, h2] at this
    obtain ⟨j, -, hj⟩ := this
    exact List.mem_of_getElem? hj
  have hd' : (selected'.map Hp.name).Nodup := by
    rw [List.nodup_iff_injective_get]
    rintro ⟨i, hi⟩ ⟨j, hj⟩ hij
    simp only [List.get_eq_getElem, List.getElem_map] at hij
    rw [List.length_map] at hi hj
    obtain ⟨-, h3⟩ := List.forall₂_iff_get.1 hmatch
    obtain ⟨a, a1, a2⟩ := h3 i (hlen ▸ hi) hi
    obtain ⟨b, b1, b2⟩ := h3 j (hlen ▸ hj) hj
    obtain rfl := name_inj_at hwf' a2 b2 (by simpa using hij)
    rw [a1] at b1
    have hn := congrArg Hp.name (Option.some.inj b1)
    rw [List.get_eq_getElem, List.get_eq_getElem] at hn
    have e1 : (p.cfg.selected.map Hp.name)[i]'(by rw [List.length_map]; exact hlen ▸ hi) =
        (p.cfg.selected.map Hp.name)[j]'(by rw [List.length_map]; exact hlen ▸ hj) := by simpa using hn
    exact Fin.ext ((List.Nodup.getElem_inj_iff hd).1 e1)
  have hne' : selected' ≠ [] := by rintro rfl; exact hne (List.length_eq_zero_iff.1 hlen.symm)
  obtain ⟨q', r1, r2, r3, r4, r5, r6, r7, r8⟩ := dtInit_rows hwf' (by rw [hl]; exact hp) hsel' hmem' hd' hne' (by rw [hl]; exact hrows) hs hg numSplits
    minPoints hns' (selectedIdx_matches hwf hwf' hmatch hidx) (by rw [hlen]; exact hgr)
  rw [h] at q1
  obtain rfl := Except.ok.inj q1
  have hpos : List.Forall₂ (Matches space space') p.possible q'.possible := by
    rw [q4, r4]; exact possible_matches hwf hwf' hl hmatch hmatchns
  have hroot : curves q'.root = curves p.root := by rw [q8, r8]
  have hP : perAxis ^ selected'.length = perAxis ^ p.cfg.selected.length := by rw [hlen]
  rw [hP] at r7
  have same : ∀ m m' : Node K, RegionShape (perAxis ^ p.cfg.selected.length) space.length m →
      RegionShape (perAxis ^ p.cfg.selected.length) space'.length m' →
      m'.depth = m.depth → curves m' = curves m → List.Forall₂ (MatchingCond space space') m.conds m'.conds → MatchingRegion space space' m m' := by
    intro m m' s1 s2 h1 h2 h3
    refine ⟨h1, ?_, ?_, ?_, h3⟩
    · rw [← s1.map_x, ← s2.map_x, h2]
    · rw [← s1.map_y, ← s2.map_y, h2]
    · rw [← s1.map_v, ← s2.map_v, h2]
  have hconds : List.Forall₂ (MatchingCond space space') p.root.conds q'.root.conds := by rw [q7.conds, r7.conds]; exact .nil
  refine ⟨q', r1, r3, same _ _ (by have := q7.shape; rwa [q2] at this) (by have := r7.shape; rwa [r2] at this) (by rw [q7.depth, r7.depth]) hroot hconds,
    hpos, fun depth hdep => ?_⟩
  obtain ⟨L, h1, -, h3, -⟩ := partition_eq q7 hdep
  obtain ⟨L', h1', -, h3', -⟩ := partition_eq r7 hdep
  rw [q2, q5, q6] at h3
  rw [r2, r5, r6] at h3'
  refine ⟨L, L', h1, h1', ?_⟩
  refine forall₂_mem (greedy_matches hwf hwf' hpos h3 h3' (by rw [q7.depth, r7.depth]) hroot hconds) fun m m' hm hm' hc => ?_
  exact same m m' (h3.shapes m hm) (h3'.shapes m' hm') hc.1 hc.2.1 hc.2.2

end trees

section place
variable {space space' : ConfigSpace ℝ}

theorem satisfied_matches {cfg cfg' : Config ℝ} (hpl : SamePlace space space' cfg cfg') {c c' : Cond ℝ} (hc : MatchingCond space space' c c')
    {t : ℝ} (h1 : 0 ≤ t) (h2 : t ≤ 1) (hnv : c.nval = .flt t) {b : Bool} (hb : c.lessEqual = some b) :
    isSatisfied space' c' cfg' = isSatisfied space c cfg := by
  obtain ⟨l, u, g, l', u', g', s, d1, d2, g1, g2⟩ := hpl _ _ hc.hp
  have e1 := hc.nval
  have e2 := hc.lessEqual
  obtain ⟨hp, n, le⟩ := c
  obtain ⟨hp', n', le'⟩ := c'
  subst e1 e2
  dsimp only at hnv hb d1 d2 g1 g2 ⊢
  subst hnv hb
  rw [isSatisfied_float g1 (C01_unscale_is_interpolation d1 h1 h2), isSatisfied_float g2 (C01_unscale_is_interpolation d2 h1 h2)]
  simp only [(interpolate_strictMono d1).le_iff_le, (interpolate_strictMono d2).le_iff_le, (interpolate_strictMono d1).lt_iff_lt,
    (interpolate_strictMono d2).lt_iff_lt]

theorem containsAll_matches {cfg cfg' : Config ℝ} (hpl : SamePlace space space' cfg cfg') {A A' : List (Cond ℝ)}
    (h : List.Forall₂ (MatchingCond space space') A A')
    (hA : ∀ c ∈ A, (∃ t : ℝ, c.nval = .flt t ∧ 0 ≤ t ∧ t ≤ 1) ∧ ∃ b, c.lessEqual = some b) : containsAll space' A' cfg' = containsAll space A cfg := by
  induction h with
  | nil => rfl
  | @cons a b A A' hab _ ih =>
    obtain ⟨⟨t, h1, h2, h3⟩, v, hv⟩ := hA a (by simp)
    unfold containsAll
    rw [satisfied_matches hpl hab h2 h3 h1 hv, ih fun c hc => hA c (by simp [hc])]

theorem firstContaining_matches {cfg cfg' : Config ℝ} {L L' : List (Node ℝ)}
    (h : List.Forall₂ (fun m m' => MatchingRegion space space' m m' ∧ containsAll space' m'.conds cfg' = containsAll space m.conds cfg) L L')
    {m : Node ℝ} (hm : firstContaining space cfg L = .ok (some m)) :
    ∃ m', firstContaining space' cfg' L' = .ok (some m') ∧ MatchingRegion space space' m m' := by
  induction h with
  | nil => cases hm
  | @cons a b L L' hab _ ih =>
    unfold firstContaining at hm ⊢
    rw [hab.2]
    cases hr : containsAll space a.conds cfg with
    | error e => rw [hr] at hm; cases hm
    | ok r =>
      rw [hr] at hm
      cases r with
      | false => exact ih hm
      | true => obtain rfl := Option.some.inj (Except.ok.inj hm); exact ⟨b, rfl, hab.1⟩

/-- **C163** and configurations at the same normalised position belong to corresponding leaves: both calls of `get_incumbent_region` find a leaf, the
two leaves hold the same curves and have the same conditions. -/
theorem C163_incumbent (hwf : space.WF) (hwf' : space'.WF) (hl : space'.length = space.length)
    {predict : Predict ℝ} {mu sd : List ℝ → ℝ} (hp : RowWise space.length predict mu sd)
    {samples : List (List ℝ)} (hrows : ∀ r ∈ samples, r.length = space.length) (hs : samples ≠ [])
    {sel sel' : Selection ℝ} {perAxis numSplits minPoints : Nat} (hg : 1 ≤ perAxis) {notSplittable notSplittable' : Option (Selection ℝ)} {p p' : DT ℝ}
    (h : dtInit space predict sel samples perAxis numSplits minPoints notSplittable = .ok p)
    (h' : dtInit space' predict sel' samples perAxis numSplits minPoints notSplittable' = .ok p')
    (hmem : ∀ hp ∈ p.cfg.selected, hp ∈ space) (hd : (p.cfg.selected.map Hp.name).Nodup) (hne : p.cfg.selected ≠ [])
    (hmatch : List.Forall₂ (Matches space space') p.cfg.selected p'.cfg.selected)
    {ns ns' : List (Hp ℝ)} (hns : notSplittableHps notSplittable space = .ok ns) (hns' : notSplittableHps notSplittable' space' = .ok ns')
    (hmatchns : List.Forall₂ (Matches space space') ns ns') {cfg cfg' : Config ℝ} (hpl : SamePlace space space' cfg cfg') {depth : Int}
    (hdep : 0 < depth) :
    ∃ m m', dtIncumbentRegion (dtPartition p depth).1 cfg = .ok (some m) ∧ dtIncumbentRegion (dtPartition p' depth).1 cfg' = .ok (some m') ∧
      MatchingRegion space space' m m' := by
  obtain ⟨c', ns0, i, dd, hc', -, -, -, -, e⟩ := dtInit_ok h'
  obtain ⟨hsel', hsp', -⟩ := algorithmInit_eq hc'
  have hpc : p'.cfg = c' := by rw [e]
  rw [← hpc] at hsel' hsp'
  obtain ⟨q, q1, -, -, -, q5⟩ := C163_tree hwf hwf' hl hp hrows hs hg h hmem hd hne hsel' hmatch hns hns' hmatchns
  rw [h'] at q1
  obtain rfl := Except.ok.inj q1
  obtain ⟨L, L', g1, g2, g3⟩ := q5 depth hdep
  obtain ⟨-, P, -, -, -, hv, -, e0, -⟩ := tree_pair hwf hp hp hrows hs hrows hs hg h hmem hd hne
  have hdecl : ∀ a ∈ space, ∃ l u g l' u' g' t a', Declares space a.name l u g ∧ Declares space' (a' : Hp ℝ).name l' u' g' ∧
      cfg.get? a.name = some (.num (interpolate l u g t)) ∧ cfg'.get? a'.name = some (.num (interpolate l' u' g' t)) := by
    intro a ha
    obtain ⟨k, hk⟩ := List.getElem?_of_mem ha
    obtain ⟨hk1, hk2⟩ := List.getElem?_eq_some_iff.1 hk
    obtain ⟨l, u, g, l', u', g', t, h1⟩ := hpl a _ ⟨k, hk, List.getElem?_eq_getElem (hl ▸ hk1)⟩
    exact ⟨l, u, g, l', u', g', t, _, h1⟩
  obtain ⟨leaves, i, leaf, k1, k2, k3, k4⟩ := C57_exactly_one_leaf hv (d := depth)
    (fun a ha => by
      have ham := hv.possible_mem a ha
      rw [e0] at ham
      obtain ⟨l, u, g, -, -, -, -, -, d1, -⟩ := hdecl a ham
      obtain ⟨b, hb, hn, hk⟩ := d1.mem
      have e1 := ConfigSpace.get_of_mem hwf hb
      rw [hn, ConfigSpace.get_of_mem hwf ham] at e1
      obtain rfl := Except.ok.inj e1
      rcases hk with hk | hk <;> simp [Hp.isNumerical, Hp.numerical?, hk]) hdep (cfg := cfg) (fun a ha => by
      have ham := hv.possible_mem a ha
      rw [e0] at ham
      obtain ⟨l, u, g, -, -, -, t, -, -, -, h1, -⟩ := hdecl a ham
      exact ⟨_, h1⟩)
  obtain ⟨L0, f1, -, f3, -⟩ := partition_eq hv hdep
  have : L = L0 := by rw [g1] at f1; exact Except.ok.inj (congrArg Prod.snd f1)
  subst this
  have hne0 : L ≠ [] := by
    rintro rfl
    rw [g1] at k4
    cases k4
  have hne1 : L' ≠ [] := by rintro rfl; exact hne0 (List.forall₂_nil_right_iff.1 g3)
  rw [g1] at k4
  have k4' : firstContaining space cfg L = .ok (some leaf) := by
    rw [← e0]; simpa [dtIncumbentRegion, hne0] using k4
  obtain ⟨m', b1, b2⟩ := firstContaining_matches (space' := space') (cfg' := cfg') (forall₂_mem g3 fun m m' hm _ hc => ⟨hc, containsAll_matches hpl hc.conds (by
    intro c hc
    obtain ⟨more, e1, e2, -⟩ := f3.leaf_curves hv.wf m hm
    rw [hv.conds, List.nil_append] at e1
    obtain ⟨-, ⟨j, -, hj2, hnv⟩, hb⟩ := e2 c (e1 ▸ hc)
    exact ⟨⟨_, hnv, threshold_unit hj2⟩, hb⟩)⟩) k4'
  refine ⟨leaf, m', by rw [g1]; exact k4, ?_, b2⟩
  rw [g2, dtIncumbentRegion, if_neg hne1]
  rw [hsp']
  exact b1

end place

/-! ### an example -/

section ex

local instance transcUnits : Transc ℚ := ⟨id, id⟩

/-- a learning rate on a logarithmic axis and a number of layers instead of `a` and `b` in `[0, 1]` -/
private def otherSpace : ConfigSpace ℚ := [⟨"rate", .float (1/1000) 1 true⟩, ⟨"layers", .integer 1 9 false⟩]

/-- conditions and rows of a leaf -/
private structure UnitLeaf where
  conds : List (String × ℚ × Option Bool)
  x : List (List (List ℚ))
  deriving DecidableEq

private def leavesIn (space : ConfigSpace ℚ) (name : String) : Py (List UnitLeaf) := do
  let p ← dtInit space (invPredict (fun _ => 0) 1) (.name name) invSamples 2 3 1 none
  let leaves ← (dtPartition p 2).2
  return leaves.map fun m => ⟨m.conds.map fun c => (c.hp.name, (match c.nval with | .flt t => t | _ => 0), c.lessEqual), m.x⟩

example : leavesIn invSpace "a" = .ok [
    ⟨[("b", 1/2, some false)], [[[0, 7/8], [1, 7/8]], [[0, 1], [1, 1]]]⟩,
    ⟨[("b", 1/2, some true), ("b", 1/4, some false)], [[[0, 3/8], [1, 3/8]]]⟩,
    ⟨[("b", 1/2, some true), ("b", 1/4, some true)], [[[0, 1/8], [1, 1/8]]]⟩] := by decide +kernel

/-- the same three leaves -/
example : leavesIn otherSpace "rate" = .ok [
    ⟨[("layers", 1/2, some false)], [[[0, 7/8], [1, 7/8]], [[0, 1], [1, 1]]]⟩,
    ⟨[("layers", 1/2, some true), ("layers", 1/4, some false)], [[[0, 3/8], [1, 3/8]]]⟩,
    ⟨[("layers", 1/2, some true), ("layers", 1/4, some true)], [[[0, 1/8], [1, 1/8]]]⟩] := by decide +kernel

/-- the positions matter, not the names: selecting the other hyperparameter gives another tree (here no curve differs, the first threshold wins) -/
example : leavesIn otherSpace "layers" ≠ leavesIn otherSpace "rate" := by decide +kernel

/-- the theorem applies to the two spaces -/
example : Matches invSpace otherSpace ⟨"a", .float 0 1 false⟩ ⟨"rate", .float (1/1000) 1 true⟩ := ⟨0, rfl, rfl⟩

/-- 0.5 in `[0, 1]` and 5 layers of 1 to 9 are at the same place -/
example : interpolate 0 1 false (1/2) = (1/2 : ℝ) ∧ interpolate 1 9 false (1/2) = (5 : ℝ) := by
  constructor <;> norm_num [interpolate]

end ex

end PyPDP
