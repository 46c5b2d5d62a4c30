/-
C167: hyperparameters that the surrogate ignores and that are neither selected nor split might as well not exist.
-/
import Verif.Props.TreeInvariance
import Verif.Props.Additive
import Verif.Props.Units
import Verif.Spec.Irrelevant

namespace PyPDP
open Spec
variable {K : Type}

section rows
variable {keep : Hp K → Bool}

theorem keptEntries_cons (a : Hp K) (space : ConfigSpace K) (v : K) (r : List K) :
    keptEntries keep (a :: space) (v :: r) = if keep a then v :: keptEntries keep space r else keptEntries keep space r := by
  unfold keptEntries
  rw [List.zip_cons_cons, List.filter_cons]
  split <;> rfl

theorem keptEntries_length : ∀ {space : ConfigSpace K} {r : List K}, r.length = space.length →
    (keptEntries keep space r).length = (space.filter keep).length
  | [], [], _ => rfl
  | a :: space, v :: r, h => by
    have := keptEntries_length (space := space) (r := r) (by simpa using h)
    rw [keptEntries_cons, List.filter_cons]
    split <;> simp [this]
  | [], _ :: _, h => by simp at h
  | _ :: _, [], h => by simp at h

theorem keptEntries_atPoint [Zero K] (S : List (Hp K)) (t : List K) : ∀ (space : ConfigSpace K) (r : List K),
    keptEntries keep space (atPoint space S t r) = atPoint (space.filter keep) S t (keptEntries keep space r)
  | [], _ => by simp [keptEntries, atPoint]
  | _ :: _, [] => by simp [keptEntries, atPoint]
  | a :: space, v :: r => by
    have ih := keptEntries_atPoint S t space r
    rw [keptEntries_cons]
    unfold atPoint at ih ⊢
    rw [List.zipWith_cons_cons, keptEntries_cons, List.filter_cons, ih]
    split <;> simp

theorem keptEntries_getElem? : ∀ {space : ConfigSpace K} (_ : space.WF) {r : List K} (_ : r.length = space.length) {hp : Hp K} {f f' : Nat},
    IsFeature space hp f → IsFeature (space.filter keep) hp f' → (keptEntries keep space r)[f']? = r[f]?
  | [], _, [], _, _, _, _, h, _ => by obtain ⟨x, hx, -⟩ := h; simp at hx
  | [], _, _ :: _, h, _, _, _, _, _ => by simp at h
  | _ :: _, _, [], h, _, _, _, _, _ => by simp at h
  | a :: space, hwf, v :: r, hl, hp, f, f', h, h' => by
    have hw : a.name ∉ space.map Hp.name ∧ ConfigSpace.WF space := by
      have : (((a :: space).map Hp.name)).Nodup := hwf
      rw [List.map_cons, List.nodup_cons] at this
      exact this
    have ih := fun {f f' : Nat} => keptEntries_getElem? (space := space) hw.2 (r := r) (by simpa using hl) (hp := hp) (f := f) (f' := f')
    have hnot : a.name = hp.name → ∀ g, ¬ IsFeature space hp g := fun e g ⟨x, hx, hn⟩ =>
      hw.1 (List.mem_map.2 ⟨x, List.mem_of_getElem? hx, by rw [hn, e]⟩)
    have hnot' : a.name = hp.name → ∀ g, ¬ IsFeature (space.filter keep) hp g := fun e g ⟨x, hx, hn⟩ =>
      hw.1 (List.mem_map.2 ⟨x, List.mem_of_mem_filter (List.mem_of_getElem? hx), by rw [hn, e]⟩)
    rw [keptEntries_cons]
    rw [List.filter_cons] at h'
    by_cases hk : keep a = true
    · rw [if_pos hk] at h' ⊢
      cases f with
      | zero =>
        obtain ⟨x, hx, hn⟩ := h
        obtain rfl : a = x := by simpa using hx
        cases f' with
        | zero => rfl
        | succ f' =>
          obtain ⟨y, hy, hm⟩ := h'
          exact absurd ⟨y, by simpa using hy, hm⟩ (hnot' hn f')
      | succ f =>
        obtain ⟨x, hx, hn⟩ := h
        have hf : IsFeature space hp f := ⟨x, by simpa using hx, hn⟩
        cases f' with
        | zero =>
          obtain ⟨y, hy, hm⟩ := h'
          obtain rfl : a = y := by simpa using hy
          exact absurd hf (hnot hm f)
        | succ f' =>
          obtain ⟨y, hy, hm⟩ := h'
          simpa using ih hf ⟨y, by simpa using hy, hm⟩
    · rw [if_neg hk] at h' ⊢
      cases f with
      | zero =>
        obtain ⟨x, hx, hn⟩ := h
        obtain rfl : a = x := by simpa using hx
        exact absurd h' (hnot' hn f')
      | succ f =>
        obtain ⟨x, hx, hn⟩ := h
        simpa using ih ⟨x, by simpa using hx, hn⟩ h'

end rows

section greedy
variable [Field K] [LinearOrder K] {keep : Hp K → Bool} {space possible : List (Hp K)} {N minPoints P : Nat}

/-- a curve and the curve with the smaller vectors -/
structure Shorter (keep : Hp K → Bool) (space : ConfigSpace K) (c c' : Curve K) : Prop where
  values : c'.2 = c.2
  rows : c'.1 = c.1.map (keptEntries keep space)
  len : ∀ row ∈ c.1, row.length = space.length

omit [LinearOrder K] in
theorem Shorter.feature (hwf : ConfigSpace.WF space) {c c' : Curve K} (h : Shorter keep space c c') {hp : Hp K} {f f' : Nat}
    (hf : IsFeature space hp f) (hf' : IsFeature (space.filter keep) hp f') : featureOf f' c' = featureOf f c := by
  unfold featureOf
  rw [h.rows]
  cases hc : c.1 with
  | nil => simp
  | cons row rows =>
    simp only [List.map_cons, List.getD_cons_zero]
    rw [List.getD_eq_getElem?_getD, List.getD_eq_getElem?_getD, keptEntries_getElem? hwf (h.len row (by rw [hc]; simp)) hf hf']

omit [LinearOrder K] in
theorem shorter_loss {L L' : List (Curve K)} (h : List.Forall₂ (Shorter keep space) L L') : curveLoss P L' = curveLoss P L := by
  have e : ∀ F : List K → K, L'.map (fun c => F c.2.2) = L.map fun c => F c.2.2 := by
    intro F
    induction h with
    | nil => rfl
    | cons hab _ ih => rw [List.map_cons, List.map_cons, ih, hab.values]
  have hm : ∀ p, meanVar p L' = meanVar p L := by
    intro p
    unfold meanVar
    rw [e fun v => v.getD p 0, h.length_eq]
  unfold curveLoss
  refine Finset.sum_congr rfl fun p _ => ?_
  rw [hm p, e fun v => (v.getD p 0 - meanVar p L) ^ 2]

omit [Field K] [LinearOrder K] in
theorem kept_feature (hk : ∀ hp ∈ possible, hp ∈ space ∧ keep hp = true) {hp : Hp K} (h : hp ∈ possible) : ∃ f', IsFeature (space.filter keep) hp f' := by
  obtain ⟨j, hj⟩ := List.mem_iff_getElem?.1 (List.mem_filter.2 (hk hp h))
  exact ⟨j, hp, hj, rfl⟩

omit [Field K] [LinearOrder K] in
theorem full_feature (hk : ∀ hp ∈ possible, hp ∈ space ∧ keep hp = true) {hp : Hp K} (h : hp ∈ possible) : ∃ f, IsFeature space hp f := by
  obtain ⟨j, hj⟩ := List.mem_iff_getElem?.1 (hk hp h).1
  exact ⟨j, hp, hj, rfl⟩

theorem shorter_parts (hwf : ConfigSpace.WF space) {L L' : List (Curve K)} (h : List.Forall₂ (Shorter keep space) L L') {hp : Hp K} {f f' : Nat}
    (hf : IsFeature space hp f) (hf' : IsFeature (space.filter keep) hp f') (t : K) :
    List.Forall₂ (Shorter keep space) (lowerPart f t L) (lowerPart f' t L') ∧ List.Forall₂ (Shorter keep space) (upperPart f t L) (upperPart f' t L') :=
  ⟨matching_filter h fun a b hab => by rw [hab.feature hwf hf hf'], matching_filter h fun a b hab => by rw [hab.feature hwf hf hf']⟩

theorem shorter_cand (hwf : ConfigSpace.WF space) {L L' : List (Curve K)} (h : List.Forall₂ (Shorter keep space) L L') {i j : Nat} {hp : Hp K}
    {f f' : Nat} (hf : IsFeature space hp f) (hf' : IsFeature (space.filter keep) hp f') :
    IsCandidate (space.filter keep) possible N minPoints L' i j hp f' ↔ IsCandidate space possible N minPoints L i j hp f := by
  obtain ⟨h1, h2⟩ := shorter_parts hwf h hf hf' (threshold N j)
  have e1 := h1.length_eq
  have e2 := h2.length_eq
  exact ⟨fun ⟨a, _, c, d, e, g⟩ => ⟨a, hf, c, d, by omega, by omega⟩, fun ⟨a, _, c, d, e, g⟩ => ⟨a, hf', c, d, by omega, by omega⟩⟩

theorem shorter_cost (hwf : ConfigSpace.WF space) {L L' : List (Curve K)} (h : List.Forall₂ (Shorter keep space) L L') {j : Nat} {hp : Hp K}
    {f f' : Nat} (hf : IsFeature space hp f) (hf' : IsFeature (space.filter keep) hp f') : splitCost P N L' f' j = splitCost P N L f j := by
  obtain ⟨h1, h2⟩ := shorter_parts hwf h hf hf' (threshold N j)
  unfold splitCost
  rw [shorter_loss h1, shorter_loss h2]

theorem shorter_best (hwf : ConfigSpace.WF space) (hk : ∀ hp ∈ possible, hp ∈ space ∧ keep hp = true) {L L' : List (Curve K)}
    (h : List.Forall₂ (Shorter keep space) L L') {i j : Nat} {hp : Hp K} {f' : Nat}
    (hb : IsBestCandidate (space.filter keep) possible N minPoints P L' i j hp f') :
    ∃ f, IsFeature space hp f ∧ IsBestCandidate space possible N minPoints P L i j hp f := by
  obtain ⟨f, hf⟩ := full_feature hk (List.mem_of_getElem? hb.1.hp_at)
  refine ⟨f, hf, (shorter_cand hwf h hf hb.1.feature).1 hb.1, fun i' j' hp' g hc => ?_⟩
  obtain ⟨g', hg'⟩ := kept_feature hk (List.mem_of_getElem? hc.hp_at)
  have := hb.2 i' j' hp' g' ((shorter_cand hwf h hc.feature hg').2 hc)
  rwa [shorter_cost hwf h hf hb.1.feature, shorter_cost hwf h hc.feature hg'] at this

theorem shorter_greedy (hwf : ConfigSpace.WF space) (hk : ∀ hp ∈ possible, hp ∈ space ∧ keep hp = true) {d : Int} {n : Node K} {L : List (Node K)}
    (hg : Greedy space possible N minPoints P d n L) :
    ∀ {n' : Node K} {L' : List (Node K)}, Greedy (space.filter keep) possible N minPoints P d n' L' → SameCut (List.Forall₂ (Shorter keep space)) n n' →
      List.Forall₂ (SameCut (List.Forall₂ (Shorter keep space))) L L' := by
  induction hg with
  | @leaf n hn hs =>
    intro n' L' hg' hc
    cases hg' with
    | leaf _ _ => exact .cons hc .nil
    | @branch _ l r Ll Lr i j hp f _ h1 h2 h3 _ _ _ =>
      exfalso
      rw [hc.depth] at h1
      rw [← hc.curves.length_eq] at h2
      rcases hs with hs | hs | hs
      · omega
      · omega
      · obtain ⟨f, -, hb⟩ := shorter_best hwf hk hc.curves h3
        exact hs _ _ _ _ hb.1
  | @branch n l r Ll Lr i j hp f hn h1 h2 h3 hsp hgl hgr ih1 ih2 =>
    intro n' L' hg' hc
    cases hg' with
    | leaf _ hs =>
      exfalso
      rw [hc.depth, ← hc.curves.length_eq] at hs
      rcases hs with hs | hs | hs
      · omega
      · omega
      · obtain ⟨f', hf'⟩ := kept_feature hk (List.mem_of_getElem? h3.1.hp_at)
        exact hs _ _ _ _ ((shorter_cand hwf hc.curves h3.1.feature hf').2 h3.1)
    | @branch _ l' r' Ll' Lr' i' j' hp' f' _ _ _ h3' hsp' hgl' hgr' =>
      obtain ⟨g, hg, hb⟩ := shorter_best hwf hk hc.curves h3'
      have hf' := h3'.1.feature
      obtain ⟨rfl, rfl, rfl, rfl⟩ := best_unique hwf h3 hb
      obtain ⟨p1, p2⟩ := shorter_parts hwf hc.curves hg hf' (threshold N j)
      refine List.rel_append (ih2 hgr' ⟨?_, ?_, ?_⟩) (ih1 hgl' ⟨?_, ?_, ?_⟩)
      · rw [hsp'.right_depth, hsp.right_depth, hc.depth]
      · rw [hsp'.right_conds, hsp.right_conds, hc.conds]
      · rw [hsp'.right_curves, hsp.right_curves]; exact p2
      · rw [hsp'.left_depth, hsp.left_depth, hc.depth]
      · rw [hsp'.left_conds, hsp.left_conds, hc.conds]
      · rw [hsp'.left_curves, hsp.left_curves]; exact p1

end greedy

section incumbent
variable [Field K] [LinearOrder K] [Transc K] {keep : Hp K → Bool} {space : ConfigSpace K}

theorem kept_satisfied (hwf : space.WF) {c : Cond K} (h1 : c.hp ∈ space) (h2 : keep c.hp = true) {cfg cfg' : Config K}
    (hcfg : ∀ hp ∈ space, keep hp = true → cfg'.get? hp.name = cfg.get? hp.name) : isSatisfied (space.filter keep) c cfg' = isSatisfied space c cfg := by
  have hwf' : ConfigSpace.WF (space.filter keep) := List.Sublist.nodup (List.Sublist.map _ List.filter_sublist) hwf
  unfold isSatisfied condValue unscaleFloat
  rw [ConfigSpace.get_of_mem hwf h1, ConfigSpace.get_of_mem hwf' (List.mem_filter.2 ⟨h1, h2⟩), hcfg _ h1 h2]

theorem kept_contains (hwf : space.WF) {cfg cfg' : Config K} (hcfg : ∀ hp ∈ space, keep hp = true → cfg'.get? hp.name = cfg.get? hp.name) :
    ∀ {conds : List (Cond K)}, (∀ c ∈ conds, c.hp ∈ space ∧ keep c.hp = true) → containsAll (space.filter keep) conds cfg' = containsAll space conds cfg
  | [], _ => rfl
  | c :: conds, h => by
    have ih := kept_contains hwf hcfg (conds := conds) fun c hc => h c (by simp [hc])
    unfold containsAll
    rw [kept_satisfied hwf (h c (by simp)).1 (h c (by simp)).2 hcfg, ih]

theorem kept_first (hwf : space.WF) {cfg cfg' : Config K} (hcfg : ∀ hp ∈ space, keep hp = true → cfg'.get? hp.name = cfg.get? hp.name)
    {L L' : List (Node K)} (h : List.Forall₂ (SameButShorter keep space) L L') (hc : ∀ m ∈ L, ∀ c ∈ m.conds, c.hp ∈ space ∧ keep c.hp = true) :
    (firstContaining (space.filter keep) cfg' L').map (Option.map fun m => (m.conds, m.y, m.v)) =
      (firstContaining space cfg L).map (Option.map fun m => (m.conds, m.y, m.v)) := by
  induction h with
  | nil => rfl
  | @cons m m' L L' hab _ ih =>
    have ih := ih fun m hm => hc m (by simp [hm])
    unfold firstContaining
    rw [hab.conds, kept_contains hwf hcfg (hc m (by simp))]
    cases containsAll space m.conds cfg with
    | error e => rfl
    | ok b =>
      rw [Py.ok_bind, Py.ok_bind]
      cases b with
      | true => simp [Py.map_ok, hab.conds, hab.y, hab.v]
      | false => simpa using ih

end incumbent

section trees
variable [Field K] [LinearOrder K] [IsStrictOrderedRing K]

/-- **C167** A config space with hyperparameters that are neither selected nor may be split, and a surrogate that ignores them (its predictions are those of
a surrogate on the remaining entries): without these hyperparameters the constructor succeeds as well, and for every depth the tree has the same leaves in
the same order: the same conditions, means and variances, and the vectors without the entries that were dropped. The region of the incumbent is the same. -/
theorem C167_tree [Transc K] {space : ConfigSpace K} (hwf : space.WF) (keep : Hp K → Bool) {predict predict' : Predict K} {mu sd mu' sd' : List K → K}
    (hp : RowWise space.length predict mu sd) (hp' : RowWise (space.filter keep).length predict' mu' sd')
    (hign : ∀ r : List K, r.length = space.length → mu r = mu' (keptEntries keep space r) ∧ sd r = sd' (keptEntries keep space r))
    {samples : List (List K)} (hrows : ∀ r ∈ samples, r.length = space.length) (hs : samples ≠ [])
    {sel sel' : Selection K} {perAxis numSplits minPoints : Nat} (hg : 1 ≤ perAxis) {notSplittable notSplittable' : Option (Selection K)} {p : DT K}
    (h : dtInit space predict sel samples perAxis numSplits minPoints notSplittable = .ok p)
    (hmem : ∀ hp ∈ p.cfg.selected, hp ∈ space ∧ keep hp = true) (hd : (p.cfg.selected.map Hp.name).Nodup) (hne : p.cfg.selected ≠ [])
    (hposs : ∀ hp ∈ p.possible, keep hp = true) (hsel' : convertHyperparameters sel' (space.filter keep) = .ok p.cfg.selected)
    {ns ns' : List (Hp K)} (hns : notSplittableHps notSplittable space = .ok ns) (hns' : notSplittableHps notSplittable' (space.filter keep) = .ok ns')
    (hsame : ∀ hp ∈ space, keep hp = true → (hp.name ∈ ns'.map Hp.name ↔ hp.name ∈ ns.map Hp.name)) :
    ∃ p', dtInit (space.filter keep) predict' sel' (samples.map (keptEntries keep space)) perAxis numSplits minPoints notSplittable' = .ok p' ∧
      p'.possible = p.possible ∧ SameButShorter keep space p.root p'.root ∧
      ∀ depth : Int, 0 < depth →
        ∃ leaves leaves', (dtPartition p depth).2 = .ok leaves ∧ (dtPartition p' depth).2 = .ok leaves' ∧
          List.Forall₂ (SameButShorter keep space) leaves leaves' ∧
          ∀ cfg cfg' : Config K, (∀ hp ∈ space, keep hp = true → cfg'.get? hp.name = cfg.get? hp.name) →
            (dtIncumbentRegion (dtPartition p' depth).1 cfg').map (Option.map fun m => (m.conds, m.y, m.v)) =
              (dtIncumbentRegion (dtPartition p depth).1 cfg).map (Option.map fun m => (m.conds, m.y, m.v)) := by
  obtain ⟨c, ns0, i, dd, hc, hns0, -, -, -, e⟩ := dtInit_ok h
  rw [hns] at hns0
  obtain rfl := Except.ok.inj hns0
  obtain ⟨hsel, -⟩ := algorithmInit_eq hc
  have hpc : p.cfg = c := by rw [e]
  rw [← hpc] at hsel
  have hwf' : ConfigSpace.WF (space.filter keep) := List.Sublist.nodup (List.Sublist.map _ List.filter_sublist) hwf
  have hmem1 : ∀ hp ∈ p.cfg.selected, hp ∈ space := fun a ha => (hmem a ha).1
  have hmem2 : ∀ hp ∈ p.cfg.selected, hp ∈ space.filter keep := fun a ha => List.mem_filter.2 (hmem a ha)
  have hrows' : ∀ r ∈ samples.map (keptEntries keep space), r.length = (space.filter keep).length := by
    intro r hr
    obtain ⟨q, hq, rfl⟩ := List.mem_map.1 hr
    exact keptEntries_length (hrows q hq)
  have hs' : samples.map (keptEntries keep space) ≠ [] := by simpa using hs
  obtain ⟨grid, hgr, -, hfull⟩ := C40_grid (K := K) (List.length_pos_iff.2 hne) perAxis
  have hv : ValidCfg (⟨space, p.cfg.selected, samples, samples.length, perAxis, perAxis ^ p.cfg.selected.length, false, predict⟩ : IceCfg K) :=
    ⟨hwf, hmem1, hd, hne, hrows, rfl, rfl⟩
  have hv' : ValidCfg (⟨space.filter keep, p.cfg.selected, samples.map (keptEntries keep space), (samples.map (keptEntries keep space)).length, perAxis,
      perAxis ^ p.cfg.selected.length, false, predict'⟩ : IceCfg K) := ⟨hwf', hmem2, hd, hne, hrows', rfl, rfl⟩
  obtain ⟨idx, hidx, -⟩ := hv.idx
  obtain ⟨idx', hidx', -⟩ := hv'.idx
  dsimp only at hidx hidx'
  obtain ⟨q, q1, q2, q3, q4, q5, q6, q7, q8⟩ := dtInit_rows hwf hp hsel hmem1 hd hne hrows hs hg numSplits minPoints hns hidx hgr
  obtain ⟨q', r1, r2, r3, r4, r5, r6, r7, r8⟩ := dtInit_rows hwf' hp' hsel' hmem2 hd hne hrows' hs' hg numSplits minPoints hns' hidx' hgr
  rw [h] at q1
  obtain rfl := Except.ok.inj q1
  have hpp : q'.possible = p.possible := by
    rw [r4]
    conv_rhs => rw [q4]
    rw [q4] at hposs
    unfold possibleSplits at hposs ⊢
    rw [List.filter_filter]
    refine List.filter_congr fun a ha => ?_
    by_cases hk : keep a = true
    · simp only [hk, hsame a ha hk, Bool.and_true]
    · have : ¬ (a.name ∉ p.cfg.selected.map Hp.name ∧ a.name ∉ ns.map Hp.name) := fun hx => hk (hposs a (List.mem_filter.2 ⟨ha, by simpa using hx⟩))
      rw [decide_eq_false this]
      simp [hk]
  have hroot : List.Forall₂ (Shorter keep space) (curves p.root) (curves q'.root) := by
    rw [q8, r8, List.map_map, List.forall₂_map_left_iff, List.forall₂_map_right_iff, List.forall₂_same]
    intro r hr
    have hrl := hrows r hr
    have key : ∀ t ∈ grid, assignRow idx' t (keptEntries keep space r) = keptEntries keep space (assignRow idx t r) ∧
        (assignRow idx t r).length = space.length := by
      intro t ht
      have htl := ((hfull.2 t).1 ht).1
      refine ⟨?_, by rw [assignRow_length]; exact hrl⟩
      rw [assignRow_atPoint hv hidx hrl htl, assignRow_atPoint hv' hidx' (keptEntries_length hrl) htl, keptEntries_atPoint]
    refine ⟨?_, ?_, ?_⟩
    · simp only [Function.comp, curveAt, List.map_map]
      refine Prod.ext (List.map_congr_left fun t ht => ?_) (List.map_congr_left fun t ht => ?_)
      · simp only [Function.comp]
        rw [(key t ht).1, (hign _ (key t ht).2).1]
      · simp only [Function.comp]
        rw [(key t ht).1, (hign _ (key t ht).2).2]
    · simp only [Function.comp, curveAt, List.map_map]
      exact List.map_congr_left fun t ht => (key t ht).1
    · intro row hrow
      obtain ⟨t, ht, rfl⟩ := List.mem_map.1 hrow
      exact (key t ht).2
  have hkeep : ∀ hp ∈ p.possible, hp ∈ space ∧ keep hp = true := fun a ha => ⟨by rw [q4] at ha; exact List.mem_of_mem_filter ha, hposs a ha⟩
  have same : ∀ {m m' : Node K}, RegionShape (perAxis ^ p.cfg.selected.length) space.length m →
      RegionShape (perAxis ^ p.cfg.selected.length) (space.filter keep).length m' → SameCut (List.Forall₂ (Shorter keep space)) m m' →
      SameButShorter keep space m m' := by
    intro m m' s1 s2 hc
    have e : ∀ {β : Type} (F G : Curve K → β), (∀ c c', Shorter keep space c c' → G c' = F c) → (curves m').map G = (curves m).map F := by
      intro β F G hFG
      have := hc.curves
      generalize curves m = A at this
      generalize curves m' = B at this
      induction this with
      | nil => rfl
      | cons hab _ ih => rw [List.map_cons, List.map_cons, ih, hFG _ _ hab]
    refine ⟨hc.depth, hc.conds, ?_, ?_, ?_⟩
    · rw [← s1.map_x, ← s2.map_x, List.map_map]
      exact e _ _ fun c c' hcc => hcc.rows
    · rw [← s1.map_y, ← s2.map_y]
      exact e _ _ fun c c' hcc => by rw [hcc.values]
    · rw [← s1.map_v, ← s2.map_v]
      exact e _ _ fun c c' hcc => by rw [hcc.values]
  have hcut : SameCut (List.Forall₂ (Shorter keep space)) p.root q'.root := ⟨by rw [q7.depth, r7.depth], by rw [q7.conds, r7.conds], hroot⟩
  refine ⟨q', r1, hpp, same (by have := q7.shape; rwa [q2] at this) (by have := r7.shape; rwa [r2] at this) hcut, fun depth hdep => ?_⟩
  obtain ⟨L, h1, -, h3, -⟩ := partition_eq q7 hdep
  obtain ⟨L', h1', -, h3', -⟩ := partition_eq r7 hdep
  rw [q2, q5, q6] at h3
  rw [r2, r5, r6, hpp] at h3'
  have hL : List.Forall₂ (SameButShorter keep space) L L' :=
    forall₂_mem (shorter_greedy hwf hkeep h3 h3' hcut) fun m m' hm hm' hc => same (h3.shapes m hm) (h3'.shapes m' hm') hc
  refine ⟨L, L', by rw [h1], by rw [h1'], hL, fun cfg cfg' hcfg => ?_⟩
  rw [h1, h1']
  unfold dtIncumbentRegion
  dsimp only
  rw [q2, r2]
  by_cases h0 : L = []
  · have h0' : L' = [] := by rw [h0] at hL; exact List.forall₂_nil_left_iff.1 hL
    rw [if_pos h0, if_pos h0']
  · have h0' : L' ≠ [] := by intro h1; rw [h1] at hL; exact h0 (List.forall₂_nil_right_iff.1 hL)
    rw [if_neg h0, if_neg h0']
    refine kept_first hwf hcfg hL fun m hm c hcm => ?_
    obtain ⟨-, more, e1, -, e2, -⟩ := h3.path m hm
    rw [e1, q7.conds, List.nil_append] at hcm
    exact hkeep _ (e2 c hcm).1

omit [LinearOrder K] [IsStrictOrderedRing K] in
/-- **C167** for the PDP: the same means and variances with and without the hyperparameters that the surrogate ignores. -/
theorem C167_pdp {space : ConfigSpace K} {keep : Hp K → Bool} {predict predict' : Predict K} {mu sd mu' sd' : List K → K}
    (hp : RowWise space.length predict mu sd) (hp' : RowWise (space.filter keep).length predict' mu' sd')
    (hign : ∀ r : List K, r.length = space.length → mu r = mu' (keptEntries keep space r) ∧ sd r = sd' (keptEntries keep space r))
    {sel sel' : Selection K} {selected : List (Hp K)} {samples : List (List K)} {g : Nat} {grid : List (List K)}
    (h : DependenceInput space sel selected samples g grid) (hkeep : ∀ hp ∈ selected, keep hp = true)
    (hsel' : convertHyperparameters sel' (space.filter keep) = .ok selected) :
    ∃ y v, yPdp space predict sel samples g = .ok y ∧ vPdp space predict sel samples g = .ok v ∧
      yPdp (space.filter keep) predict' sel' (samples.map (keptEntries keep space)) g = .ok y ∧
      vPdp (space.filter keep) predict' sel' (samples.map (keptEntries keep space)) g = .ok v := by
  obtain ⟨y1, v1⟩ := pdp_values h.wf h.sel_eq h.mem h.ne h.distinct hp h.samples_ne h.rows h.grid_pos h.grid_eq
  obtain ⟨y2, v2⟩ := pdp_values (List.Sublist.nodup (List.Sublist.map _ List.filter_sublist) h.wf) hsel'
    (fun a ha => List.mem_filter.2 ⟨h.mem a ha, hkeep a ha⟩) h.ne h.distinct hp' (samples := samples.map (keptEntries keep space))
    (by simpa using h.samples_ne) (fun r hr => by
      obtain ⟨q, hq, rfl⟩ := List.mem_map.1 hr
      exact keptEntries_length (h.rows q hq)) h.grid_pos h.grid_eq
  have key : ∀ t, ∀ r ∈ samples, mu' (atPoint (space.filter keep) selected t (keptEntries keep space r)) = mu (atPoint space selected t r) ∧
      sd' (atPoint (space.filter keep) selected t (keptEntries keep space r)) = sd (atPoint space selected t r) := by
    intro t r hr
    have := hign (atPoint space selected t r) (by unfold atPoint; rw [List.length_zipWith, h.rows r hr, min_self])
    rw [keptEntries_atPoint] at this
    exact ⟨this.1.symm, this.2.symm⟩
  refine ⟨_, _, y1, v1, ?_, ?_⟩
  · rw [y2, List.length_map]
    congr 1
    refine List.map_congr_left fun t _ => ?_
    rw [List.map_map]
    congr 2
    exact List.map_congr_left fun r hr => (key t r hr).1
  · rw [v2, List.length_map]
    congr 1
    refine List.map_congr_left fun t _ => ?_
    rw [List.map_map]
    congr 2
    refine List.map_congr_left fun r hr => ?_
    simp only [Function.comp]
    rw [(key t r hr).2]

end trees

/-! ### a concrete case -/

section concrete

local instance transcIrrelevant : Transc ℚ := ⟨id, id⟩

private def irSpace : ConfigSpace ℚ := [⟨"a", .float 0 1 false⟩, ⟨"c", .float 2 3 false⟩, ⟨"b", .float (-1) 1 false⟩]
private def irKeep : Hp ℚ → Bool := fun hp => hp.name != "c"
private def irSamples : List (List ℚ) := [[0, 9/10, 1/10], [0, 1/10, 3/10], [0, 9/10, 8/10]]
private def irMu (r : List ℚ) : ℚ := r.getD 0 0
private def irSd (r : List ℚ) : ℚ := if r.getD 2 0 = 3/10 then 2 else r.getD 2 0
private def irSd' (r : List ℚ) : ℚ := if r.getD 1 0 = 3/10 then 2 else r.getD 1 0
private def irPredict (mu sd : List ℚ → ℚ) : Predict ℚ := fun rows => .ok (rows.map mu, rows.map sd)

private structure IrLeaf where
  conds : List (String × ℚ × Option Bool)
  x : List (List ℚ)
  v : List (List ℚ)
  deriving DecidableEq

private def irLeaves (space : ConfigSpace ℚ) (sd : List ℚ → ℚ) (samples : List (List ℚ)) (ns : Option (Selection ℚ)) : Py (List IrLeaf) := do
  let p ← dtInit space (irPredict irMu sd) (.name "a") samples 2 1 1 ns
  let leaves ← (dtPartition p 2).2
  return leaves.map fun m => ⟨m.conds.map fun c => (c.hp.name, (match c.nval with | .flt t => t | _ => 0), c.lessEqual),
    m.x.map fun rows => rows.getD 0 [], m.v⟩

/-- the surrogate ignores "c" -/
example : ∀ r : List ℚ, r.length = irSpace.length → irMu r = irMu (keptEntries irKeep irSpace r) ∧ irSd r = irSd' (keptEntries irKeep irSpace r) := by
  intro r hr
  match r, hr with
  | [x, y, z], _ => exact ⟨rfl, rfl⟩

/-- with "c", which may not be split, and without "c" -/
example :
    irLeaves irSpace irSd irSamples (some (.name "c")) =
      .ok [⟨[("b", 1/2, some false)], [[0, 9/10, 8/10]], [[64/100, 64/100]]⟩,
        ⟨[("b", 1/2, some true)], [[0, 9/10, 1/10], [0, 1/10, 3/10]], [[1/100, 1/100], [4, 4]]⟩] ∧
    irLeaves (irSpace.filter irKeep) irSd' (irSamples.map (keptEntries irKeep irSpace)) none =
      .ok [⟨[("b", 1/2, some false)], [[0, 8/10]], [[64/100, 64/100]]⟩,
        ⟨[("b", 1/2, some true)], [[0, 1/10], [0, 3/10]], [[1/100, 1/100], [4, 4]]⟩] := by decide +kernel

end concrete

/-- **C167** The exclusion matters: if it may be split, a hyperparameter that the surrogate ignores may be the first one to be split. -/
theorem C167_split_anyway : ∃ (space : ConfigSpace ℚ) (predict : Predict ℚ) (mu sd : List ℚ → ℚ) (samples : List (List ℚ)) (p : DT ℚ) (l r : Node ℚ)
    (cond : Cond ℚ), space.WF ∧ RowWise space.length predict mu sd ∧ (∀ r r' : List ℚ, r.length = space.length → r'.length = space.length →
      (∀ (f : Nat) hp, space[f]? = some hp → hp.name ≠ cond.hp.name → r[f]? = r'[f]?) → mu r = mu r' ∧ sd r = sd r') ∧
    (letI : Transc ℚ := ⟨id, id⟩
     dtInit space predict (.name "a") samples 2 1 1 none = .ok p ∧ (dtPartition p 1).2 = .ok [r, l]) ∧ l.conds = [cond] ∧ cond.lessEqual = some true := by
  let _ : Transc ℚ := ⟨id, id⟩
  have key : ((dtInit irSpace (irPredict irMu irSd) (.name "a") irSamples 2 1 1 none).bind fun p => (dtPartition p 1).2.map fun L => L.map Node.conds) =
      .ok [[⟨⟨"c", .float 2 3 false⟩, .flt (1/2), some false⟩], [⟨⟨"c", .float 2 3 false⟩, .flt (1/2), some true⟩]] := by decide +kernel
  cases hp : dtInit irSpace (irPredict irMu irSd) (.name "a") irSamples 2 1 1 none with
  | error e => rw [hp] at key; cases key
  | ok p =>
    rw [hp] at key
    change (dtPartition p 1).2.map (fun L => L.map Node.conds) = _ at key
    obtain ⟨L, hL, hk⟩ := Py.map_eq_ok.1 key
    match L, hL, hk with
    | [], _, hk => simp at hk
    | [_], _, hk => simp at hk
    | _ :: _ :: _ :: _, _, hk => simp at hk
    | [r, l], hL, hk =>
      have hl : l.conds = [⟨⟨"c", .float 2 3 false⟩, .flt (1/2), some true⟩] := by
        simp only [List.map_cons, List.map_nil, List.cons.injEq, and_true] at hk
        exact hk.2
      refine ⟨irSpace, irPredict irMu irSd, irMu, irSd, irSamples, p, l, r, _, by decide, fun _ _ _ => rfl, ?_, ⟨hp, hL⟩, hl, rfl⟩
      intro r r' h1 h2 h
      have e0 := h 0 ⟨"a", .float 0 1 false⟩ rfl (by decide)
      have e2 := h 2 ⟨"b", .float (-1) 1 false⟩ rfl (by decide)
      simp only [irMu, irSd, List.getD_eq_getElem?_getD, e0, e2, and_self]

end PyPDP
