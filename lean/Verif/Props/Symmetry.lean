/-
C168: another order of the hyperparameters and turned axes: the samples are divided in the same way.
-/
import Verif.Props.Units
import Verif.Props.Stability
import Verif.Props.Additive
import Verif.Spec.Symmetry

namespace PyPDP
open Spec
variable {K : Type}

section core
variable [Field K] [LinearOrder K] [IsStrictOrderedRing K]
variable {n : Nat} {place : Nat → Nat} {turned : Nat → Bool} {space space' possible possible' : List (Hp K)} {N minPoints P : Nat}

/-- a curve and the same curve in the other space; no value of a turned axis is a threshold -/
structure TurnedCurve (n : Nat) (place : Nat → Nat) (turned : Nat → Bool) (N : Nat) (c c' : Curve K) : Prop where
  values : c'.2 = c.2
  rows : List.Forall₂ (TurnedRow n place turned) c.1 c'.1
  nonempty : c.1 ≠ []
  off : ∀ k, k < n → turned k = true → ∀ j, 1 ≤ j → j ≤ N → featureOf k c ≠ threshold N j

/-- the corresponding threshold -/
def turnedIndex (turned : Nat → Bool) (N k j : Nat) : Nat := if turned k then N + 1 - j else j

theorem threshold_turned {N j : Nat} (h : j ≤ N) : (threshold N (N + 1 - j) : K) = 1 - threshold N j := by
  unfold threshold
  rw [Nat.cast_sub (by omega), sub_div]
  push_cast
  rw [div_self (by positivity)]

omit [LinearOrder K] [IsStrictOrderedRing K] in
theorem TurnedCurve.feature {c c' : Curve K} (h : TurnedCurve n place turned N c c') {k : Nat} (hk : k < n) :
    featureOf (place k) c' = if turned k then 1 - featureOf k c else featureOf k c := by
  have hr := h.rows
  have hn := h.nonempty
  unfold featureOf
  generalize c.1 = A at hr hn
  generalize c'.1 = B at hr
  cases hr with
  | nil => exact absurd rfl hn
  | cons hab _ => exact hab.entry k hk

theorem turned_parts {L L' : List (Curve K)} (h : List.Forall₂ (TurnedCurve n place turned N) L L') {k j : Nat} (hk : k < n) (h1 : 1 ≤ j) (h2 : j ≤ N) :
    (turned k = false → List.Forall₂ (TurnedCurve n place turned N) (lowerPart k (threshold N j) L) (lowerPart (place k) (threshold N j) L') ∧
      List.Forall₂ (TurnedCurve n place turned N) (upperPart k (threshold N j) L) (upperPart (place k) (threshold N j) L')) ∧
    (turned k = true → List.Forall₂ (TurnedCurve n place turned N) (lowerPart k (threshold N j) L) (upperPart (place k) (threshold N (N + 1 - j)) L') ∧
      List.Forall₂ (TurnedCurve n place turned N) (upperPart k (threshold N j) L) (lowerPart (place k) (threshold N (N + 1 - j)) L')) := by
  refine ⟨fun ht => ⟨matching_filter h fun c c' hc => ?_, matching_filter h fun c c' hc => ?_⟩,
    fun ht => ⟨matching_filter h fun c c' hc => ?_, matching_filter h fun c c' hc => ?_⟩⟩
  · rw [hc.feature hk, ht]; rfl
  · rw [hc.feature hk, ht]; rfl
  · rw [hc.feature hk, ht, threshold_turned h2, if_pos rfl, decide_eq_decide]
    have := hc.off k hk ht j h1 h2
    constructor
    · intro h; linarith [lt_of_le_of_ne h this]
    · intro h; linarith
  · rw [hc.feature hk, ht, threshold_turned h2, if_pos rfl, decide_eq_decide]
    have := hc.off k hk ht j h1 h2
    constructor
    · intro h; linarith
    · intro h; exact lt_of_le_of_ne (by linarith) this.symm

omit [LinearOrder K] [IsStrictOrderedRing K] in
theorem turned_loss {L L' : List (Curve K)} (h : List.Forall₂ (TurnedCurve n place turned N) L L') : curveLoss P L' = curveLoss P L := by
  have e : ∀ F : List K → K, L'.map (fun c => F c.2.2) = L.map fun c => F c.2.2 := by
    intro F
    induction h with
    | nil => rfl
    | cons hab _ ih => rw [List.map_cons, List.map_cons, ih, hab.values]
  have hm : ∀ p, meanVar p L' = meanVar p L := by
    intro p
    unfold meanVar
    rw [e fun v => v.getD p 0, h.length_eq]
  unfold curveLoss
  refine Finset.sum_congr rfl fun p _ => ?_
  rw [hm p, e fun v => (v.getD p 0 - meanVar p L) ^ 2]

theorem turned_cost {L L' : List (Curve K)} (h : List.Forall₂ (TurnedCurve n place turned N) L L') {k j : Nat} (hk : k < n) (h1 : 1 ≤ j) (h2 : j ≤ N) :
    splitCost P N L' (place k) (turnedIndex turned N k j) = splitCost P N L k j := by
  obtain ⟨a, b⟩ := turned_parts h hk h1 h2
  unfold splitCost turnedIndex
  cases ht : turned k with
  | false => rw [if_neg (by simp), turned_loss (a ht).1, turned_loss (a ht).2]
  | true => rw [if_pos rfl, turned_loss (b ht).1, turned_loss (b ht).2, add_comm]

/-- the two lists of splittable hyperparameters correspond -/
structure SamePossible (n : Nat) (σ : Nat → Nat) (space space' possible possible' : List (Hp K)) : Prop where
  wf : ConfigSpace.WF space
  wf' : ConfigSpace.WF space'
  len : space.length = n
  len' : space'.length = n
  place : Rearranges n σ
  sub : ∀ hp ∈ possible, hp ∈ space
  sub' : ∀ hp ∈ possible', hp ∈ space'
  iff : ∀ hp hp', MovedTo space space' σ hp hp' → (hp ∈ possible ↔ hp' ∈ possible')

omit [Field K] [LinearOrder K] [IsStrictOrderedRing K] in
theorem feature_at (hwf : ConfigSpace.WF space) {hp : Hp K} (hm : hp ∈ space) {f : Nat} : IsFeature space hp f ↔ space[f]? = some hp := by
  constructor
  · rintro ⟨g, hg, hn⟩
    obtain ⟨k, hk⟩ := List.getElem?_of_mem hm
    obtain rfl := name_inj_at hwf hg hk hn
    exact hk
  · intro h; exact ⟨hp, h, rfl⟩

omit [Field K] [LinearOrder K] [IsStrictOrderedRing K] in
theorem Spec.Rearranges.surj (h : Rearranges n place) {l : Nat} (hl : l < n) : ∃ k, k < n ∧ place k = l := by
  have hinj : Function.Injective fun k : Fin n => (⟨place k, h.lt k k.2⟩ : Fin n) := fun a b hab => Fin.ext (h.inj a b a.2 b.2 (congrArg Fin.val hab))
  obtain ⟨k, hk⟩ := Finite.surjective_of_injective hinj ⟨l, hl⟩
  exact ⟨k, k.2, congrArg Fin.val hk⟩

theorem cand_turned (hs : SamePossible n place space space' possible possible') {L L' : List (Curve K)}
    (h : List.Forall₂ (TurnedCurve n place turned N) L L') {i j : Nat} {hp : Hp K} {f : Nat} (hc : IsCandidate space possible N minPoints L i j hp f) :
    f < n ∧ ∃ i' hp', IsCandidate space' possible' N minPoints L' i' (turnedIndex turned N f j) hp' (place f) := by
  obtain ⟨a, b, c, d, e, g⟩ := hc
  have hm := List.mem_of_getElem? a
  have b' := (feature_at hs.wf (hs.sub hp hm)).1 b
  have hf : f < n := by rw [← hs.len]; exact (List.getElem?_eq_some_iff.1 b').1
  have hf' : place f < space'.length := by rw [hs.len']; exact hs.place.lt f hf
  have e1 : space'[place f]? = some space'[place f] := List.getElem?_eq_getElem hf'
  obtain ⟨i', hi'⟩ := List.getElem?_of_mem ((hs.iff _ _ ⟨f, b', e1⟩).1 hm)
  obtain ⟨t1, t2⟩ := turned_parts h hf c d
  refine ⟨hf, i', space'[place f], ?_⟩
  have hfe : IsFeature space' space'[place f] (place f) := ⟨_, e1, rfl⟩
  unfold turnedIndex
  cases ht : turned f with
  | false =>
    obtain ⟨u1, u2⟩ := t1 ht
    rw [if_neg (by simp)]
    exact ⟨hi', hfe, c, d, by rw [← u1.length_eq]; exact e, by rw [← u2.length_eq]; exact g⟩
  | true =>
    obtain ⟨u1, u2⟩ := t2 ht
    rw [if_pos rfl]
    exact ⟨hi', hfe, by omega, by omega, by rw [← u2.length_eq]; exact g, by rw [← u1.length_eq]; exact e⟩

theorem cand_turned_back (hs : SamePossible n place space space' possible possible') {L L' : List (Curve K)}
    (h : List.Forall₂ (TurnedCurve n place turned N) L L') {i' j' : Nat} {hp' : Hp K} {f' : Nat}
    (hc : IsCandidate space' possible' N minPoints L' i' j' hp' f') :
    ∃ i j hp f, IsCandidate space possible N minPoints L i j hp f ∧ f < n ∧ place f = f' ∧ turnedIndex turned N f j = j' := by
  obtain ⟨a, b, c, d, e, g⟩ := hc
  have hm := List.mem_of_getElem? a
  have b' := (feature_at hs.wf' (hs.sub' hp' hm)).1 b
  have hf' : f' < n := by rw [← hs.len']; exact (List.getElem?_eq_some_iff.1 b').1
  obtain ⟨f, hf, rfl⟩ := hs.place.surj hf'
  have hfs : f < space.length := by rw [hs.len]; exact hf
  have e1 : space[f]? = some space[f] := List.getElem?_eq_getElem hfs
  obtain ⟨i, hi⟩ := List.getElem?_of_mem ((hs.iff _ _ ⟨f, e1, b'⟩).2 hm)
  have hj : ∃ j, 1 ≤ j ∧ j ≤ N ∧ turnedIndex turned N f j = j' := by
    unfold turnedIndex
    cases turned f with
    | false => exact ⟨j', c, d, by simp⟩
    | true => exact ⟨N + 1 - j', by omega, by omega, by simp; omega⟩
  obtain ⟨j, j1, j2, rfl⟩ := hj
  refine ⟨i, j, _, f, ⟨hi, ⟨_, e1, rfl⟩, j1, j2, ?_, ?_⟩, hf, rfl, rfl⟩
  all_goals
    obtain ⟨t1, t2⟩ := turned_parts h hf j1 j2
    unfold turnedIndex at e g
    cases ht : turned f with
    | false =>
      obtain ⟨u1, u2⟩ := t1 ht
      simp only [ht] at e g
      first
        | (rw [u1.length_eq]; exact e)
        | (rw [u2.length_eq]; exact g)
    | true =>
      obtain ⟨u1, u2⟩ := t2 ht
      simp only [ht, if_true] at e g
      first
        | (rw [u1.length_eq]; exact g)
        | (rw [u2.length_eq]; exact e)

/-- the best split of the other space divides the curves in the same way -/
theorem best_turned (hs : SamePossible n place space space' possible possible') {L L' : List (Curve K)}
    (h : List.Forall₂ (TurnedCurve n place turned N) L L') {i j : Nat} {hp : Hp K} {f : Nat} (hb : IsClearlyBest space possible N minPoints P 0 L i j hp f)
    {i' j' : Nat} {hp' : Hp K} {f' : Nat} (hb' : IsBestCandidate space' possible' N minPoints P L' i' j' hp' f') :
    (List.Forall₂ (TurnedCurve n place turned N) (lowerPart f (threshold N j) L) (lowerPart f' (threshold N j') L') ∧
      List.Forall₂ (TurnedCurve n place turned N) (upperPart f (threshold N j) L) (upperPart f' (threshold N j') L')) ∨
    (List.Forall₂ (TurnedCurve n place turned N) (lowerPart f (threshold N j) L) (upperPart f' (threshold N j') L') ∧
      List.Forall₂ (TurnedCurve n place turned N) (upperPart f (threshold N j) L) (lowerPart f' (threshold N j') L')) := by
  obtain ⟨i1, j1, hp1, f1, hc1, hf1, rfl, rfl⟩ := cand_turned_back (minPoints := minPoints) hs h hb'.1
  obtain ⟨hf, i2, hp2, hc2⟩ := cand_turned hs h hb.best.1
  have hle := (hb'.2 _ _ _ _ hc2).1
  rw [turned_cost h hf1 hc1.one_le hc1.le, turned_cost h hf hb.best.1.one_le hb.best.1.le] at hle
  have hg : ∀ c ∈ L, featureOf f1 c ≤ threshold N j1 ↔ featureOf f c ≤ threshold N j := by
    rcases hb.gap _ _ _ _ hc1 with hg | hg
    · exact hg
    · exfalso; linarith
  have e1 : lowerPart f1 (threshold N j1) L = lowerPart f (threshold N j) L := List.filter_congr fun c hc => by simp [hg c hc]
  have e2 : upperPart f1 (threshold N j1) L = upperPart f (threshold N j) L := List.filter_congr fun c hc => by
    have := hg c hc
    simp only [← not_le, this]
  rw [← e1, ← e2]
  obtain ⟨t1, t2⟩ := turned_parts h hf1 hc1.one_le hc1.le
  unfold turnedIndex
  cases ht : turned f1 with
  | false => left; simpa using t1 ht
  | true => right; simpa using t2 ht

theorem greedy_turned (hs : SamePossible n place space space' possible possible') {d : Int} {m : Node K} {L : List (Node K)}
    (hg : ClearTree space possible N minPoints P 0 d m L) :
    ∀ {m' : Node K} {L' : List (Node K)}, Greedy space' possible' N minPoints P d m' L' → m'.depth = m.depth →
      List.Forall₂ (TurnedCurve n place turned N) (curves m) (curves m') →
      ∃ M : List (Node K), L'.Perm M ∧ List.Forall₂ (fun a b => b.depth = a.depth ∧ List.Forall₂ (TurnedCurve n place turned N) (curves a) (curves b)) L M := by
  induction hg with
  | @leaf m hn hst =>
    intro m' L' hg' e1 e2
    cases hg' with
    | leaf _ _ => exact ⟨[m'], .refl _, .cons ⟨e1, e2⟩ .nil⟩
    | @branch _ l r Ll Lr i j hp f _ h1 h2 h3 _ _ _ =>
      exfalso
      rw [e1] at h1
      rw [← e2.length_eq] at h2
      rcases hst with hs1 | hs1 | hs1
      · omega
      · omega
      · obtain ⟨i1, j1, hp1, f1, hc1, -⟩ := cand_turned_back (minPoints := minPoints) hs e2 h3.1
        exact hs1 _ _ _ _ hc1
  | @branch m l r Ll Lr i j hp f hn h1 h2 h3 hsp hgl hgr ih1 ih2 =>
    intro m' L' hg' e1 e2
    cases hg' with
    | leaf _ hst =>
      exfalso
      rw [e1, ← e2.length_eq] at hst
      rcases hst with hs1 | hs1 | hs1
      · omega
      · omega
      · obtain ⟨-, i1, hp1, hc1⟩ := cand_turned hs e2 h3.best.1
        exact hs1 _ _ _ _ hc1
    | @branch _ l' r' Ll' Lr' i' j' hp' f' _ _ _ h3' hsp' hgl' hgr' =>
      rcases best_turned hs e2 h3 h3' with ⟨u1, u2⟩ | ⟨u1, u2⟩
      · obtain ⟨M1, p1, q1⟩ := ih1 hgl' (by rw [hsp'.left_depth, hsp.left_depth, e1]) (by rw [hsp'.left_curves, hsp.left_curves]; exact u1)
        obtain ⟨M2, p2, q2⟩ := ih2 hgr' (by rw [hsp'.right_depth, hsp.right_depth, e1]) (by rw [hsp'.right_curves, hsp.right_curves]; exact u2)
        exact ⟨M2 ++ M1, p2.append p1, List.rel_append q2 q1⟩
      · obtain ⟨M1, p1, q1⟩ := ih1 hgr' (by rw [hsp'.right_depth, hsp.left_depth, e1]) (by rw [hsp'.right_curves, hsp.left_curves]; exact u1)
        obtain ⟨M2, p2, q2⟩ := ih2 hgl' (by rw [hsp'.left_depth, hsp.right_depth, e1]) (by rw [hsp'.left_curves, hsp.right_curves]; exact u2)
        exact ⟨M2 ++ M1, (List.perm_append_comm.trans (p2.append p1)), List.rel_append q2 q1⟩

end core

section trees
variable [Field K] [LinearOrder K] [IsStrictOrderedRing K]
variable {place : Nat → Nat} {turned : Nat → Bool} {space space' : ConfigSpace K}

omit [Field K] [LinearOrder K] [IsStrictOrderedRing K] in
theorem moved_name (hwf : space.WF) (hwf' : space'.WF) (hpl : Rearranges space.length place) {a b a' b' : Hp K} (h : MovedTo space space' place a a')
    (h' : MovedTo space space' place b b') : a.name = b.name ↔ a'.name = b'.name := by
  obtain ⟨k, h1, h2⟩ := h
  obtain ⟨l, h3, h4⟩ := h'
  constructor
  · intro e
    obtain rfl := name_inj_at hwf h1 h3 e
    rw [h2] at h4; rw [Option.some.inj h4]
  · intro e
    have hk := (List.getElem?_eq_some_iff.1 h1).1
    have hl := (List.getElem?_eq_some_iff.1 h3).1
    obtain rfl := hpl.inj k l hk hl (name_inj_at hwf' h2 h4 e)
    rw [h1] at h3; rw [Option.some.inj h3]

omit [Field K] [LinearOrder K] [IsStrictOrderedRing K] in
theorem moved_listed (hwf : space.WF) (hwf' : space'.WF) (hpl : Rearranges space.length place) {L L' : List (Hp K)}
    (hL : List.Forall₂ (MovedTo space space' place) L L') {a a' : Hp K} (h : MovedTo space space' place a a') :
    a.name ∈ L.map Hp.name ↔ a'.name ∈ L'.map Hp.name := by
  induction hL with
  | nil => simp
  | cons hb _ ih => rw [List.map_cons, List.map_cons, List.mem_cons, List.mem_cons, ih, moved_name hwf hwf' hpl h hb]

omit [Field K] [LinearOrder K] [IsStrictOrderedRing K] in
theorem moved_distinct (hwf : space.WF) (hwf' : space'.WF) (hpl : Rearranges space.length place) {L L' : List (Hp K)}
    (hL : List.Forall₂ (MovedTo space space' place) L L') (hd : (L.map Hp.name).Nodup) : (L'.map Hp.name).Nodup := by
  induction hL with
  | nil => simp
  | cons hab hL ih =>
    rw [List.map_cons, List.nodup_cons] at hd ⊢
    exact ⟨fun hx => hd.1 ((moved_listed hwf hwf' hpl hL hab).2 hx), ih hd.2⟩

omit [Field K] [LinearOrder K] [IsStrictOrderedRing K] in
theorem moved_possible (hwf : space.WF) (hwf' : space'.WF) (hl : space'.length = space.length) (hpl : Rearranges space.length place) {S S' T T' : List (Hp K)}
    (hS : List.Forall₂ (MovedTo space space' place) S S') (hT : List.Forall₂ (MovedTo space space' place) T T') :
    SamePossible space.length place space space' (possibleSplits space S T) (possibleSplits space' S' T') where
  wf := hwf
  wf' := hwf'
  len := rfl
  len' := hl
  place := hpl
  sub _ h := List.mem_of_mem_filter h
  sub' _ h := List.mem_of_mem_filter h
  iff a a' h := by
    have ha : a ∈ space := by obtain ⟨k, h1, -⟩ := h; exact List.mem_of_getElem? h1
    have ha' : a' ∈ space' := by obtain ⟨k, -, h1⟩ := h; exact List.mem_of_getElem? h1
    unfold possibleSplits
    rw [List.mem_filter, List.mem_filter, decide_eq_true_eq, decide_eq_true_eq, moved_listed hwf hwf' hpl hS h, moved_listed hwf hwf' hpl hT h]
    simp [ha, ha']

omit [Field K] [LinearOrder K] [IsStrictOrderedRing K] in
theorem moved_idx (hwf : space.WF) (hwf' : space'.WF) {S S' : List (Hp K)} (hS : List.Forall₂ (MovedTo space space' place) S S') {idx : List Nat}
    (h : getSelectedIdx S space = .ok idx) :
    getSelectedIdx S' space' = .ok (idx.map place) ∧ List.Forall₂ (fun hp k => space[k]? = some hp) S idx := by
  unfold getSelectedIdx at h ⊢
  rw [Py.mapM_eq_ok] at h ⊢
  induction hS generalizing idx with
  | nil => cases h; exact ⟨.nil, .nil⟩
  | @cons a a' S S' hab _ ih =>
    cases h with
    | @cons _ k _ ks h1 h2 =>
      obtain ⟨u1, u2⟩ := ih h2
      obtain ⟨l, h3, h4⟩ := hab
      obtain ⟨g, hg, hn⟩ := (isFeature_idx hwf).2 h1
      obtain rfl := name_inj_at hwf hg h3 hn
      exact ⟨.cons ((isFeature_idx hwf').1 ⟨a', h4, rfl⟩) u1, .cons h3 u2⟩

omit [LinearOrder K] [IsStrictOrderedRing K] in
theorem turned_assign {n : Nat} (hpl : Rearranges n place) {idx : List Nat} (hnd : idx.Nodup) (hlt : ∀ k ∈ idx, k < n ∧ turned k = false)
    {r r' : List K} (h : TurnedRow n place turned r r') {t : List K} (ht : t.length = idx.length) :
    TurnedRow n place turned (assignRow idx t r) (assignRow (idx.map place) t r') := by
  have hnd' : (idx.map place).Nodup := by
    rw [List.nodup_map_iff_inj_on hnd]
    exact fun a ha b hb e => hpl.inj a b (hlt a ha).1 (hlt b hb).1 e
  refine ⟨by rw [assignRow_length, h.len], by rw [assignRow_length, h.len'], fun k hk => ?_⟩
  by_cases hm : k ∈ idx
  · obtain ⟨j, hj⟩ := List.getElem?_of_mem hm
    have hj' : (idx.map place)[j]? = some (place k) := by rw [List.getElem?_map, hj]; rfl
    have hjt : j < t.length := by rw [ht]; exact (List.getElem?_eq_some_iff.1 hj).1
    rw [(hlt k hm).2, List.getD_eq_getElem?_getD, List.getD_eq_getElem?_getD,
      assignRow_selected hnd hj (List.getElem?_eq_getElem hjt) (by rw [h.len]; exact hk),
      assignRow_selected hnd' hj' (List.getElem?_eq_getElem hjt) (by rw [h.len']; exact hpl.lt k hk)]
    rfl
  · have hm' : place k ∉ idx.map place := by
      intro hx
      obtain ⟨l, hl, e⟩ := List.mem_map.1 hx
      exact hm (hpl.inj l k (hlt l hl).1 hk e ▸ hl)
    have := h.entry k hk
    rw [List.getD_eq_getElem?_getD, List.getD_eq_getElem?_getD] at this ⊢
    rw [assignRow_other hm', assignRow_other hm]
    exact this

/-- **C168** The hyperparameters in another order, with other names, bounds and types, and some axes turned around (a value `v` becomes `1 - v`): the samples
are the same up to this, the surrogate predicts the same, the corresponding hyperparameters are selected (in the same order, none of them turned) and excluded.
If in the first tree every best split was the only best way to divide its region, and no sample lies on a threshold of a turned axis, then the second
constructor succeeds and the second tree divides the samples in the same way: up to the order of the leaves, they hold the same curves, means and variances. -/
theorem C168_same_division [Transc K] (hwf : space.WF) (hwf' : space'.WF) (hl : space'.length = space.length) (hpl : Rearranges space.length place)
    {predict predict' : Predict K} {mu sd mu' sd' : List K → K} (hp : RowWise space.length predict mu sd) (hp' : RowWise space.length predict' mu' sd')
    (hpred : ∀ r r' : List K, TurnedRow space.length place turned r r' → mu' r' = mu r ∧ sd' r' = sd r)
    {samples samples' : List (List K)} (hsam : List.Forall₂ (TurnedRow space.length place turned) samples samples') (hs : samples ≠ [])
    {sel sel' : Selection K} {perAxis numSplits minPoints : Nat} (hg : 1 ≤ perAxis) {notSplittable notSplittable' : Option (Selection K)} {p : DT K}
    (h : dtInit space predict sel samples perAxis numSplits minPoints notSplittable = .ok p)
    (hmem : ∀ hp ∈ p.cfg.selected, hp ∈ space) (hd : (p.cfg.selected.map Hp.name).Nodup) (hne : p.cfg.selected ≠ [])
    {selected' : List (Hp K)} (hsel' : convertHyperparameters sel' space' = .ok selected')
    (hmoved : List.Forall₂ (MovedTo space space' place) p.cfg.selected selected')
    (hfix : ∀ (k : Nat) hp, space[k]? = some hp → hp ∈ p.cfg.selected → turned k = false)
    {ns ns' : List (Hp K)} (hns : notSplittableHps notSplittable space = .ok ns) (hns' : notSplittableHps notSplittable' space' = .ok ns')
    (hmovedns : List.Forall₂ (MovedTo space space' place) ns ns')
    (hoff : ∀ r ∈ samples, ∀ k, k < space.length → turned k = true → ∀ j, 1 ≤ j → j ≤ numSplits → r.getD k 0 ≠ (j : K) / ((numSplits : K) + 1))
    {depth : Int} (hdep : 0 < depth) {leaves : List (Node K)}
    (hclear : ClearTree space p.possible numSplits minPoints (perAxis ^ p.cfg.selected.length) 0 depth p.root leaves) :
    (dtPartition p depth).2 = .ok leaves ∧
    ∃ p' leaves' ordered, dtInit space' predict' sel' samples' perAxis numSplits minPoints notSplittable' = .ok p' ∧ p'.cfg.selected = selected' ∧
      (dtPartition p' depth).2 = .ok leaves' ∧ leaves'.Perm ordered ∧ List.Forall₂ (TurnedRegion space.length place turned) leaves ordered := by
  have hrows : ∀ r ∈ samples, r.length = space.length := fun r hr => by
    obtain ⟨r', -, h1⟩ := forall₂_left hsam r hr
    exact h1.len
  have hrows' : ∀ r ∈ samples', r.length = space'.length := fun r hr => by
    obtain ⟨r', -, h1⟩ := forall₂_left hsam.flip r hr
    rw [hl]; exact h1.len'
  have hs' : samples' ≠ [] := by rintro rfl; exact hs (List.forall₂_nil_right_iff.1 hsam)
  obtain ⟨c, ns0, i, dd, hc, hns0, -, -, -, e⟩ := dtInit_ok h
  rw [hns] at hns0
  obtain rfl := Except.ok.inj hns0
  obtain ⟨hsel, -⟩ := algorithmInit_eq hc
  have hpc : p.cfg = c := by rw [e]
  rw [← hpc] at hsel
  obtain ⟨grid, hgr, -, hfull⟩ := C40_grid (K := K) (List.length_pos_iff.2 hne) perAxis
  obtain ⟨idx, hidx, hnd, -⟩ := (⟨hwf, hmem, hd, hne, hrows, rfl, rfl⟩ : ValidCfg (⟨space, p.cfg.selected, samples, samples.length, perAxis,
    perAxis ^ p.cfg.selected.length, false, predict⟩ : IceCfg K)).idx
  obtain ⟨hidx', hat⟩ := moved_idx hwf hwf' hmoved hidx
  obtain ⟨q, q1, q2, q3, q4, q5, q6, q7, q8⟩ := dtInit_rows hwf hp hsel hmem hd hne hrows hs hg numSplits minPoints hns hidx hgr
  have hlen : selected'.length = p.cfg.selected.length := hmoved.length_eq.symm
  have hmem' : ∀ a ∈ selected', a ∈ space' := by
    intro a ha
    obtain ⟨b, -, k, -, h2⟩ := forall₂_left hmoved.flip a ha
    exact List.mem_of_getElem? h2
  have hd' := moved_distinct hwf hwf' hpl hmoved hd
  have hne' : selected' ≠ [] := by rintro rfl; exact hne (List.length_eq_zero_iff.1 hlen.symm)
  obtain ⟨q', r1, r2, r3, r4, r5, r6, r7, r8⟩ := dtInit_rows hwf' (by rw [hl]; exact hp') hsel' hmem' hd' hne' hrows' hs' hg numSplits
    minPoints hns' hidx' (by rw [hlen]; exact hgr)
  rw [h] at q1
  obtain rfl := Except.ok.inj q1
  have hpos : SamePossible space.length place space space' p.possible q'.possible := by
    rw [q4, r4]; exact moved_possible hwf hwf' hl hpl hmoved hmovedns
  rw [hlen] at r7
  have hlt : ∀ k ∈ idx, k < space.length ∧ turned k = false := by
    intro k hk
    obtain ⟨a, ha, h1⟩ := forall₂_left hat.flip k hk
    exact ⟨(List.getElem?_eq_some_iff.1 h1).1, hfix k a h1 ha⟩
  have hgridne : grid ≠ [] := by
    intro e
    have hshape := q7.shape
    obtain ⟨r, rs, er⟩ := List.exists_cons_of_ne_nil hs
    have hx := hshape.map_x
    rw [q8, er, e] at hx
    have := hshape.xs [] (by rw [← hx]; simp [curveAt])
    have h1 := this.1
    have h2 := hshape.pos
    simp at h1
    omega
  have hroot : List.Forall₂ (TurnedCurve space.length place turned numSplits) (curves p.root) (curves q'.root) := by
    rw [q8, r8, List.forall₂_map_left_iff, List.forall₂_map_right_iff]
    refine forall₂_mem hsam fun r r' hr _ hrr => ?_
    have key : ∀ t ∈ grid, TurnedRow space.length place turned (assignRow idx t r) (assignRow (idx.map place) t r') := fun t ht =>
      turned_assign hpl hnd hlt hrr (by rw [((hfull.2 t).1 ht).1, ← hat.length_eq])
    refine ⟨?_, ?_, by simpa [curveAt] using hgridne, fun k hk ht j h1 h2 => ?_⟩
    · simp only [curveAt, List.map_map, Prod.mk.injEq]
      exact ⟨List.map_congr_left fun t ht => (hpred _ _ (key t ht)).1, List.map_congr_left fun t ht => by simp [(hpred _ _ (key t ht)).2]⟩
    · simp only [curveAt]
      rw [List.forall₂_map_left_iff, List.forall₂_map_right_iff, List.forall₂_same]
      exact key
    · obtain ⟨t, ts, et⟩ := List.exists_cons_of_ne_nil hgridne
      have hni : k ∉ idx := fun hm => by rw [(hlt k hm).2] at ht; cases ht
      have : featureOf k (curveAt idx grid mu sd r) = r.getD k 0 := by
        simp only [featureOf, curveAt, et, List.map_cons, List.getD_cons_zero]
        rw [List.getD_eq_getElem?_getD, assignRow_other hni, ← List.getD_eq_getElem?_getD]
      rw [this]
      exact hoff r hr k hk ht j h1 h2
  obtain ⟨L, h1, -, h3, -⟩ := partition_eq q7 hdep
  obtain ⟨L', h1', -, h3', -⟩ := partition_eq r7 hdep
  rw [q2, q5, q6] at h3
  rw [r2, r5, r6] at h3'
  obtain rfl : leaves = L := greedy_unique hwf hclear.greedy h3
  obtain ⟨M, hM, hrel⟩ := greedy_turned hpos hclear h3' (by rw [q7.depth, r7.depth]) hroot
  refine ⟨by rw [h1], q', L', M, r1, r3, by rw [h1'], hM, ?_⟩
  refine forall₂_mem hrel fun m m' hm hm' hc => ?_
  have s1 := h3.shapes m hm
  have s2 := h3'.shapes m' (hM.mem_iff.2 hm')
  have hcur := hc.2
  refine ⟨hc.1, ?_, ?_, ?_⟩
  · rw [← s1.map_x, ← s2.map_x, List.forall₂_map_left_iff, List.forall₂_map_right_iff]
    exact hcur.imp fun _ _ hab => hab.rows
  · rw [← s1.map_y, ← s2.map_y]
    generalize curves m = A at hcur
    generalize curves m' = B at hcur
    clear * - hcur
    induction hcur with
    | nil => rfl
    | cons hab _ ih => rw [List.map_cons, List.map_cons, ih, hab.values]
  · rw [← s1.map_v, ← s2.map_v]
    generalize curves m = A at hcur
    generalize curves m' = B at hcur
    clear * - hcur
    induction hcur with
    | nil => rfl
    | cons hab _ ih => rw [List.map_cons, List.map_cons, ih, hab.values]

omit [LinearOrder K] [IsStrictOrderedRing K] in
/-- **C168** for the PDP, on all samples: the same means and variances at the same grid points. -/
theorem C168_pdp (hwf' : space'.WF) (hl : space'.length = space.length) (hpl : Rearranges space.length place)
    {predict predict' : Predict K} {mu sd mu' sd' : List K → K} (hp : RowWise space.length predict mu sd) (hp' : RowWise space.length predict' mu' sd')
    (hpred : ∀ r r' : List K, TurnedRow space.length place turned r r' → mu' r' = mu r ∧ sd' r' = sd r)
    {sel sel' : Selection K} {selected selected' : List (Hp K)} {samples samples' : List (List K)} {g : Nat} {grid : List (List K)}
    (h : DependenceInput space sel selected samples g grid) (hsam : List.Forall₂ (TurnedRow space.length place turned) samples samples')
    (hsel' : convertHyperparameters sel' space' = .ok selected') (hmoved : List.Forall₂ (MovedTo space space' place) selected selected')
    (hfix : ∀ (k : Nat) hp, space[k]? = some hp → hp ∈ selected → turned k = false) :
    ∃ y v, yPdp space predict sel samples g = .ok y ∧ vPdp space predict sel samples g = .ok v ∧
      yPdp space' predict' sel' samples' g = .ok y ∧ vPdp space' predict' sel' samples' g = .ok v := by
  have hrows' : ∀ r ∈ samples', r.length = space'.length := fun r hr => by
    obtain ⟨r', -, h1⟩ := forall₂_left hsam.flip r hr
    rw [hl]; exact h1.len'
  have hs' : samples' ≠ [] := by rintro rfl; exact h.samples_ne (List.forall₂_nil_right_iff.1 hsam)
  have hlen : selected'.length = selected.length := hmoved.length_eq.symm
  have hne' : selected' ≠ [] := by rintro rfl; exact h.ne (List.length_eq_zero_iff.1 hlen.symm)
  have hmem' : ∀ a ∈ selected', a ∈ space' := by
    intro a ha
    obtain ⟨b, -, k, -, h2⟩ := forall₂_left hmoved.flip a ha
    exact List.mem_of_getElem? h2
  have hd' := moved_distinct h.wf hwf' hpl hmoved h.distinct
  have hv : ValidCfg (⟨space, selected, samples, samples.length, g, g ^ selected.length, false, predict⟩ : IceCfg K) :=
    ⟨h.wf, h.mem, h.distinct, h.ne, h.rows, rfl, rfl⟩
  have hv' : ValidCfg (⟨space', selected', samples', samples'.length, g, g ^ selected'.length, false, predict'⟩ : IceCfg K) :=
    ⟨hwf', hmem', hd', hne', hrows', rfl, rfl⟩
  obtain ⟨idx, hidx, hnd, -⟩ := hv.idx
  obtain ⟨hidx', hat⟩ := moved_idx h.wf hwf' hmoved hidx
  have hlt : ∀ k ∈ idx, k < space.length ∧ turned k = false := by
    intro k hk
    obtain ⟨a, ha, h1⟩ := forall₂_left hat.flip k hk
    exact ⟨(List.getElem?_eq_some_iff.1 h1).1, hfix k a h1 ha⟩
  obtain ⟨y1, v1⟩ := pdp_values h.wf h.sel_eq h.mem h.ne h.distinct hp h.samples_ne h.rows h.grid_pos h.grid_eq
  obtain ⟨y2, v2⟩ := pdp_values hwf' hsel' hmem' hne' hd' (by rw [hl]; exact hp') hs' hrows' h.grid_pos (by rw [hlen]; exact h.grid_eq)
  have key : ∀ t ∈ grid, List.Forall₂ (fun r r' => mu' (atPoint space' selected' t r') = mu (atPoint space selected t r) ∧
      sd' (atPoint space' selected' t r') = sd (atPoint space selected t r)) samples samples' := by
    intro t ht
    have htl : t.length = selected.length := (gridPoints_ok h.grid_eq).2 t ht
    refine hsam.imp fun r r' hr => ?_
    rw [← assignRow_atPoint hv hidx hr.len htl, ← assignRow_atPoint hv' hidx' (by rw [hr.len', hl]) (by rw [htl, hlen])]
    exact hpred _ _ (turned_assign hpl hnd hlt hr (by rw [htl]; exact hat.length_eq))
  have hmap : ∀ {A B : List (List K)} {F G : List K → K}, List.Forall₂ (fun r r' => G r' = F r) A B → B.map G = A.map F := by
    intro A B F G hAB
    induction hAB with
    | nil => rfl
    | cons hab _ ih => rw [List.map_cons, List.map_cons, hab, ih]
  refine ⟨_, _, y1, v1, ?_, ?_⟩
  · rw [y2, ← hsam.length_eq]
    congr 1
    refine List.map_congr_left fun t ht => ?_
    rw [hmap ((key t ht).imp fun _ _ h => h.1)]
  · rw [v2, ← hsam.length_eq]
    congr 1
    refine List.map_congr_left fun t ht => ?_
    rw [hmap (F := fun r => sd (atPoint space selected t r) ^ 2) ((key t ht).imp fun _ _ h => by rw [h.2])]

end trees

section concrete

local instance transcSymmetry : Transc ℚ := ⟨id, id⟩

private def syPredict (sd : List ℚ → ℚ) : Predict ℚ := fun X => .ok (X.map (fun _ => 0), X.map sd)

/-- the standard deviation is 1 in the upper fourth of "b" -/
private def sySd (r : List ℚ) : ℚ := if 3/4 < r.getD 1 0 then 1 else 0

/-- "b" comes first and is turned -/
private def syTurnedSd (r : List ℚ) : ℚ := if r.getD 0 0 < 1/4 then 1 else 0

/-- only "b" turned -/
private def syTurnedOnly (r : List ℚ) : ℚ := if r.getD 1 0 < 1/4 then 1 else 0

private def syOther : ConfigSpace ℚ := [⟨"width", .float 3 5 false⟩, ⟨"rate", .float 1 100 true⟩]

private def syPlace : Nat → Nat := fun k => 1 - k
private def syTurned : Nat → Bool := fun k => k == 1

private theorem sy_place : Rearranges 2 syPlace :=
  ⟨fun k hk => by unfold syPlace; omega, fun k l hk hl e => by unfold syPlace at e; omega⟩

private theorem sy_swapped (r r' : List ℚ) (h : TurnedRow 2 syPlace syTurned r r') : syTurnedSd r' = sySd r := by
  have := h.entry 1 (by decide)
  simp only [syPlace, syTurned] at this
  unfold syTurnedSd sySd
  simp only [show (1 : Nat) - 1 = 0 from rfl, beq_self_eq_true, if_true] at this
  rw [this]
  by_cases hr : 3/4 < r.getD 1 0
  · rw [if_pos hr, if_pos (by linarith)]
  · rw [if_neg hr, if_neg (by linarith)]

private theorem sy_turned (r r' : List ℚ) (h : TurnedRow 2 id syTurned r r') : syTurnedOnly r' = sySd r := by
  have := h.entry 1 (by decide)
  simp only [syTurned, id, beq_self_eq_true, if_true] at this
  unfold syTurnedOnly sySd
  rw [this]
  by_cases hr : 3/4 < r.getD 1 0
  · rw [if_pos hr, if_pos (by linarith)]
  · rw [if_neg hr, if_neg (by linarith)]

private theorem sy_row {σ : Nat → Nat} {a b c d : ℚ} (h0 : [c, d].getD (σ 0) 0 = a) (h1 : [c, d].getD (σ 1) 0 = 1 - b) :
    TurnedRow 2 σ syTurned [a, b] [c, d] :=
  ⟨rfl, rfl, fun k hk => by
    match k, hk with
    | 0, _ => simpa [syTurned] using h0
    | 1, _ => simpa [syTurned] using h1⟩

/-- with one threshold there is at most one way to split -/
private theorem sy_clear {root lower upper : Node ℚ} (hs : RegionShape 2 2 root) (hl : RegionShape 2 2 lower) (hu : RegionShape 2 2 upper)
    (hd : root.depth = 0) (h2 : 2 ≤ (curves root).length) (h3 : 1 ≤ (lowerPart 1 (threshold 1 1) (curves root)).length)
    (h4 : 1 ≤ (upperPart 1 (threshold 1 1) (curves root)).length) (hsp : IsSplit 1 ⟨"b", .float 0 1 false⟩ (threshold 1 1) root lower upper) :
    ClearTree invSpace [⟨"b", .float 0 1 false⟩] 1 1 2 0 1 root [upper, lower] := by
  have hwf : ConfigSpace.WF invSpace := by decide
  have hcand : ∀ i j hp f, IsCandidate invSpace [⟨"b", .float 0 1 false⟩] 1 1 (curves root) i j hp f → i = 0 ∧ f = 1 ∧ j = 1 := by
    rintro i j hp f ⟨h1, h2, h3, h4, -, -⟩
    have hi : i = 0 := by
      have := (List.getElem?_eq_some_iff.1 h1).1
      simpa using this
    subst hi
    obtain rfl : (⟨"b", .float 0 1 false⟩ : Hp ℚ) = hp := by simpa using h1
    rw [isFeature_idx hwf] at h2
    obtain rfl : 1 = f := Except.ok.inj ((by decide : ConfigSpace.idx invSpace "b" = .ok 1).symm.trans h2)
    exact ⟨rfl, rfl, by omega⟩
  refine .branch (i := 0) (j := 1) (hp := ⟨"b", .float 0 1 false⟩) (f := 1) hs (by rw [hd]; decide) h2
    ⟨⟨⟨rfl, by rw [isFeature_idx hwf]; decide, by decide, by decide, h3, h4⟩, ?_⟩, ?_⟩ hsp
    (.leaf hl (.inl (by rw [hsp.left_depth, hd]; decide))) (.leaf hu (.inl (by rw [hsp.right_depth, hd]; decide))) (Ll := [lower]) (Lr := [upper])
  · intro i j hp f hc
    obtain ⟨rfl, rfl, rfl⟩ := hcand i j hp f hc
    simp
  · intro i j hp f hc
    obtain ⟨rfl, rfl, rfl⟩ := hcand i j hp f hc
    left; simp

private def syNode (d : Nat) (bs : List ℚ) (vs : List ℚ) (conds : List (Cond ℚ)) : Node ℚ :=
  ⟨d, bs.map fun b => [[0, b], [1, b]], bs.map fun _ => [0, 0], vs.map fun v => [v, v], conds⟩

private def syCond (le : Bool) : Cond ℚ := ⟨⟨"b", .float 0 1 false⟩, .flt (1/2), some le⟩

/-- three samples that are not on the threshold 1/2; the other space has the hyperparameters in the other order, "b" is turned -/
example : ∃ p p' leaves' ordered, dtInit invSpace (syPredict sySd) (.name "a") [[0, 1/4], [0, 3/8], [0, 7/8]] 2 1 1 none = .ok p ∧
    dtInit syOther (syPredict syTurnedSd) (.name "rate") [[3/4, 0], [5/8, 0], [1/8, 0]] 2 1 1 none = .ok p' ∧
    (dtPartition p 1).2 = .ok [syNode 1 [7/8] [1] [syCond false], syNode 1 [1/4, 3/8] [0, 0] [syCond true]] ∧
    (dtPartition p' 1).2 = .ok leaves' ∧ leaves'.Perm ordered ∧
    ordered.map Node.v = [[[1, 1]], [[0, 0], [0, 0]]] := by
  have hmap : (dtInit invSpace (syPredict sySd) (.name "a") [[0, 1/4], [0, 3/8], [0, 7/8]] 2 1 1 none).map (fun p => (p.root, p.possible, p.cfg.selected)) =
      .ok (syNode 0 [1/4, 3/8, 7/8] [0, 0, 1] [], [⟨"b", .float 0 1 false⟩], [⟨"a", .float 0 1 false⟩]) := by decide +kernel
  obtain ⟨p, hp, he⟩ := Py.map_eq_ok.1 hmap
  obtain ⟨e1, he⟩ := Prod.mk.inj he
  obtain ⟨e2, e3⟩ := Prod.mk.inj he
  have hsel' : convertHyperparameters (.name "rate") syOther = .ok [⟨"rate", .float 1 100 true⟩] := by decide +kernel
  obtain ⟨h1, p', L', M, h2, -, h3, h4, h5⟩ := C168_same_division (place := syPlace) (turned := syTurned) (space := invSpace) (space' := syOther) (mu := fun _ => 0) (sd := sySd)
    (mu' := fun _ => 0) (sd' := syTurnedSd) (by decide) (by decide) rfl
    sy_place (fun _ _ _ => rfl) (fun _ _ _ => rfl) (fun r r' h => ⟨rfl, sy_swapped r r' h⟩)
    (samples := [[0, 1/4], [0, 3/8], [0, 7/8]]) (samples' := [[3/4, 0], [5/8, 0], [1/8, 0]])
    (.cons (sy_row rfl (by decide +kernel)) (.cons (sy_row rfl (by decide +kernel)) (.cons (sy_row rfl (by decide +kernel)) .nil))) (by decide) (by decide) hp
    (by rw [e3]; decide) (by rw [e3]; decide) (by rw [e3]; decide) hsel' (by rw [e3]; exact .cons ⟨0, rfl, rfl⟩ .nil)
    (by
      rw [e3]
      intro k hp hk hm
      match k, hk with
      | 0, _ => rfl
      | 1, hk => obtain rfl : (⟨"b", .float 0 1 false⟩ : Hp ℚ) = hp := Option.some.inj hk
                 exact absurd hm (by decide)) (ns := []) (ns' := []) rfl (notSplittable' := none) rfl .nil
    (by
      intro r hr k hk ht j h1 h2
      obtain rfl : j = 1 := by omega
      obtain rfl : k = 1 := by simpa [syTurned] using ht
      revert r
      decide +kernel) (depth := 1) (by decide)
    (leaves := [syNode 1 [7/8] [1] [syCond false], syNode 1 [1/4, 3/8] [0, 0] [syCond true]])
    (by
      rw [e1, e2, e3]
      refine sy_clear ?_ ?_ ?_ rfl (by decide +kernel) (by decide +kernel) (by decide +kernel)
        ⟨by decide +kernel, by decide +kernel, rfl, rfl, by decide +kernel, by decide +kernel⟩ <;>
      exact ⟨by decide, by decide, by decide, by decide +kernel, by decide +kernel, by decide +kernel⟩)
  refine ⟨p, p', L', M, hp, h2, h1, h3, h4, ?_⟩
  cases h5 with
  | cons a t => cases t with
    | cons b t => cases t with
      | nil => rw [List.map_cons, List.map_cons, a.v, b.v]; decide +kernel

/-- related leaves have the same variances -/
private theorem sy_variances {σ : Nat → Nat} {leaves leaves' ordered : List (Node ℚ)} (hp : leaves'.Perm ordered)
    (h : List.Forall₂ (TurnedRegion 2 σ syTurned) leaves ordered) : (leaves'.map Node.v).Perm (leaves.map Node.v) := by
  refine (hp.map Node.v).trans (List.Perm.of_eq ?_)
  clear hp
  induction h with
  | nil => rfl
  | cons hab _ ih => rw [List.map_cons, List.map_cons, hab.v, ih]

/-- **C168** The condition on the samples is needed: a sample on a threshold is on the lower side of both axes. Samples at 0, 1/2 and 1, one threshold; the first
tree has only one way to split and separates the last sample, with the axis turned the first one is separated. -/
theorem C168_on_threshold : ∃ (space : ConfigSpace ℚ) (predict predict' : Predict ℚ) (mu sd mu' sd' : List ℚ → ℚ) (samples samples' : List (List ℚ))
    (p p' : DT ℚ) (leaves leaves' : List (Node ℚ)), space.WF ∧ RowWise space.length predict mu sd ∧ RowWise space.length predict' mu' sd' ∧
    (∀ r r' : List ℚ, TurnedRow space.length id (fun k => k == 1) r r' → mu' r' = mu r ∧ sd' r' = sd r) ∧
    List.Forall₂ (TurnedRow space.length id fun k => k == 1) samples samples' ∧
    dtInit space predict (.name "a") samples 2 1 1 none = .ok p ∧ dtInit space predict' (.name "a") samples' 2 1 1 none = .ok p' ∧
    ClearTree space p.possible 1 1 2 0 1 p.root leaves ∧ (letI : Transc ℚ := ⟨id, id⟩; (dtPartition p' 1).2 = .ok leaves') ∧
    ¬ ∃ ordered, leaves'.Perm ordered ∧ List.Forall₂ (TurnedRegion space.length id fun k => k == 1) leaves ordered := by
  have hmap : (dtInit invSpace (syPredict sySd) (.name "a") [[0, 0], [0, 1/2], [0, 1]] 2 1 1 none).map (fun p => (p.root, p.possible)) =
      .ok (syNode 0 [0, 1/2, 1] [0, 0, 1] [], [⟨"b", .float 0 1 false⟩]) := by decide +kernel
  obtain ⟨p, hp, he⟩ := Py.map_eq_ok.1 hmap
  obtain ⟨e1, e2⟩ := Prod.mk.inj he
  have hmap' : ((dtInit invSpace (syPredict syTurnedOnly) (.name "a") [[0, 1], [0, 1/2], [0, 0]] 2 1 1 none).bind fun p => (dtPartition p 1).2.map fun L => L.map Node.v) =
      .ok [[[0, 0]], [[0, 0], [1, 1]]] := by decide +kernel
  cases hp' : dtInit invSpace (syPredict syTurnedOnly) (.name "a") [[0, 1], [0, 1/2], [0, 0]] 2 1 1 none with
  | error e => rw [hp'] at hmap'; cases hmap'
  | ok p' =>
    rw [hp'] at hmap'
    change (dtPartition p' 1).2.map (fun L => L.map Node.v) = _ at hmap'
    obtain ⟨L', hL', hv⟩ := Py.map_eq_ok.1 hmap'
    refine ⟨invSpace, _, _, fun _ => 0, sySd, fun _ => 0, syTurnedOnly, _, _, p, p', [syNode 1 [1] [1] [syCond false], syNode 1 [0, 1/2] [0, 0] [syCond true]], L',
      by decide, fun _ _ _ => rfl, fun _ _ _ => rfl, fun r r' h => ⟨rfl, sy_turned r r' h⟩,
      .cons (sy_row rfl (by decide +kernel)) (.cons (sy_row rfl (by decide +kernel)) (.cons (sy_row rfl (by decide +kernel)) .nil)), hp, hp', ?_, hL', ?_⟩
    · rw [e1, e2]
      refine sy_clear ?_ ?_ ?_ rfl (by decide +kernel) (by decide +kernel) (by decide +kernel)
        ⟨by decide +kernel, by decide +kernel, rfl, rfl, by decide +kernel, by decide +kernel⟩ <;>
      exact ⟨by decide, by decide, by decide, by decide +kernel, by decide +kernel, by decide +kernel⟩
    · rintro ⟨M, h1, h2⟩
      have := sy_variances h1 h2
      rw [hv] at this
      revert this
      decide +kernel

/-- the standard deviation is 1 in the middle half of "b" -/
private def syMiddle (r : List ℚ) : ℚ := if 1/4 < r.getD 1 0 ∧ r.getD 1 0 < 3/4 then 1 else 0

/-- **C168** and so is the condition on the splits: among equally good splits the tree takes the lowest threshold, which is the highest one of the turned axis.
Four samples, none on a threshold, the variance is 1 in the middle: separating the first sample is as good as separating the last one. -/
theorem C168_tie : ∃ (space : ConfigSpace ℚ) (predict : Predict ℚ) (mu sd : List ℚ → ℚ) (samples samples' : List (List ℚ))
    (p p' : DT ℚ) (leaves leaves' : List (Node ℚ)), space.WF ∧ RowWise space.length predict mu sd ∧
    (∀ r r' : List ℚ, TurnedRow space.length id (fun k => k == 1) r r' → mu r' = mu r ∧ sd r' = sd r) ∧
    List.Forall₂ (TurnedRow space.length id fun k => k == 1) samples samples' ∧
    (∀ r ∈ samples, ∀ j : Nat, 1 ≤ j → j ≤ 3 → r.getD 1 0 ≠ (j : ℚ) / (3 + 1)) ∧
    dtInit space predict (.name "a") samples 2 3 1 none = .ok p ∧ dtInit space predict (.name "a") samples' 2 3 1 none = .ok p' ∧
    (letI : Transc ℚ := ⟨id, id⟩; (dtPartition p 1).2 = .ok leaves ∧ (dtPartition p' 1).2 = .ok leaves') ∧
    ¬ ∃ ordered, leaves'.Perm ordered ∧ List.Forall₂ (TurnedRegion space.length id fun k => k == 1) leaves ordered := by
  have key : ∀ {samples : List (List ℚ)} {xs : List (List (List (List ℚ)))}, ((dtInit invSpace (syPredict syMiddle) (.name "a") samples 2 3 1 none).bind fun p =>
      (dtPartition p 1).2.map fun L => L.map Node.x) = .ok xs →
      ∃ p L, dtInit invSpace (syPredict syMiddle) (.name "a") samples 2 3 1 none = .ok p ∧ (dtPartition p 1).2 = .ok L ∧ L.map Node.x = xs := by
    intro samples xs h
    cases hp : dtInit invSpace (syPredict syMiddle) (.name "a") samples 2 3 1 none with
    | error e => rw [hp] at h; cases h
    | ok p =>
      rw [hp] at h
      change (dtPartition p 1).2.map (fun L => L.map Node.x) = _ at h
      obtain ⟨L, hL, hv⟩ := Py.map_eq_ok.1 h
      exact ⟨p, L, rfl, hL, hv⟩
  obtain ⟨p, L, a1, a2, a3⟩ := key (samples := [[0, 1/8], [0, 3/8], [0, 5/8], [0, 7/8]])
    (xs := [[[[0, 3/8], [1, 3/8]], [[0, 5/8], [1, 5/8]], [[0, 7/8], [1, 7/8]]], [[[0, 1/8], [1, 1/8]]]]) (by decide +kernel)
  obtain ⟨p', L', b1, b2, b3⟩ := key (samples := [[0, 7/8], [0, 5/8], [0, 3/8], [0, 1/8]])
    (xs := [[[[0, 7/8], [1, 7/8]], [[0, 5/8], [1, 5/8]], [[0, 3/8], [1, 3/8]]], [[[0, 1/8], [1, 1/8]]]]) (by decide +kernel)
  refine ⟨invSpace, _, fun _ => 0, syMiddle, _, _, p, p', L, L', by decide, fun _ _ _ => rfl, fun r r' h => ⟨rfl, ?_⟩,
    .cons (sy_row rfl (by decide +kernel)) (.cons (sy_row rfl (by decide +kernel)) (.cons (sy_row rfl (by decide +kernel))
      (.cons (sy_row rfl (by decide +kernel)) .nil))), ?_, a1, b1, ⟨a2, b2⟩, ?_⟩
  · have := h.entry 1 (by decide)
    simp only [id, beq_self_eq_true, if_true] at this
    unfold syMiddle
    rw [this]
    refine if_congr ⟨fun h => ⟨by linarith [h.2], by linarith [h.1]⟩, fun h => ⟨by linarith [h.2], by linarith [h.1]⟩⟩ rfl rfl
  · intro r hr j h1 h2
    have : j = 1 ∨ j = 2 ∨ j = 3 := by omega
    rcases this with rfl | rfl | rfl <;> revert r <;> decide +kernel
  · rintro ⟨M, h1, h2⟩
    have hM : ∀ m ∈ M, m.x.length = 3 → ∃ a ∈ m.x, a = [[0, 7/8], [1, 7/8]] := by
      intro m hm hl
      have hmx : m.x ∈ L'.map Node.x := List.mem_map.2 ⟨m, h1.mem_iff.2 hm, rfl⟩
      rw [b3] at hmx
      simp only [List.mem_cons, List.not_mem_nil, or_false] at hmx
      rcases hmx with e | e
      · exact ⟨_, by rw [e]; simp, rfl⟩
      · rw [e] at hl; simp at hl
    obtain ⟨m1, L1, rfl⟩ : ∃ m1 L1, L = m1 :: L1 := by
      cases L with
      | nil => simp at a3
      | cons m1 L1 => exact ⟨m1, L1, rfl⟩
    rw [List.map_cons] at a3
    have hx := (List.cons.inj a3).1
    cases h2 with
    | @cons _ b _ _ hab _ =>
      have hxx := hab.x
      rw [hx] at hxx
      obtain ⟨a, ha, ea⟩ := hM b (by simp) (by rw [← hxx.length_eq]; rfl)
      obtain ⟨c, hc, hca⟩ := forall₂_left hxx.flip a ha
      have hc8 : ∃ row ∈ c, ∃ row' ∈ a, TurnedRow 2 id syTurned row row' := by
        have hac : List.Forall₂ (TurnedRow 2 id syTurned) c a := hca
        cases hac with
        | nil => cases ea
        | cons h _ => exact ⟨_, by simp, _, by simp, h⟩
      obtain ⟨row, hr, row', hr', ht⟩ := hc8
      have e := ht.entry 1 (by decide)
      simp only [syTurned, id, beq_self_eq_true, if_true] at e
      have f1 : row'.getD 1 0 = 7/8 := by rw [ea] at hr'; clear e ht; revert row'; decide +kernel
      have f2 : row.getD 1 0 ≠ 1/8 := by
        clear e ht hr' f1 hxx hab h1 hM ha hca ea
        revert row c
        decide +kernel
      exact f2 (by linarith)

end concrete
end PyPDP
