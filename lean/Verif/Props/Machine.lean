/-
C133, C134: what holds whatever the rounding.
-/
import Verif.Lemmas.Machine
import Verif.Props.Conditions

namespace PyPDP
open Spec
variable {F : Type}

/-! ### C133 scaling -/

section clamps
variable [Machine F] (H : Comparable F)
include H

theorem npMinimum_spec (a b : F) : (¬ IsNum (npMinimum a b) ↔ ¬ IsNum a ∨ ¬ IsNum b) ∧
    (IsNum a → IsNum b → Machine.le (npMinimum a b) a = true ∧ Machine.le (npMinimum a b) b = true ∧ (npMinimum a b = a ∨ npMinimum a b = b)) := by
  unfold npMinimum machineNan
  by_cases ha : IsNum a
  · by_cases hb : IsNum b
    · have ha' := ha
      have hb' := hb
      unfold IsNum at ha' hb'
      simp only [ha', hb', Bool.not_true, Bool.false_eq_true, if_false]
      rcases hab : Machine.le a b with _ | _
      · have := (H.total a b ha hb).resolve_left (by simp [hab])
        simp [ha, hb, this, hb']
      · simp [ha, hb, hab, ha']
    · have ha' := ha
      have hb' := hb
      unfold IsNum at ha' hb'
      simp [ha', hb', ha, hb]
  · have ha' := ha
    unfold IsNum at ha'
    simp [ha', ha]

theorem npMaximum_spec (a b : F) : (¬ IsNum (npMaximum a b) ↔ ¬ IsNum a ∨ ¬ IsNum b) ∧
    (IsNum a → IsNum b → Machine.le a (npMaximum a b) = true ∧ Machine.le b (npMaximum a b) = true ∧ (npMaximum a b = a ∨ npMaximum a b = b)) := by
  unfold npMaximum machineNan
  by_cases ha : IsNum a
  · by_cases hb : IsNum b
    · have ha' := ha
      have hb' := hb
      unfold IsNum at ha' hb'
      simp only [ha', hb', Bool.not_true, Bool.false_eq_true, if_false]
      rcases hab : Machine.le a b with _ | _
      · have := (H.total a b ha hb).resolve_left (by simp [hab])
        simp [ha, hb, this, ha']
      · simp [ha, hb, hab, hb']
    · have ha' := ha
      have hb' := hb
      unfold IsNum at ha' hb'
      simp [ha', hb', ha, hb]
  · have ha' := ha
    unfold IsNum at ha'
    simp [ha', ha]

/-- the two clamps, in either order -/
theorem clamp_spec {lo hi v : F} (hlh : Machine.le lo hi = true) :
    (IsNum v → (IsNum (npMaximum lo (npMinimum hi v)) ∧ Machine.le lo (npMaximum lo (npMinimum hi v)) = true ∧
      Machine.le (npMaximum lo (npMinimum hi v)) hi = true) ∧
      (IsNum (npMinimum hi (npMaximum lo v)) ∧ Machine.le lo (npMinimum hi (npMaximum lo v)) = true ∧
      Machine.le (npMinimum hi (npMaximum lo v)) hi = true)) ∧
    (¬ IsNum v → ¬ IsNum (npMaximum lo (npMinimum hi v)) ∧ ¬ IsNum (npMinimum hi (npMaximum lo v))) := by
  obtain ⟨hlo, hhi⟩ := H.num_of_le _ _ hlh
  constructor
  · intro hv
    constructor
    · have h1 : IsNum (npMinimum hi v) := by
        by_contra h
        rcases (npMinimum_spec H hi v).1.1 h with h | h <;> contradiction
      obtain ⟨m1, m2, m3⟩ := (npMinimum_spec H hi v).2 hhi hv
      obtain ⟨n1, n2, n3⟩ := (npMaximum_spec H lo (npMinimum hi v)).2 hlo h1
      refine ⟨(H.num_of_le _ _ n1).2, n1, ?_⟩
      rcases n3 with e | e <;> rw [e]
      exacts [hlh, m1]
    · have h1 : IsNum (npMaximum lo v) := by
        by_contra h
        rcases (npMaximum_spec H lo v).1.1 h with h | h <;> contradiction
      obtain ⟨m1, m2, m3⟩ := (npMaximum_spec H lo v).2 hlo hv
      obtain ⟨n1, n2, n3⟩ := (npMinimum_spec H hi (npMaximum lo v)).2 hhi h1
      refine ⟨(H.num_of_le _ _ n1).1, ?_, n1⟩
      rcases n3 with e | e <;> rw [e]
      exacts [hlh, m1]
  · intro hv
    exact ⟨(npMaximum_spec H _ _).1.2 (.inr ((npMinimum_spec H _ _).1.2 (.inr hv))),
      (npMinimum_spec H _ _).1.2 (.inr ((npMaximum_spec H _ _).1.2 (.inr hv)))⟩

/-- **C133** whatever the rounding: `scale_float` of a numerical hyperparameter returns a number in `[0, 1]`, or nan. -/
theorem C133_scale_stays {cs : ConfigSpace F} {name : String} {hp : Hp F} {l u : F} {g : Bool} (hget : cs.get name = .ok hp)
    (hb : hp.numerical? = some (l, u, g)) (h01 : Machine.le (Machine.ofInt 0) (Machine.ofInt 1 : F) = true) (v : F) :
    ∃ t, scaleFloatM v cs name = .ok t ∧
      (¬ IsNum t ∨ Machine.le (Machine.ofInt 0) t = true ∧ Machine.le t (Machine.ofInt 1) = true) := by
  have hbd : hp.bounds = .ok (l, u, g) := by rw [Hp.bounds, hb]
  unfold scaleFloatM
  rw [hget, Py.ok_bind, hbd, Py.ok_bind]
  refine ⟨_, rfl, ?_⟩
  generalize (if g = true then _ else _ : F) = q
  by_cases hq : IsNum q
  · exact .inr ((clamp_spec H h01).1 hq).1.2
  · exact .inl ((clamp_spec H h01).2 hq).1

/-- **C133** whatever the rounding: what `unscale_float` returns for a numerical hyperparameter is a number within the bounds, or nan;
on a linear axis it always returns. -/
theorem C133_unscale_stays {cs : ConfigSpace F} {name : String} {hp : Hp F} {l u : F} {g : Bool} (hget : cs.get name = .ok hp)
    (hb : hp.numerical? = some (l, u, g)) (hlu : Machine.le l u = true) (t : F) :
    (∀ v, unscaleFloatM t cs name = .ok v → ¬ IsNum v ∨ Machine.le l v = true ∧ Machine.le v u = true) ∧
    (g = false → ∃ v, unscaleFloatM t cs name = .ok v) := by
  have hbd : hp.bounds = .ok (l, u, g) := by rw [Hp.bounds, hb]
  unfold unscaleFloatM
  rw [hget, Py.ok_bind, hbd, Py.ok_bind]
  dsimp only
  constructor
  · intro v h
    have key : ∃ q, v = npMinimum u (npMaximum l q) := by
      cases g <;> obtain ⟨q, -, h⟩ := Py.bind_eq_ok.1 h <;> exact ⟨q, (Except.ok.inj h).symm⟩
    obtain ⟨q, rfl⟩ := key
    by_cases hq : IsNum q
    · exact .inr ((clamp_spec H hlu).1 hq).2.2
    · exact .inl ((clamp_spec H hlu).2 hq).2
  · rintro rfl
    exact ⟨_, rfl⟩

end clamps

/-! ### C134 the tree -/

section tree
variable [Machine F] {cs possible : List (Hp F)} {N minPoints P : Nat} {d : Int}

theorem GrownM.path {n : Node F} {L : List (Node F)} (h : GrownM cs possible N minPoints P d n L) :
    ∀ m ∈ L, RegionShape P cs.length m ∧ (curves m).Sublist (curves n) ∧ (m = n ∨ minPoints ≤ (curves m).length) ∧ ((m.depth : Int) ≤ d ∨ m = n) ∧
      ∃ more, m.conds = n.conds ++ more ∧ m.depth = n.depth + more.length ∧
      ∀ c ∈ more, ∃ hp t f b, hp ∈ possible ∧ t ∈ Machine.splitVals (F := F) N ∧ IsFeature cs hp f ∧ c = ⟨hp, .flt t, some b⟩ ∧
        ∀ q ∈ curves m, onSide f t b q = true := by
  induction h with
  | leaf hn =>
    intro m hm
    rw [List.mem_singleton.1 hm]
    exact ⟨hn, List.Sublist.refl _, .inl rfl, .inr rfl, [], by simp, rfl, by simp⟩
  | @branch n l r Ll Lr hp t f hn hdep ha _ _ ih1 ih2 =>
    have key : ∀ (ch : Node F) (b : Bool) (Lc : List (Node F)), IsSide f hp t b n ch → minPoints ≤ (curves ch).length →
        (∀ m ∈ Lc, RegionShape P cs.length m ∧ (curves m).Sublist (curves ch) ∧ (m = ch ∨ minPoints ≤ (curves m).length) ∧
          ((m.depth : Int) ≤ d ∨ m = ch) ∧ ∃ more, m.conds = ch.conds ++ more ∧ m.depth = ch.depth + more.length ∧
          ∀ c ∈ more, ∃ hp t f b, hp ∈ possible ∧ t ∈ Machine.splitVals (F := F) N ∧ IsFeature cs hp f ∧ c = ⟨hp, .flt t, some b⟩ ∧
            ∀ q ∈ curves m, onSide f t b q = true) →
        ∀ m ∈ Lc, RegionShape P cs.length m ∧ (curves m).Sublist (curves n) ∧ (m = n ∨ minPoints ≤ (curves m).length) ∧
          ((m.depth : Int) ≤ d ∨ m = n) ∧ ∃ more, m.conds = n.conds ++ more ∧ m.depth = n.depth + more.length ∧
          ∀ c ∈ more, ∃ hp t f b, hp ∈ possible ∧ t ∈ Machine.splitVals (F := F) N ∧ IsFeature cs hp f ∧ c = ⟨hp, .flt t, some b⟩ ∧
            ∀ q ∈ curves m, onSide f t b q = true := by
      intro ch b Lc hs hsz ih m hm
      obtain ⟨h0, h1, h5, h6, more, h2, h3, h4⟩ := ih m hm
      refine ⟨h0, h1.trans (by rw [hs.curves_eq]; exact List.filter_sublist), .inr ?_, .inl ?_, ⟨hp, .flt t, some b⟩ :: more, ?_, ?_, ?_⟩
      · rcases h5 with rfl | h5
        exacts [hsz, h5]
      · rcases h6 with h6 | rfl
        · exact h6
        · rw [hs.depth]; push_cast; omega
      · rw [h2, hs.conds]; simp
      · rw [h3, hs.depth]; simp; omega
      · intro c hc
        rcases List.mem_cons.1 hc with rfl | hc
        · refine ⟨hp, t, f, b, ha.hp_mem, ha.t_mem, ha.feature, rfl, fun q hq => ?_⟩
          have := h1.subset hq
          rw [hs.curves_eq] at this
          exact (List.mem_filter.1 this).2
        · exact h4 c hc
    intro m hm
    rcases List.mem_append.1 hm with hm | hm
    exacts [key r false Lr ha.right ha.right_size ih2 m hm, key l true Ll ha.left ha.left_size ih1 m hm]

theorem filter_disjoint_perm {α : Type} (l : List α) (p q : α → Bool) (h : ∀ a ∈ l, p a = true → q a = false) :
    (l.filter p ++ l.filter q).Subperm l ∧ ((∀ a ∈ l, p a = true ∨ q a = true) → (l.filter p ++ l.filter q).Perm l) := by
  induction l with
  | nil => exact ⟨List.Subperm.refl _, fun _ => List.Perm.refl _⟩
  | cons a l ih =>
    obtain ⟨i1, i2⟩ := ih fun b hb => h b (List.mem_cons_of_mem _ hb)
    have ha := h a (by simp)
    cases hp : p a with
    | true =>
      have hq := ha hp
      refine ⟨?_, fun hh => ?_⟩
      · simp only [List.filter_cons, hp, hq, if_true, Bool.false_eq_true, if_false, List.cons_append]
        exact (List.subperm_cons a).2 i1
      · simp only [List.filter_cons, hp, hq, if_true, Bool.false_eq_true, if_false, List.cons_append]
        exact (i2 fun b hb => hh b (List.mem_cons_of_mem _ hb)).cons a
    | false =>
      cases hq : q a with
      | true =>
        refine ⟨?_, fun hh => ?_⟩
        · simp only [List.filter_cons, hp, hq, if_true, Bool.false_eq_true, if_false]
          exact (List.perm_middle.subperm).trans ((List.subperm_cons a).2 i1)
        · simp only [List.filter_cons, hp, hq, if_true, Bool.false_eq_true, if_false]
          exact List.perm_middle.trans ((i2 fun b hb => hh b (List.mem_cons_of_mem _ hb)).cons a)
      | false =>
        refine ⟨?_, fun hh => ?_⟩
        · simp only [List.filter_cons, hp, hq, Bool.false_eq_true, if_false]
          exact i1.trans (List.sublist_cons_self a l).subperm
        · rcases hh a (by simp) with e | e
          · rw [hp] at e; cases e
          · rw [hq] at e; cases e

theorem sides_exclude (H : Comparable F) {f : Nat} {t : F} {c : Curve F} (h : onSide f t true c = true) : onSide f t false c = false := by
  unfold onSide at h ⊢
  cases hv : valueAt f c with
  | none => rfl
  | some x =>
    rw [hv] at h
    simp only [if_true] at h
    simp only [Bool.false_eq_true, if_false]
    by_contra hc
    have := ((H.lt_iff t x).1 (by simpa using hc)).2.2
    rw [h] at this
    cases this

theorem sides_cover (H : Comparable F) {f : Nat} {t : F} {c : Curve F} {x : F} (hx : valueAt f c = some x) (hn : IsNum x) (ht : IsNum t) :
    onSide f t true c = true ∨ onSide f t false c = true := by
  unfold onSide
  rw [hx]
  simp only [if_true, Bool.false_eq_true, if_false]
  rw [H.lt_iff]
  cases h : Machine.le x t with
  | true => exact .inl rfl
  | false => exact .inr ⟨ht, hn, rfl⟩

/-- no curve has a nan where it may be split -/
def NoNan (cs possible : List (Hp F)) (L : List (Curve F)) : Prop :=
  ∀ c ∈ L, ∀ hp ∈ possible, ∀ f, IsFeature cs hp f → ∃ x, valueAt f c = some x ∧ IsNum x

theorem GrownM.perm (H : Comparable F) {n : Node F} {L : List (Node F)} (h : GrownM cs possible N minPoints P d n L) :
    (L.flatMap curves).Subperm (curves n) ∧
    (NoNan cs possible (curves n) → (∀ t ∈ Machine.splitVals (F := F) N, IsNum t) → (L.flatMap curves).Perm (curves n)) := by
  induction h with
  | leaf hn => simp only [List.flatMap_cons, List.flatMap_nil, List.append_nil]; exact ⟨List.Subperm.refl _, fun _ _ => List.Perm.refl _⟩
  | @branch n l r Ll Lr hp t f hn hdep ha _ _ ih1 ih2 =>
    obtain ⟨s1, s2⟩ := filter_disjoint_perm (curves n) (onSide f t true) (onSide f t false) fun c _ => sides_exclude H
    rw [← ha.left.curves_eq, ← ha.right.curves_eq] at s1 s2
    rw [List.flatMap_append]
    constructor
    · exact (List.perm_append_comm.subperm).trans ((List.Subperm.append ih1.1 ih2.1).trans s1)
    · intro hnan ht
      have sub : ∀ ch b, IsSide f hp t b n ch → NoNan cs possible (curves ch) := by
        intro ch b hs c hc
        rw [hs.curves_eq] at hc
        exact hnan c (List.mem_of_mem_filter hc)
      refine (List.perm_append_comm).trans (((ih1.2 (sub l true ha.left) ht).append (ih2.2 (sub r false ha.right) ht)).trans (s2 fun c hc => ?_))
      obtain ⟨x, hx, hxn⟩ := hnan c hc hp ha.hp_mem f ha.feature
      exact sides_cover H hx hxn (ht t ha.t_mem)

/-- **C134** whatever the rounding: `partition` ends without an exception; the leaves are between one and `2^max_depth` many; no leaf is
deeper than the limit or deeper than its number of conditions; every leaf but the root holds at least `min_points_per_node` curves; the
curves of a leaf are curves of the root, unaltered and in order, and lie on the right side of each of its conditions, which are about
splittable hyperparameters and the thresholds that were computed. -/
theorem C134_tree {p : DT F} (hv : ValidDT P p) (hd : 0 < d) :
    ∃ leaves, (dtPartitionM p d).2 = .ok leaves ∧ (dtPartitionM p d).1.leaves = leaves ∧ 1 ≤ leaves.length ∧ leaves.length ≤ 2 ^ d.toNat ∧
      ∀ leaf ∈ leaves, (leaf.depth : Int) ≤ d ∧ leaf.depth = leaf.conds.length ∧ (leaf = p.root ∨ p.minPoints ≤ (curves leaf).length) ∧
        (curves leaf).Sublist (curves p.root) ∧
        ∀ c ∈ leaf.conds, ∃ hp t f b, hp ∈ p.possible ∧ t ∈ Machine.splitVals (F := F) p.numSplits ∧ IsFeature p.cfg.space hp f ∧
          c = ⟨hp, .flt t, some b⟩ ∧ ∀ q ∈ curves leaf, onSide f t b q = true := by
  obtain ⟨L, h1, h2, h3, h4⟩ := partitionM_eq hv hd
  refine ⟨L, by rw [h1], by rw [h1], h3, h4, fun leaf hl => ?_⟩
  obtain ⟨-, h6, h7, h8, more, e1, e2, e3⟩ := h2.path leaf hl
  rw [hv.conds, List.nil_append] at e1
  rw [hv.depth, Nat.zero_add] at e2
  refine ⟨?_, by rw [e1, e2], h7, h6, by rw [e1]; exact e3⟩
  rcases h8 with h8 | rfl
  · exact h8
  · rw [hv.depth]; exact hd.le

/-- **C134** whatever the rounding: no curve is in two leaves, and if neither the curves nor the thresholds have a nan, every curve is in
one. -/
theorem C134_curves (H : Comparable F) {p : DT F} (hv : ValidDT P p) (hd : 0 < d) :
    ∃ leaves, (dtPartitionM p d).2 = .ok leaves ∧ (leaves.flatMap curves).Subperm (curves p.root) ∧
      (NoNan p.cfg.space p.possible (curves p.root) → (∀ t ∈ Machine.splitVals (F := F) p.numSplits, IsNum t) →
        (leaves.flatMap curves).Perm (curves p.root)) := by
  obtain ⟨L, h1, h2, h3, h4⟩ := partitionM_eq hv hd
  exact ⟨L, by rw [h1], h2.perm H⟩

/-! the best split -/

theorem Spec.IsSide.v_eq {f : Nat} {hp : Hp F} {t : F} {b : Bool} {n m m' : Node F} {W : Nat} (h : IsSide f hp t b n m) (h' : IsSide f hp t b n m')
    (hs : RegionShape P W m) (hs' : RegionShape P W m') : m.v = m'.v := by
  rw [← hs.map_v, ← hs'.map_v, h.curves_eq, h'.curves_eq]

omit [Machine F] in
theorem idx_unique {hp : Hp F} (hwf : ConfigSpace.WF cs) {f f' : Nat} (h : IsFeature cs hp f) (h' : IsFeature cs hp f') : f = f' := by
  rw [isFeature_idx hwf] at h h'
  rw [h] at h'
  exact Except.ok.inj h'

theorem machine_lt_trans (H : Comparable F) {a b c : F} (h1 : Machine.lt a b = true) (h2 : Machine.lt b c = true) : Machine.lt a c = true := by
  obtain ⟨ha, hb, hba⟩ := (H.lt_iff a b).1 h1
  obtain ⟨-, hc, hcb⟩ := (H.lt_iff b c).1 h2
  refine (H.lt_iff a c).2 ⟨ha, hc, ?_⟩
  by_contra hca
  have hca : Machine.le c a = true := by simpa using hca
  rcases H.total a b ha hb with hab | hab
  · rw [H.trans _ _ _ hca hab] at hcb; cases hcb
  · rw [hab] at hba; cases hba

/-- **C134** whatever the rounding: the split that `calc_best_split` returns is admissible, and no other admissible split has a smaller
computed loss; it returns None only if there is no admissible split with a finite computed loss. -/
theorem C134_best_split (H : Comparable F) (hwf : ConfigSpace.WF cs) (hpos : ∀ hp ∈ possible, hp ∈ cs) {n : Node F}
    (hn : RegionShape P cs.length n) (h2 : 2 ≤ (curves n).length) :
    ∃ res, calcBestSplitM cs possible N minPoints n = .ok res ∧
      (∀ l r, res = some (l, r) → (∃ hp t f, Admissible cs possible N minPoints P n l r hp t f) ∧ IsNum (totalLoss l r) ∧
        ∀ l' r' hp t f, Admissible cs possible N minPoints P n l' r' hp t f → Machine.lt (totalLoss l' r') (totalLoss l r) = false) ∧
      (res = none → ∀ l' r' hp t f, Admissible cs possible N minPoints P n l' r' hp t f → Machine.belowInf (totalLoss l' r') = false) := by
  have hs : n.splittable = true := by simp [Node.splittable, ← hn.curves_length]; omega
  suffices ∀ (cands done : List (Hp F × F)) (best : Option (F × Node F × Node F)),
      (∀ c ∈ cands, c.1 ∈ possible ∧ c.2 ∈ Machine.splitVals (F := F) N) →
      (∀ a l r, best = some (a, l, r) → a = totalLoss l r ∧ (∃ hp t f, Admissible cs possible N minPoints P n l r hp t f) ∧ IsNum a ∧
        ∀ l' r' hp t f, (hp, t) ∈ done → Admissible cs possible N minPoints P n l' r' hp t f → Machine.lt (totalLoss l' r') a = false) →
      (best = none → ∀ l' r' hp t f, (hp, t) ∈ done → Admissible cs possible N minPoints P n l' r' hp t f →
        Machine.belowInf (totalLoss l' r') = false) →
      ∃ best', cands.foldlM (trySplitM cs minPoints n) best = .ok best' ∧
        (∀ a l r, best' = some (a, l, r) → a = totalLoss l r ∧ (∃ hp t f, Admissible cs possible N minPoints P n l r hp t f) ∧ IsNum a ∧
          ∀ l' r' hp t f, (hp, t) ∈ done ++ cands → Admissible cs possible N minPoints P n l' r' hp t f → Machine.lt (totalLoss l' r') a = false) ∧
        (best' = none → ∀ l' r' hp t f, (hp, t) ∈ done ++ cands → Admissible cs possible N minPoints P n l' r' hp t f →
          Machine.belowInf (totalLoss l' r') = false) by
    obtain ⟨best, h1, h3, h4⟩ := this (candidatesM possible N) [] none (fun c hc => candidatesM_mem hc) (by simp) (by simp)
    have hall : ∀ l' r' hp t f, Admissible cs possible N minPoints P n l' r' hp t f → (hp, t) ∈ [] ++ candidatesM possible N := by
      intro l' r' hp t f ha
      rw [List.nil_append]
      exact List.mem_flatMap.2 ⟨hp, ha.hp_mem, List.mem_map.2 ⟨t, ha.t_mem, rfl⟩⟩
    refine ⟨best.map (·.2), ?_, ?_, ?_⟩
    · unfold calcBestSplitM
      rw [if_pos hs, h1]
      rfl
    · intro l r hlr
      cases best with
      | none => cases hlr
      | some b =>
        obtain ⟨a, l', r'⟩ := b
        obtain ⟨rfl, rfl⟩ := Prod.mk.inj (Option.some.inj hlr)
        obtain ⟨rfl, e2, e3, e4⟩ := h3 a _ _ rfl
        exact ⟨e2, e3, fun l'' r'' hp t f ha => e4 l'' r'' hp t f (hall _ _ _ _ _ ha) ha⟩
    · intro hnone l' r' hp t f ha
      cases best with
      | none => exact h4 rfl l' r' hp t f (hall _ _ _ _ _ ha) ha
      | some b => cases hnone
  intro cands
  induction cands with
  | nil => intro done best _ h3 h4; exact ⟨best, rfl, by simpa using h3, by simpa using h4⟩
  | cons c cands ih =>
    intro done best hc h3 h4
    obtain ⟨hcp, hct⟩ := hc c (by simp)
    obtain ⟨f, hf, hfW⟩ := idx_of_mem (hpos c.1 hcp)
    obtain ⟨l, r, hsp, hl, hr, hsl, hsr⟩ := splitAtValueM_spec hn hf hfW c.2
    have hfeat : IsFeature cs c.1 f := (isFeature_idx hwf).2 hf
    -- any admissible split at this candidate is the one computed
    have hsame : ∀ l' r' hp t f', (hp, t) = c → Admissible cs possible N minPoints P n l' r' hp t f' →
        l'.v = l.v ∧ r'.v = r.v ∧ minPoints ≤ l.x.length ∧ minPoints ≤ r.x.length := by
      rintro l' r' hp t f' rfl ha
      obtain rfl := idx_unique hwf hfeat ha.feature
      refine ⟨ha.left.v_eq hl ha.left_shape hsl, ha.right.v_eq hr ha.right_shape hsr, ?_, ?_⟩
      · have := ha.left_size
        rw [ha.left.curves_eq, ← hl.curves_eq, hsl.curves_length] at this
        exact this
      · have := ha.right_size
        rw [ha.right.curves_eq, ← hr.curves_eq, hsr.curves_length] at this
        exact this
    rw [List.foldlM_cons]
    have hstep : ∃ b', trySplitM cs minPoints n best c = .ok b' ∧
        (∀ a l r, b' = some (a, l, r) → a = totalLoss l r ∧ (∃ hp t f, Admissible cs possible N minPoints P n l r hp t f) ∧ IsNum a ∧
          ∀ l' r' hp t f, (hp, t) ∈ done ++ [c] → Admissible cs possible N minPoints P n l' r' hp t f → Machine.lt (totalLoss l' r') a = false) ∧
        (b' = none → ∀ l' r' hp t f, (hp, t) ∈ done ++ [c] → Admissible cs possible N minPoints P n l' r' hp t f →
          Machine.belowInf (totalLoss l' r') = false) := by
      unfold trySplitM
      rw [hsp, Py.ok_bind]
      dsimp only
      have hor : ∀ {hp : Hp F} {t : F}, (hp, t) ∈ done ++ [c] → (hp, t) ∈ done ∨ (hp, t) = c := by
        intro hp t h
        rcases List.mem_append.1 h with h | h
        exacts [.inl h, .inr (List.mem_singleton.1 h)]
      split
      · rename_i hsz
        have hno : ∀ l' r' hp t f', (hp, t) = c → ¬ Admissible cs possible N minPoints P n l' r' hp t f' := by
          intro l' r' hp t f' e ha
          obtain ⟨-, -, s1, s2⟩ := hsame l' r' hp t f' e ha
          omega
        refine ⟨best, rfl, fun a l r hb => ?_, fun hb l' r' hp t f' hm ha => ?_⟩
        · obtain ⟨e1, e2, e3, e4⟩ := h3 a l r hb
          refine ⟨e1, e2, e3, fun l' r' hp t f' hm ha => ?_⟩
          rcases hor hm with hm | hm
          · exact e4 _ _ _ _ _ hm ha
          · exact absurd ha (hno _ _ _ _ _ hm)
        · rcases hor hm with hm | hm
          · exact h4 hb _ _ _ _ _ hm ha
          · exact absurd ha (hno _ _ _ _ _ hm)
      · rename_i hsz
        push Not at hsz
        have hadm : Admissible cs possible N minPoints P n l r c.1 c.2 f := ⟨hcp, hct, hfeat, hl, hr, hsl, hsr,
          by rw [hsl.curves_length]; exact hsz.1, by rw [hsr.curves_length]; exact hsz.2⟩
        have hst : ∀ l' r' hp t f', (hp, t) = c → Admissible cs possible N minPoints P n l' r' hp t f' → totalLoss l' r' = totalLoss l r := by
          intro l' r' hp t f' e ha
          obtain ⟨s1, s2, -⟩ := hsame l' r' hp t f' e ha
          rw [totalLoss, totalLoss, s1, s2]
        refine ⟨_, rfl, ?_, ?_⟩
        · change ∀ a l₁ r₁, updateBestM best (totalLoss l r) l r = some (a, l₁, r₁) → _
          intro a l₁ r₁ hb
          cases best with
          | none =>
            simp only [updateBestM] at hb
            split at hb
            · rename_i hbi
              simp only [Option.some.injEq, Prod.mk.injEq] at hb
              obtain ⟨rfl, rfl, rfl⟩ := hb
              refine ⟨rfl, ⟨_, _, _, hadm⟩, H.below_num _ hbi, fun l' r' hp t f' hm ha => ?_⟩
              rcases hor hm with hm | hm
              · have hinf := h4 rfl _ _ _ _ _ hm ha
                by_contra hlt
                exact absurd (H.below_of_lt _ _ (by simpa using hlt) hbi) (by simp [hinf])
              · rw [hst _ _ _ _ _ hm ha]
                by_contra hlt
                have := (H.lt_iff _ _).1 (by simpa using hlt)
                have h5 := this.1
                unfold IsNum at h5
                rw [h5] at this
                exact absurd this.2.2 (by simp)
            · cases hb
          | some b =>
            obtain ⟨a0, l0, r0⟩ := b
            obtain ⟨e1, e2, e3, e4⟩ := h3 a0 l0 r0 rfl
            simp only [updateBestM] at hb
            split at hb
            · rename_i hlt
              simp only [Option.some.injEq, Prod.mk.injEq] at hb
              obtain ⟨rfl, rfl, rfl⟩ := hb
              refine ⟨rfl, ⟨_, _, _, hadm⟩, ((H.lt_iff _ _).1 hlt).1, fun l' r' hp t f' hm ha => ?_⟩
              rcases hor hm with hm | hm
              · by_contra hc'
                have := machine_lt_trans H (by simpa using hc') hlt
                rw [e4 _ _ _ _ _ hm ha] at this
                cases this
              · rw [hst _ _ _ _ _ hm ha]
                by_contra hc'
                have := (H.lt_iff _ _).1 (by simpa using hc')
                have h5 := this.1
                unfold IsNum at h5
                rw [h5] at this
                exact absurd this.2.2 (by simp)
            · rename_i hlt
              simp only [Option.some.injEq, Prod.mk.injEq] at hb
              obtain ⟨rfl, rfl, rfl⟩ := hb
              refine ⟨e1, e2, e3, fun l' r' hp t f' hm ha => ?_⟩
              rcases hor hm with hm | hm
              · exact e4 _ _ _ _ _ hm ha
              · rw [hst _ _ _ _ _ hm ha]; simpa using hlt
        · change updateBestM best (totalLoss l r) l r = none → _
          intro hb l' r' hp t f' hm ha
          cases best with
          | none =>
            simp only [updateBestM] at hb
            split at hb
            · cases hb
            · rename_i hbi
              rcases hor hm with hm | hm
              · exact h4 rfl _ _ _ _ _ hm ha
              · rw [hst _ _ _ _ _ hm ha]; simpa using hbi
          | some b =>
            simp only [updateBestM] at hb
            split at hb <;> cases hb
    obtain ⟨b', hb1, hb2, hb3⟩ := hstep
    rw [hb1, Py.ok_bind]
    have := ih (done ++ [c]) b' (fun q hq => hc q (List.mem_cons_of_mem _ hq)) hb2 hb3
    simpa only [List.append_assoc, List.cons_append, List.nil_append] using this

/-! containment -/

theorem containsAllM_append (cs : ConfigSpace F) (A B : List (Cond F)) (cfg : Config F) :
    containsAllM cs (A ++ B) cfg = (containsAllM cs A cfg >>= fun b => if b then containsAllM cs B cfg else .ok false) := by
  induction A with
  | nil => rfl
  | cons c A ih =>
    simp only [List.cons_append, containsAllM, ih]
    cases isSatisfiedM cs c cfg with
    | error e => rfl
    | ok b => cases b <;> rfl

theorem complementaryM (H : Comparable F) {hp : Hp F} {t x w : F} {cfg : Config F} (hx : cfg.get? hp.name = some (.num x)) (hxn : IsNum x)
    (hw : unscaleFloatM t cs hp.name = .ok w) (hwn : IsNum w) :
    ∃ b, isSatisfiedM cs ⟨hp, .flt t, some true⟩ cfg = .ok b ∧ isSatisfiedM cs ⟨hp, .flt t, some false⟩ cfg = .ok (!b) := by
  refine ⟨Machine.le x w, ?_, ?_⟩
  · simp only [isSatisfiedM, condValueM, hx, hw, Py.map_ok, Py.ok_bind]; rfl
  · simp only [isSatisfiedM, condValueM, hx, hw, Py.map_ok, Py.ok_bind]
    simp only [compareFloatM, Option.some.injEq, Bool.false_eq_true, if_false]
    congr 1
    rw [Bool.eq_iff_iff, H.lt_iff]
    simp [hxn, hwn]

theorem GrownM.contains (H : Comparable F) {n : Node F} {L : List (Node F)} (h : GrownM cs possible N minPoints P d n L) {cfg : Config F}
    (hcfg : ∀ hp ∈ possible, ∃ x, cfg.get? hp.name = some (.num x) ∧ IsNum x)
    (hw : ∀ hp ∈ possible, ∀ t ∈ Machine.splitVals (F := F) N, ∃ w, unscaleFloatM t cs hp.name = .ok w ∧ IsNum w) {b : Bool}
    (hb : containsAllM cs n.conds cfg = .ok b) :
    ∃ bs : List Bool, List.Forall₂ (fun m r => containsAllM cs m.conds cfg = .ok r) L bs ∧ bs.count true = if b then 1 else 0 := by
  induction h generalizing b with
  | leaf _ => exact ⟨[b], .cons hb .nil, by cases b <;> rfl⟩
  | @branch n l r Ll Lr hp t f hn hdep ha _ _ ih1 ih2 =>
    obtain ⟨x, hx, hxn⟩ := hcfg hp ha.hp_mem
    obtain ⟨w, hw1, hw2⟩ := hw hp ha.hp_mem t ha.t_mem
    obtain ⟨c, hc1, hc2⟩ := complementaryM H hx hxn hw1 hw2
    have e1 : containsAllM cs l.conds cfg = .ok (b && c) := by
      rw [ha.left.conds, containsAllM_append, hb, Py.ok_bind]
      cases b
      · rfl
      · simp only [containsAllM, hc1, Py.ok_bind]; cases c <;> rfl
    have e2 : containsAllM cs r.conds cfg = .ok (b && !c) := by
      rw [ha.right.conds, containsAllM_append, hb, Py.ok_bind]
      cases b
      · rfl
      · simp only [containsAllM, hc2, Py.ok_bind]; cases c <;> rfl
    obtain ⟨bl, hl1, hl2⟩ := ih1 e1
    obtain ⟨br, hr1, hr2⟩ := ih2 e2
    refine ⟨br ++ bl, List.rel_append hr1 hl1, ?_⟩
    rw [List.count_append, hl2, hr2]
    cases b <;> cases c <;> rfl

theorem firstContainingM_eq {cfg : Config F} {L : List (Node F)} {i : Nat} {leaf : Node F} (hi : L[i]? = some leaf)
    (h : ∀ (j : Nat) m, L[j]? = some m → containsAllM cs m.conds cfg = .ok (decide (j = i))) : firstContainingM cs cfg L = .ok (some leaf) := by
  induction L generalizing i with
  | nil => simp at hi
  | cons m L ih =>
    have h0 := h 0 m rfl
    cases i with
    | zero =>
      simp only [List.getElem?_cons_zero, Option.some.injEq] at hi
      subst hi
      simp [firstContainingM, h0]
    | succ i =>
      simp only [List.getElem?_cons_succ] at hi
      simp only [firstContainingM, h0, Py.ok_bind]
      rw [if_neg (by simp)]
      refine ih hi fun j q hq => ?_
      rw [h (j + 1) q (by simpa using hq)]
      simp

/-- **C134** whatever the rounding: a configuration with a number for every splittable hyperparameter is contained in exactly one leaf, the
one that `get_incumbent_region` returns (if the thresholds in natural units are numbers). -/
theorem C134_one_leaf (H : Comparable F) {p : DT F} (hv : ValidDT P p) (hd : 0 < d) {cfg : Config F}
    (hcfg : ∀ hp ∈ p.possible, ∃ x, cfg.get? hp.name = some (.num x) ∧ IsNum x)
    (hw : ∀ hp ∈ p.possible, ∀ t ∈ Machine.splitVals (F := F) p.numSplits, ∃ w, unscaleFloatM t p.cfg.space hp.name = .ok w ∧ IsNum w) :
    ∃ leaves i leaf, (dtPartitionM p d).2 = .ok leaves ∧ leaves[i]? = some leaf ∧
      (∀ (j : Nat) m, leaves[j]? = some m → containsAllM p.cfg.space m.conds cfg = .ok (decide (j = i))) ∧
      dtIncumbentRegionM (dtPartitionM p d).1 cfg = .ok (some leaf) := by
  obtain ⟨L, h1, h3, h5, -⟩ := partitionM_eq hv hd
  obtain ⟨bs, hbs, hcount⟩ := h3.contains H hcfg hw (b := true) (by rw [hv.conds]; rfl)
  rw [if_pos rfl] at hcount
  obtain ⟨i, hi⟩ := one_true hcount
  have hlen := hbs.length_eq
  have hil : i < bs.length := by
    obtain ⟨k, hk⟩ : ∃ k, bs[k]? = some true := List.mem_iff_getElem?.1 (List.count_pos_iff.1 (by omega))
    exact (hi k true hk).2
  have hleaf : L[i]? = some L[i] := List.getElem?_eq_getElem (by omega)
  have hcont : ∀ (j : Nat) m, L[j]? = some m → containsAllM p.cfg.space m.conds cfg = .ok (decide (j = i)) := by
    intro j m hm
    obtain ⟨hj, rfl⟩ := List.getElem?_eq_some_iff.1 hm
    have hj' : j < bs.length := by omega
    have := hbs.get hj hj'
    simp only [List.get_eq_getElem] at this
    rw [this]
    have h4 := (hi j bs[j] (List.getElem?_eq_getElem hj')).1
    congr 1
    rw [Bool.eq_iff_iff, h4]
    simp
  refine ⟨L, i, _, by rw [h1], hleaf, hcont, ?_⟩
  rw [h1]
  unfold dtIncumbentRegionM
  dsimp only
  cases L with
  | nil => simp at h5
  | cons a L => exact firstContainingM_eq hleaf hcont

end tree

/-! ### the exact models are an instance -/

section exact
variable {K : Type} [Field K] [LinearOrder K] [Transc K]

theorem exact_comparable : @Comparable K (exactMachine K) := by
  let _ := exactMachine K
  refine ⟨fun a b _ _ => ?_, fun a b c h1 h2 => ?_, fun a b _ => ?_, fun a b => ?_, fun a _ => ?_, fun _ _ _ _ => rfl⟩
  · simpa [Machine.le] using le_total a b
  · simp only [Machine.le, decide_eq_true_eq] at *; exact h1.trans h2
  · simp [IsNum, Machine.le]
  · simp [IsNum, Machine.le, Machine.lt]
  · simp [IsNum, Machine.le]

theorem exact_min_max (a b : K) : @npMinimum K (exactMachine K) a b = min a b ∧ @npMaximum K (exactMachine K) a b = max a b := by
  simp [npMinimum, npMaximum, machineNan, Machine.le, min_def, max_def]

/-- **C133** the exact scaling functions are those of the machine with exact arithmetic (for values that have a logarithm, if the axis
is logarithmic). -/
theorem C133_exact (cs : ConfigSpace K) (name : String) (x : K) :
    @unscaleFloatM K (exactMachine K) x cs name = unscaleFloat x cs name ∧
    ((∀ hp l u, cs.get name = .ok hp → hp.numerical? = some (l, u, true) → 0 < x) →
      @scaleFloatM K (exactMachine K) x cs name = scaleFloat x cs name) := by
  constructor
  · unfold unscaleFloatM unscaleFloat
    cases h1 : cs.get name with
    | error e => rfl
    | ok hp =>
      rw [Py.ok_bind, Py.ok_bind]
      cases h2 : hp.bounds with
      | error e => rfl
      | ok b =>
        obtain ⟨l, u, g⟩ := b
        cases g <;> simp [(exact_min_max _ _).1, (exact_min_max _ _).2, Machine.exp, Machine.add, Machine.mul, Machine.sub, Machine.log]
  · intro hpos
    unfold scaleFloatM scaleFloat
    cases h1 : cs.get name with
    | error e => rfl
    | ok hp =>
      rw [Py.ok_bind, Py.ok_bind]
      cases h2 : hp.numerical? with
      | none => simp [Hp.bounds, h2]
      | some b =>
        obtain ⟨l, u, g⟩ := b
        have hb : hp.bounds = .ok (l, u, g) := by rw [Hp.bounds, h2]
        rw [hb]
        cases g with
        | false => simp [(exact_min_max _ _).1, (exact_min_max _ _).2, Machine.div, Machine.sub, Machine.ofInt]
        | true =>
          have := hpos hp l u h1 h2
          simp [(exact_min_max _ _).1, (exact_min_max _ _).2, Machine.div, Machine.sub, Machine.ofInt, Machine.log, this.ne', this.not_gt]

theorem exact_filter (cs : ConfigSpace K) (n : Node K) (c : Cond K) :
    @filterByConditionM K (exactMachine K) cs n c = filterByCondition cs n c := by
  unfold filterByConditionM filterByCondition
  cases c.nval <;> rfl

theorem exact_best (cs possible : List (Hp K)) (N minPoints : Nat) (n : Node K) :
    @calcBestSplitM K (exactMachine K) cs possible N minPoints n = calcBestSplit cs possible N minPoints n := by
  unfold calcBestSplitM calcBestSplit
  have : @trySplitM K (exactMachine K) cs minPoints n = trySplit cs minPoints n := by
    funext best cand
    unfold trySplitM trySplit splitAtValueM splitAtValue
    simp only [exact_filter, mkCond]
    have hu : ∀ total l r, @updateBestM K (exactMachine K) best total l r = updateBest best total l r := by
      intro total l r
      cases best with
      | none => rfl
      | some b => simp [updateBestM, updateBest, Machine.lt]
    simp only [hu]
    rfl
  rw [this]
  rfl

/-- **C134** the exact partition is that of the machine with exact arithmetic. -/
theorem C134_exact (p : DT K) (d : Int) : @dtPartitionM K (exactMachine K) p d = dtPartition p d := by
  unfold dtPartitionM dtPartition
  have : @calcBestSplitM K (exactMachine K) p.cfg.space p.possible p.numSplits p.minPoints =
      calcBestSplit p.cfg.space p.possible p.numSplits p.minPoints := funext fun n => exact_best _ _ _ _ n
  rw [this]
  generalize partitionLoop (calcBestSplit p.cfg.space p.possible p.numSplits p.minPoints) d (loopFuel d) [p.root] [] = q
  obtain ⟨leaves, e⟩ := q
  cases e <;> rfl

theorem exact_contains (cs : ConfigSpace K) (conds : List (Cond K)) (cfg : Config K) :
    @containsAllM K (exactMachine K) cs conds cfg = containsAll cs conds cfg := by
  induction conds with
  | nil => rfl
  | cons c conds ih =>
    have hs : @isSatisfiedM K (exactMachine K) cs c cfg = isSatisfied cs c cfg := by
      unfold isSatisfiedM isSatisfied
      have hc : @condValueM K (exactMachine K) cs c = condValue cs c := by
        unfold condValueM condValue
        cases c.nval with
        | flt t => dsimp only; rw [(C133_exact cs c.hp.name t).1]
        | int i => rfl
        | str s => rfl
      rw [hc]
      cases condValue cs c with
      | error e => rfl
      | ok w =>
        rw [Py.ok_bind, Py.ok_bind]
        cases w with
        | flt w =>
          dsimp only
          unfold compareFloatM compareFloat
          cases cfg.get? c.hp.name with
          | none => rfl
          | some v => cases v <;> rfl
        | int i =>
          dsimp only
          unfold equalsValueM equalsValue
          cases cfg.get? c.hp.name with
          | none => rfl
          | some v =>
            cases v with
            | num x =>
              dsimp only [Machine.le, Machine.ofInt]
              congr 1
              rw [Bool.eq_iff_iff]
              simp [le_antisymm_iff]
            | str s => rfl
        | str s =>
          dsimp only
          unfold equalsValueM equalsValue
          cases cfg.get? c.hp.name with
          | none => rfl
          | some v => cases v <;> rfl
    simp only [containsAllM, containsAll, ih, hs]

/-- **C134** the same of `get_incumbent_region`. -/
theorem C134_exact_region (p : DT K) (cfg : Config K) : @dtIncumbentRegionM K (exactMachine K) p cfg = dtIncumbentRegion p cfg := by
  have hf : ∀ L : List (Node K), @firstContainingM K (exactMachine K) p.cfg.space cfg L = firstContaining p.cfg.space cfg L := by
    intro L
    induction L with
    | nil => rfl
    | cons m L ih => simp only [firstContainingM, firstContaining, exact_contains, ih]
  unfold dtIncumbentRegionM dtIncumbentRegion
  cases h : p.leaves with
  | nil => rfl
  | cons m L => dsimp only; rw [hf, if_neg (by simp)]

end exact

/-! ### a machine with one decimal -/

section example_
/-- numbers with one decimal (the integer counts tenths), infinity and nan -/
inductive Tenth
  | nan
  | num (n : Int)
  | inf
  deriving DecidableEq, Repr

private def Tenth.bin (f : Int → Int → Int) : Tenth → Tenth → Tenth
  | .num a, .num b => .num (f a b)
  | .nan, _ => .nan
  | _, .nan => .nan
  | _, _ => .inf

/-- products and quotients are rounded down to one decimal -/
local instance tenthMachine : Machine Tenth where
  le
    | .num a, .num b => decide (a ≤ b)
    | .num _, .inf => true
    | .inf, .inf => true
    | _, _ => false
  lt
    | .num a, .num b => decide (a < b)
    | .num _, .inf => true
    | _, _ => false
  belowInf
    | .num _ => true
    | _ => false
  ofInt i := .num (10 * i)
  add := Tenth.bin (· + ·)
  sub := Tenth.bin (· - ·)
  mul := Tenth.bin fun a b => a * b / 10
  div a b := if b = .num 0 then .nan else Tenth.bin (fun a b => a * 10 / b) a b
  log _ := .nan
  exp a := .ok a
  loss v := v.foldr (fun row s => row.foldr (fun a s => Tenth.bin (· + ·) a s) s) (.num 0)
  splitVals n := (List.range n).map fun j => .num (((j : Int) + 1) * 10 / (n + 1))

theorem tenth_comparable : Comparable Tenth := by
  refine ⟨?_, ?_, ?_, ?_, ?_, ?_⟩
  · rintro (_ | a | _) (_ | b | _) <;> simp [IsNum, Machine.le]; omega
  · rintro (_ | a | _) (_ | b | _) (_ | c | _) <;> simp [Machine.le]; omega
  · rintro (_ | a | _) (_ | b | _) <;> simp [IsNum, Machine.le]
  · rintro (_ | a | _) (_ | b | _) <;> simp [IsNum, Machine.le, Machine.lt]
  · rintro (_ | a | _) <;> simp [IsNum, Machine.le, Machine.belowInf]
  · rintro (_ | a | _) (_ | b | _) <;> simp [Machine.lt, Machine.belowInf]

private def tSpace : ConfigSpace Tenth := [⟨"a", .float (.num 0) (.num 10) false⟩, ⟨"b", .float (.num 0) (.num 30) false⟩]
private def tHpB : Hp Tenth := ⟨"b", .float (.num 0) (.num 30) false⟩

/-- one decimal: 1.0 in [0, 3] becomes 0.3 and comes back as 0.9; values out of range are clamped; a nan stays one -/
example : scaleFloatM (.num 10) tSpace "b" = .ok (.num 3) ∧ unscaleFloatM (.num 3) tSpace "b" = .ok (.num 9) ∧
    scaleFloatM (.num 70) tSpace "b" = .ok (.num 10) ∧ unscaleFloatM (.num (-3)) tSpace "b" = .ok (.num 0) ∧
    scaleFloatM .nan tSpace "b" = .ok .nan := by decide +kernel

private def tCfg : IceCfg Tenth :=
  ⟨tSpace, [⟨"a", .float (.num 0) (.num 10) false⟩], [[.num 0, .num 1], [.num 0, .num 3], [.num 0, .num 7], [.num 0, .num 9]], 4, 1, 1, false,
    fun _ => .error .runtime⟩

private def tRoot : Node Tenth :=
  ⟨0, [[[.num 0, .num 1]], [[.num 0, .num 3]], [[.num 0, .num 7]], [[.num 0, .num 9]]], [[.num 1], [.num 2], [.num 3], [.num 4]],
    [[.num 1], [.num 1], [.num 5], [.num 5]], []⟩

private def tDt (root : Node Tenth) : DT Tenth := ⟨tCfg, [tHpB], 2, 1, iceInit tCfg, root, []⟩

private def tRight : Node Tenth :=
  ⟨1, [[[.num 0, .num 7]], [[.num 0, .num 9]]], [[.num 3], [.num 4]], [[.num 5], [.num 5]], [⟨tHpB, .flt (.num 3), some false⟩]⟩
private def tLeft : Node Tenth :=
  ⟨1, [[[.num 0, .num 1]], [[.num 0, .num 3]]], [[.num 1], [.num 2]], [[.num 1], [.num 1]], [⟨tHpB, .flt (.num 3), some true⟩]⟩

/-- the thresholds 1/3 and 2/3 are computed as 0.3 and 0.6; the tree has two leaves -/
example : (dtPartitionM (tDt tRoot) 1).2 = .ok [tRight, tLeft] := by decide +kernel

/-- **C134** What does not survive rounding (C58): the second sample has `b = 1.0`, that is 0.3 after scaling, so its curve is in the left
leaf, `b <= 0.3`; but in natural units the threshold is 0.9, and the sample's configuration is in the right leaf only. -/
theorem C134_curve_elsewhere_counterexample :
    scaleFloatM (.num 10) tSpace "b" = .ok (.num 3) ∧ (dtPartitionM (tDt tRoot) 1).2 = .ok [tRight, tLeft] ∧
    (curves tRoot)[1]? = some ([[.num 0, .num 3]], [.num 2], [.num 1]) ∧ ([[.num 0, .num 3]], [.num 2], [.num 1]) ∈ curves tLeft ∧
    dtIncumbentRegionM (dtPartitionM (tDt tRoot) 1).1 ⟨[.num 0, .num 3], [("a", .num (.num 0)), ("b", .num (.num 10))]⟩ = .ok (some tRight) := by
  decide +kernel

private def tRootNan : Node Tenth :=
  ⟨0, [[[.num 0, .num 1]], [[.num 0, .nan]], [[.num 0, .num 7]], [[.num 0, .num 9]]], [[.num 1], [.num 2], [.num 3], [.num 4]],
    [[.num 1], [.num 1], [.num 5], [.num 5]], []⟩

/-- **C134** A curve whose sample is nan in the split feature is in no leaf. -/
theorem C134_nan_counterexample :
    ∃ leaves, (dtPartitionM (tDt tRootNan) 1).2 = .ok leaves ∧ (curves tRootNan).length = 4 ∧ (leaves.flatMap curves).length = 3 := by
  refine ⟨[tRight, ⟨1, [[[.num 0, .num 1]]], [[.num 1]], [[.num 1]], [⟨tHpB, .flt (.num 3), some true⟩]⟩], ?_⟩
  decide +kernel

end example_

end PyPDP
