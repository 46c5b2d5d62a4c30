/-
C161: the tree that is computed with doubles is the tree of exact arithmetic if its splits were clearly the best.
-/
import Verif.Props.RoundedLoss
import Verif.Props.RoundedGrid
import Verif.Props.Stability
import Verif.Spec.RoundedTree

namespace PyPDP
open Spec

section fold
variable {F : Type} [Machine F] {cs possible : List (Hp F)} {N minPoints P : Nat} {n : Node F}

/-- what the loop over some of the candidates keeps true -/
theorem trySplitM_keep (hpos : ∀ hp ∈ possible, hp ∈ cs) (hwf : ConfigSpace.WF cs) (hn : RegionShape P cs.length n) (Q : Option (F × Node F × Node F) → Prop)
    (cands : List (Hp F × F)) (hc : ∀ c ∈ cands, c.1 ∈ possible ∧ c.2 ∈ Machine.splitVals (F := F) N)
    (hstep : ∀ best l r, ∀ c ∈ cands, ∀ f, Q best → Admissible cs possible N minPoints P n l r c.1 c.2 f → Q (updateBestM best (totalLoss l r) l r)) :
    ∀ best, Q best → ∃ best', cands.foldlM (trySplitM cs minPoints n) best = .ok best' ∧ Q best' := by
  induction cands with
  | nil => exact fun best hb => ⟨best, rfl, hb⟩
  | cons c cands ih =>
    intro best hb
    have ih := ih (fun q hq => hc q (List.mem_cons_of_mem _ hq)) fun b l r q hq => hstep b l r q (List.mem_cons_of_mem _ hq)
    obtain ⟨hcp, hct⟩ := hc c (by simp)
    obtain ⟨f, hf, hfW⟩ := idx_of_mem (hpos c.1 hcp)
    obtain ⟨l, r, hs, hl, hr, hsl, hsr⟩ := splitAtValueM_spec hn hf hfW c.2
    rw [List.foldlM_cons]
    have hstep' : ∃ b', trySplitM cs minPoints n best c = .ok b' ∧ Q b' := by
      unfold trySplitM
      rw [hs, Py.ok_bind]
      dsimp only
      split
      · exact ⟨best, rfl, hb⟩
      · rename_i hsz
        push Not at hsz
        exact ⟨_, rfl, hstep best l r c (by simp) f hb ⟨hcp, hct, (isFeature_idx hwf).2 hf, hl, hr, hsl, hsr,
          by rw [hsl.curves_length]; exact hsz.1, by rw [hsr.curves_length]; exact hsz.2⟩⟩
    obtain ⟨b', hb1, hb2⟩ := hstep'
    rw [hb1, Py.ok_bind]
    exact ih b' hb2

/-- the candidates around number `j` of hyperparameter number `i` -/
theorem candidatesM_around {i j : Nat} {hp : Hp F} {t : F} (hi : possible[i]? = some hp) (hj : (Machine.splitVals (F := F) N)[j]? = some t) :
    ∃ pre post, candidatesM possible N = pre ++ (hp, t) :: post ∧
      (∀ q ∈ pre, ∃ i' j' : Nat, possible[i']? = some q.1 ∧ (Machine.splitVals (F := F) N)[j']? = some q.2 ∧ (i' < i ∨ i' = i ∧ j' < j)) ∧
      (∀ q ∈ post, ∃ i' j' : Nat, possible[i']? = some q.1 ∧ (Machine.splitVals (F := F) N)[j']? = some q.2) := by
  obtain ⟨T, hT⟩ : ∃ T, T = Machine.splitVals (F := F) N := ⟨_, rfl⟩
  rw [← hT] at hj ⊢
  obtain ⟨hi1, rfl⟩ := List.getElem?_eq_some_iff.1 hi
  obtain ⟨hj1, rfl⟩ := List.getElem?_eq_some_iff.1 hj
  have e1 : possible = possible.take i ++ possible[i] :: possible.drop (i + 1) := by simp
  have e2 : T = T.take j ++ T[j] :: T.drop (j + 1) := by simp
  refine ⟨((possible.take i).flatMap fun hp => T.map fun t => (hp, t)) ++ (T.take j).map fun t => (possible[i], t),
    ((T.drop (j + 1)).map fun t => (possible[i], t)) ++ (possible.drop (i + 1)).flatMap fun hp => T.map fun t => (hp, t), ?_, ?_, ?_⟩
  · unfold candidatesM
    rw [← hT]
    conv_lhs => rw [e1, List.flatMap_append, List.flatMap_cons]
    have e3 : (T.map fun t => (possible[i], t)) = ((T.take j).map fun t => (possible[i], t)) ++ (possible[i], T[j]) :: (T.drop (j + 1)).map fun t => (possible[i], t) := by
      conv_lhs => rw [e2]
      rw [List.map_append, List.map_cons]
    rw [e3]
    simp
  · intro q hq
    rcases List.mem_append.1 hq with hq | hq
    · obtain ⟨hp', h1, h2⟩ := List.mem_flatMap.1 hq
      obtain ⟨t', h3, rfl⟩ := List.mem_map.1 h2
      obtain ⟨i', h4⟩ := List.mem_iff_getElem?.1 h1
      obtain ⟨j', h5⟩ := List.mem_iff_getElem?.1 h3
      obtain ⟨h6, h7⟩ := List.getElem?_eq_some_iff.1 h4
      rw [List.length_take] at h6
      refine ⟨i', j', ?_, h5, .inl (by omega)⟩
      rw [List.getElem?_take] at h4
      split at h4
      · exact h4
      · cases h4
    · obtain ⟨t', h3, rfl⟩ := List.mem_map.1 hq
      obtain ⟨j', h5⟩ := List.mem_iff_getElem?.1 h3
      rw [List.getElem?_take] at h5
      split at h5
      · exact ⟨i, j', hi, h5, .inr ⟨rfl, by assumption⟩⟩
      · cases h5
  · intro q hq
    rcases List.mem_append.1 hq with hq | hq
    · obtain ⟨t', h3, rfl⟩ := List.mem_map.1 hq
      obtain ⟨j', h5⟩ := List.mem_iff_getElem?.1 (List.mem_of_mem_drop h3)
      exact ⟨i, j', hi, h5⟩
    · obtain ⟨hp', h1, h2⟩ := List.mem_flatMap.1 hq
      obtain ⟨t', h3, rfl⟩ := List.mem_map.1 h2
      obtain ⟨i', h4⟩ := List.mem_iff_getElem?.1 (List.mem_of_mem_drop h1)
      obtain ⟨j', h5⟩ := List.mem_iff_getElem?.1 h3
      exact ⟨i', j', h4, h5⟩

end fold

section tree
variable {c : ComputedExp} {sum : List ℝ → ℝ} {cs possible : List (Hp ℝ)} {N minPoints P : Nat}

/-- the computed thresholds -/
theorem thresholds_near (hc : CorrectlyRoundedExp c) (hN : N + 2 ≤ 2 ^ 51) {j : Nat} {t : ℝ} (h : ((roundedMachine c sum).splitVals N)[j]? = some t) :
    j < N ∧ |t - threshold N (j + 1)| ≤ 1 / 2 ^ 51 := by
  obtain ⟨h1, -, -, -, h5⟩ := C149_axis hc.fl (n := N + 2) (by omega) hN
  have hj : j < N := by
    have := (List.getElem?_eq_some_iff.1 h).1
    simpa [Machine.splitVals, h1] using this
  refine ⟨hj, ?_⟩
  have h' : (linspaceF c.fl 0 1 (N + 2))[j + 1]? = some t := by
    have : ((linspaceF c.fl 0 1 (N + 2)).drop 1).dropLast[j]? = some t := h
    rw [List.getElem?_dropLast, List.getElem?_drop] at this
    split at this
    · rwa [add_comm 1 j] at this
    · cases this
  have := (h5 (j + 1) t h').2.2.2 (by omega)
  unfold threshold
  convert this using 3
  push_cast
  ring

theorem thresholds_length (hc : CorrectlyRoundedExp c) (hN : N + 2 ≤ 2 ^ 51) : ((roundedMachine c sum).splitVals N).length = N :=
  (C149_thresholds hc sum hN).1

theorem valueAt_feature {F f : Nat} {n : Node ℝ} (hn : RegionShape P F n) (hf : f < F) {q : Curve ℝ} (hq : q ∈ curves n) : valueAt f q = some (featureOf f q) := by
  have hm : q.1 ∈ n.x := by rw [← hn.map_x]; exact List.mem_map_of_mem (f := Prod.fst) hq
  obtain ⟨h1, h2⟩ := hn.xs _ hm
  have hP := hn.pos
  obtain ⟨r, rs, he⟩ : ∃ r rs, q.1 = r :: rs := by
    cases h : q.1 with
    | nil => rw [h] at h1; simp at h1; omega
    | cons r rs => exact ⟨r, rs, rfl⟩
  have hr := h2 r (by rw [he]; simp)
  simp [valueAt, featureOf, he, List.getElem?_eq_getElem (hr ▸ hf : f < r.length)]

/-- the computed threshold separates the curves as the exact one does -/
theorem sides_same {n : Node ℝ} (hn : RegionShape P cs.length n) {L : List (Curve ℝ)} (hfar : AwayFromThresholds (1 / 2 ^ 51) cs possible N L)
    (hsub : ∀ q ∈ curves n, q ∈ L) {hp : Hp ℝ} (hhp : hp ∈ possible) {f : Nat} (hf : IsFeature cs hp f) (hfF : f < cs.length) {j : Nat} (hj : j < N) {t : ℝ}
    (ht : |t - threshold N (j + 1)| ≤ 1 / 2 ^ 51) :
    (curves n).filter (@Spec.onSide ℝ (roundedMachine c sum) f t true) = lowerPart f (threshold N (j + 1)) (curves n) ∧
    (curves n).filter (@Spec.onSide ℝ (roundedMachine c sum) f t false) = upperPart f (threshold N (j + 1)) (curves n) := by
  have key : ∀ q ∈ curves n, featureOf f q ≤ t ↔ featureOf f q ≤ threshold N (j + 1) := by
    intro q hq
    have h1 := hfar q (hsub q hq) hp hhp f hf (j + 1) (by omega) (by omega)
    rw [abs_le] at ht
    rw [lt_abs] at h1
    rcases h1 with h1 | h1
    · constructor <;> intro h <;> linarith
    · constructor <;> intro h <;> linarith
  constructor
  · refine List.filter_congr fun q hq => ?_
    have := key q hq
    simp [Spec.onSide, valueAt_feature hn hfF hq, Machine.le, this]
  · refine List.filter_congr fun q hq => ?_
    have := key q hq
    simp only [Spec.onSide, valueAt_feature hn hfF hq, Machine.lt, Bool.false_eq_true, if_false, ← not_le, this]

/-- what an admissible split is in exact arithmetic -/
theorem admissible_candidate (hwf : ConfigSpace.WF cs) (hpos : ∀ hp ∈ possible, hp ∈ cs) (hc : CorrectlyRoundedExp c) (hN : N + 2 ≤ 2 ^ 51) {n : Node ℝ}
    (hn : RegionShape P cs.length n) {L : List (Curve ℝ)} (hfar : AwayFromThresholds (1 / 2 ^ 51) cs possible N L) (hsub : ∀ q ∈ curves n, q ∈ L)
    {i j : Nat} {hp : Hp ℝ} {t : ℝ} {f : Nat} (hi : possible[i]? = some hp) (hj : ((roundedMachine c sum).splitVals N)[j]? = some t) {l r : Node ℝ}
    (ha : @Admissible ℝ (roundedMachine c sum) cs possible N minPoints P n l r hp t f) :
    IsCandidate cs possible N minPoints (curves n) i (j + 1) hp f ∧ curves l = lowerPart f (threshold N (j + 1)) (curves n) ∧
      curves r = upperPart f (threshold N (j + 1)) (curves n) ∧ regionLoss l.v + regionLoss r.v = splitCost P N (curves n) f (j + 1) := by
  let M : Machine ℝ := roundedMachine c sum
  obtain ⟨hjN, hnear⟩ := thresholds_near hc hN hj
  obtain ⟨f', hf', hfF⟩ := idx_of_mem (hpos hp ha.hp_mem)
  obtain rfl := idx_unique hwf ((isFeature_idx hwf).2 hf') ha.feature
  obtain ⟨s1, s2⟩ := sides_same (c := c) (sum := sum) hn hfar hsub ha.hp_mem ha.feature hfF hjN hnear
  have e1 := ha.left.curves_eq.trans s1
  have e2 := ha.right.curves_eq.trans s2
  refine ⟨⟨hi, ha.feature, by omega, by omega, ?_, ?_⟩, e1, e2, ?_⟩
  · rw [← e1]; exact ha.left_size
  · rw [← e2]; exact ha.right_size
  · rw [regionLoss_curves ha.left_shape, regionLoss_curves ha.right_shape, e1, e2]
    rfl

/-- with doubles, `calc_best_split` finds the split that is clearly the best -/
theorem rounded_best (hc : CorrectlyRoundedExp c) (hs : SumsUp c.fl sum) (hwf : ConfigSpace.WF cs) (hpos : ∀ hp ∈ possible, hp ∈ cs) (hN : N + 2 ≤ 2 ^ 51)
    {n : Node ℝ} (hn : RegionShape P cs.length n) (h2 : 2 ≤ (curves n).length) (hnP : (curves n).length * P ≤ 2 ^ 50) {B : ℝ}
    (hB : ∀ r ∈ n.v, ∀ x ∈ r, |x| ≤ B) {L : List (Curve ℝ)} (hfar : AwayFromThresholds (1 / 2 ^ 51) cs possible N L) (hsub : ∀ q ∈ curves n, q ∈ L) {δ : ℝ}
    (hδ : 30 * ((curves n).length * P) * B ^ 2 * (2 : ℝ) ^ (-52 : ℤ) ≤ δ) {i j : Nat} {hp : Hp ℝ} {f : Nat}
    (hb : IsClearlyBest cs possible N minPoints P δ (curves n) i j hp f) :
    ∃ l r t, @calcBestSplitM ℝ (roundedMachine c sum) cs possible N minPoints n = .ok (some (l, r)) ∧ 0 < t ∧ t < 1 ∧ |t - threshold N j| ≤ 1 / 2 ^ 51 ∧
      curves l = lowerPart f (threshold N j) (curves n) ∧ curves r = upperPart f (threshold N j) (curves n) ∧
      RegionShape P cs.length l ∧ RegionShape P cs.length r ∧ l.depth = n.depth + 1 ∧ r.depth = n.depth + 1 ∧
      l.conds = n.conds ++ [⟨hp, .flt t, some true⟩] ∧ r.conds = n.conds ++ [⟨hp, .flt t, some false⟩] := by
  let M : Machine ℝ := roundedMachine c sum
  have hcand := hb.best.1
  obtain ⟨j, rfl⟩ : ∃ k, j = k + 1 := ⟨j - 1, by have := hcand.one_le; omega⟩
  have hjN : j < N := by have := hcand.le; omega
  obtain ⟨t, ht⟩ : ∃ t, (Machine.splitVals (F := ℝ) N)[j]? = some t := ⟨_, List.getElem?_eq_getElem (by rw [thresholds_length hc hN]; exact hjN)⟩
  obtain ⟨-, hnear⟩ := thresholds_near hc hN ht
  have hhp : hp ∈ possible := List.mem_of_getElem? hcand.hp_at
  obtain ⟨f', hf', hfF⟩ := idx_of_mem (hpos hp hhp)
  obtain rfl := idx_unique hwf ((isFeature_idx hwf).2 hf') hcand.feature
  obtain ⟨s1, s2⟩ := sides_same (c := c) (sum := sum) hn hfar hsub hhp hcand.feature hfF hjN hnear
  obtain ⟨l, r, hsp, hl, hr, hsl, hsr⟩ := splitAtValueM_spec hn hf' hfF t
  have e1 := hl.curves_eq.trans s1
  have e2 := hr.curves_eq.trans s2
  have hadm : Admissible cs possible N minPoints P n l r hp t f' := ⟨hhp, List.mem_of_getElem? ht, hcand.feature, hl, hr, hsl, hsr,
    by rw [e1]; exact hcand.left_size, by rw [e2]; exact hcand.right_size⟩
  obtain ⟨pre, post, hsplit, hpre, hpost⟩ := candidatesM_around (N := N) hcand.hp_at ht
  obtain ⟨-, -, -, hcost⟩ := admissible_candidate hwf hpos hc hN hn hfar hsub hcand.hp_at ht hadm
  have herr := abs_le.1 (admissible_error hc hs hn h2 hnP hB hadm)
  -- every other candidate: the same parts or a larger computed loss
  have key : ∀ i' j' l' r' hp' t' g, possible[i']? = some hp' → (Machine.splitVals (F := ℝ) N)[j']? = some t' →
      Admissible cs possible N minPoints P n l' r' hp' t' g →
      (totalLoss l' r' = totalLoss l r ∧ (i < i' ∨ i = i' ∧ j ≤ j')) ∨ totalLoss l r < totalLoss l' r' := by
    intro i' j' l' r' hp' t' g hi' hj' ha
    obtain ⟨k1, k2, k3, k4⟩ := admissible_candidate hwf hpos hc hN hn hfar hsub hi' hj' ha
    rcases hb.gap i' (j' + 1) hp' g k1 with hg | hg
    · left
      have q1 : curves l' = curves l := by
        rw [k2, e1]; exact List.filter_congr fun q hq => by simp [hg q hq]
      have q2 : curves r' = curves r := by
        rw [k3, e2]; exact List.filter_congr fun q hq => by have := hg q hq; simp only [← not_le, this]
      refine ⟨?_, ?_⟩
      · have v1 : l'.v = l.v := by rw [← ha.left_shape.map_v, ← hsl.map_v, q1]
        have v2 : r'.v = r.v := by rw [← ha.right_shape.map_v, ← hsr.map_v, q2]
        unfold totalLoss
        rw [v1, v2]
      · have := (hb.best.2 i' (j' + 1) hp' g k1).2 (same_sides (P := P) hg).symm
        omega
    · right
      have herr' := abs_le.1 (admissible_error hc hs hn h2 hnP hB ha)
      rw [hcost] at herr
      rw [k4] at herr'
      have hX : 30 * (((curves n).length : ℝ) * P) ^ 2 * B ^ 2 * (2 : ℝ) ^ (-52 : ℤ) ≤ P * (curves n).length * δ := by
        have := mul_le_mul_of_nonneg_left hδ (by positivity : (0 : ℝ) ≤ P * (curves n).length)
        refine le_trans (le_of_eq ?_) this
        ring
      show c.fl (regionLossF c.fl sum l.v + regionLossF c.fl sum r.v) < c.fl (regionLossF c.fl sum l'.v + regionLossF c.fl sum r'.v)
      linarith [herr.2, herr'.1]
  have hmem : ∀ q ∈ candidatesM possible N, q.1 ∈ possible ∧ q.2 ∈ Machine.splitVals (F := ℝ) N := fun q hq => candidatesM_mem hq
  rw [hsplit] at hmem
  obtain ⟨b1, f1, Q1⟩ := trySplitM_keep (minPoints := minPoints) hpos hwf hn (fun best => ∀ b, best = some b → totalLoss l r < b.1) pre
    (fun q hq => hmem q (by simp [hq])) (by
      rintro best l' r' ⟨hp', t'⟩ hq g hQ ha b hbb
      obtain ⟨i', j', a1, a2, a3⟩ := hpre _ hq
      rcases key i' j' l' r' hp' t' g a1 a2 ha with ⟨-, hk⟩ | hk
      · omega
      · cases best with
        | none =>
          simp only [updateBestM] at hbb
          obtain rfl := Option.some.inj hbb
          exact hk
        | some b0 =>
          simp only [updateBestM] at hbb
          split at hbb
          · obtain rfl := Option.some.inj hbb; exact hk
          · exact hQ b hbb) none (by simp)
  have hstep : trySplitM cs minPoints n b1 (hp, t) = .ok (some (totalLoss l r, l, r)) := by
    unfold trySplitM
    dsimp only
    rw [hsp, Py.ok_bind]
    dsimp only
    have z1 := hadm.left_size
    have z2 := hadm.right_size
    rw [hsl.curves_length] at z1
    rw [hsr.curves_length] at z2
    rw [if_neg (by omega)]
    show Except.ok (updateBestM b1 (totalLoss l r) l r) = _
    congr 1
    cases b1 with
    | none => simp [updateBestM]
    | some b0 =>
      have := Q1 b0 rfl
      simp only [updateBestM, Machine.lt, M, this, decide_true, if_true]
  obtain ⟨b2, f2, Q2⟩ := trySplitM_keep (minPoints := minPoints) hpos hwf hn (fun best => best = some (totalLoss l r, l, r)) post
    (fun q hq => hmem q (by simp [hq])) (by
      rintro best l' r' ⟨hp', t'⟩ hq g rfl ha
      obtain ⟨i', j', a1, a2⟩ := hpost _ hq
      have hle : ¬ totalLoss l' r' < totalLoss l r := by
        rcases key i' j' l' r' hp' t' g a1 a2 ha with ⟨hk, -⟩ | hk
        · rw [hk]; exact lt_irrefl _
        · exact not_lt.2 hk.le
      simp only [updateBestM, Machine.lt, M, hle, decide_false, Bool.false_eq_true, if_false]) _ rfl
  obtain ⟨t0, t1⟩ := (C149_thresholds hc sum hN).2.2 t (List.mem_of_getElem? ht)
  refine ⟨l, r, t, ?_, t0, t1, hnear, e1, e2, hsl, hsr, hl.depth, hr.depth, hl.conds, hr.conds⟩
  have hspl : n.splittable = true := by simp [Node.splittable, ← hn.curves_length]; omega
  unfold calcBestSplitM
  rw [if_pos hspl, hsplit, List.foldlM_append, f1, Py.ok_bind, List.foldlM_cons, hstep, Py.ok_bind, f2, Py.ok_bind, Q2]
  rfl

/-- and finds none where there is none -/
theorem rounded_none (hc : CorrectlyRoundedExp c) (hwf : ConfigSpace.WF cs) (hpos : ∀ hp ∈ possible, hp ∈ cs) (hN : N + 2 ≤ 2 ^ 51)
    {n : Node ℝ} (hn : RegionShape P cs.length n) (h2 : 2 ≤ (curves n).length) {L : List (Curve ℝ)}
    (hfar : AwayFromThresholds (1 / 2 ^ 51) cs possible N L) (hsub : ∀ q ∈ curves n, q ∈ L)
    (hno : ∀ i j hp f, ¬ IsCandidate cs possible N minPoints (curves n) i j hp f) :
    @calcBestSplitM ℝ (roundedMachine c sum) cs possible N minPoints n = .ok none := by
  let M : Machine ℝ := roundedMachine c sum
  have hspl : n.splittable = true := by simp [Node.splittable, ← hn.curves_length]; omega
  obtain ⟨res, h3, h4⟩ := calcBestSplitM_ok hpos hwf N minPoints hn hspl
  cases res with
  | none => exact h3
  | some lr =>
    exfalso
    obtain ⟨hp, t, f, ha⟩ := h4 lr.1 lr.2 rfl
    obtain ⟨i, hi⟩ := List.mem_iff_getElem?.1 ha.hp_mem
    obtain ⟨j, hj⟩ := List.mem_iff_getElem?.1 ha.t_mem
    exact hno _ _ _ _ (admissible_candidate hwf hpos hc hN hn hfar hsub hi hj ha).1

theorem Grown.unique {K : Type} {split : Node K → Py (Option (Node K × Node K))} {d : Int} {n : Node K} {L L' : List (Node K)} (h : Grown split d n L)
    (h' : Grown split d n L') : L = L' := by
  induction h generalizing L' with
  | stop hs =>
    cases h' with
    | stop _ => rfl
    | noSplit _ _ => rfl
    | branch hs' _ _ _ => exact absurd hs hs'
  | noSplit hs he =>
    cases h' with
    | stop _ => rfl
    | noSplit _ _ => rfl
    | branch _ he' _ _ => rw [he] at he'; cases he'
  | branch hs he _ _ ih1 ih2 =>
    cases h' with
    | stop hs' => exact absurd hs' hs
    | noSplit _ he' => rw [he] at he'; cases he'
    | branch _ he' g1 g2 =>
      rw [he] at he'
      obtain ⟨rfl, rfl⟩ := Prod.mk.inj (Option.some.inj (Except.ok.inj he'))
      rw [ih1 g1, ih2 g2]

theorem Spec.RegionShape.of_curves {F : Nat} {m m' : Node ℝ} (h : RegionShape P F m) (h' : RegionShape P F m') (e : curves m' = curves m) :
    m'.x = m.x ∧ m'.y = m.y ∧ m'.v = m.v := by
  rw [← h.map_x, ← h'.map_x, ← h.map_y, ← h'.map_y, ← h.map_v, ← h'.map_v, e]
  exact ⟨rfl, rfl, rfl⟩

theorem Spec.SameRegion.curves {m m' : Node ℝ} {η : ℝ} (h : SameRegion η possible N m m') : curves m' = curves m := by
  unfold Spec.curves
  rw [h.x, h.y, h.v]

theorem Spec.SameRegion.shape {F : Nat} {m m' : Node ℝ} {η : ℝ} (h : SameRegion η possible N m m') (hs : RegionShape P F m) : RegionShape P F m' := by
  obtain ⟨a, b, c, d, e, g⟩ := hs
  exact ⟨a, by rw [h.x, h.y]; exact b, by rw [h.y, h.v]; exact c, by rw [h.x]; exact d, by rw [h.y]; exact e, by rw [h.v]; exact g⟩

theorem rounded_grown (hc : CorrectlyRoundedExp c) (hs : SumsUp c.fl sum) (hwf : ConfigSpace.WF cs) (hpos : ∀ hp ∈ possible, hp ∈ cs) (hN : N + 2 ≤ 2 ^ 51)
    {W : Nat} (hW : W * P ≤ 2 ^ 50) {B : ℝ} {C : List (Curve ℝ)} (hfar : AwayFromThresholds (1 / 2 ^ 51) cs possible N C) {d : Int} {n : Node ℝ} {L : List (Node ℝ)}
    (hg : ClearTree cs possible N minPoints P (30 * (W * P) * B ^ 2 * (2 : ℝ) ^ (-52 : ℤ)) d n L) :
    ∀ n', SameRegion (1 / 2 ^ 51) possible N n n' → (∀ q ∈ curves n, q ∈ C) → (curves n).length ≤ W → (∀ r ∈ n.v, ∀ x ∈ r, |x| ≤ B) →
      ∃ L', Grown (@calcBestSplitM ℝ (roundedMachine c sum) cs possible N minPoints) d n' L' ∧ List.Forall₂ (SameRegion (1 / 2 ^ 51) possible N) L L' := by
  induction hg with
  | @leaf n hn hst =>
    intro n' hr hsub hlen hB
    refine ⟨[n'], ?_, .cons hr .nil⟩
    have hn' := hr.shape hn
    by_cases hstop : n'.splittable = false ∨ d ≤ n'.depth
    · exact .stop hstop
    · refine .noSplit hstop ?_
      have h2 : 2 ≤ (curves n').length := by
        rw [hn'.curves_length]
        by_contra h
        exact hstop (.inl (by simp [Node.splittable]; omega))
      refine rounded_none hc hwf hpos hN hn' h2 hfar (by rw [hr.curves]; exact hsub) ?_
      rw [hr.curves] at h2 ⊢
      rcases hst with h | h | h
      · exact absurd (.inr (by rw [hr.depth]; exact h)) hstop
      · omega
      · exact h
  | @branch n l r Ll Lr i j hp f hn h1 h2 h3 hsp hgl hgr ih1 ih2 =>
    intro n' hr hsub hlen hB
    have hn' := hr.shape hn
    have hcv := hr.curves
    have hlW : ((curves n').length : ℝ) ≤ W := by rw [hcv]; exact_mod_cast hlen
    obtain ⟨l', r', t, q0, t0, t1, q1, q2, q3, q4, q5, q6, q7, q8, q9⟩ := rounded_best hc hs hwf hpos hN hn' (by rw [hcv]; exact h2)
      (by rw [hcv]; exact (Nat.mul_le_mul_right P hlen).trans hW) (by rw [hr.v]; exact hB) hfar (by rw [hcv]; exact hsub)
      (δ := 30 * (W * P) * B ^ 2 * (2 : ℝ) ^ (-52 : ℤ)) (by gcongr) (by rw [hcv]; exact h3)
    rw [hcv] at q2 q3
    have shp : ∀ {m : Node ℝ} {L : List (Node ℝ)}, ClearTree cs possible N minPoints P (30 * (W * P) * B ^ 2 * (2 : ℝ) ^ (-52 : ℤ)) d m L → RegionShape P cs.length m := by
      intro m L h
      cases h with
      | leaf a _ => exact a
      | branch a _ _ _ _ _ _ => exact a
    have hl := shp hgl
    have hr' := shp hgr
    have el : curves l' = curves l := by rw [q2, hsp.left_curves]; rfl
    have er : curves r' = curves r := by rw [q3, hsp.right_curves]; rfl
    have condl : ∀ b, CondNear (1 / 2 ^ 51) possible N ⟨hp, .flt (threshold N j), some b⟩ ⟨hp, .flt t, some b⟩ := fun b =>
      ⟨hp, List.mem_of_getElem? h3.best.1.hp_at, j, t, b, h3.best.1.one_le, h3.best.1.le, rfl, rfl, t0, t1, q1⟩
    obtain ⟨a1, a2, a3⟩ := hl.of_curves q4 el
    obtain ⟨b1, b2, b3⟩ := hr'.of_curves q5 er
    have sl : SameRegion (1 / 2 ^ 51) possible N l l' := ⟨by rw [q6, hsp.left_depth, hr.depth], a1, a2, a3, by
      rw [q8, hsp.left_conds]; exact List.rel_append hr.conds (.cons (condl true) .nil)⟩
    have sr : SameRegion (1 / 2 ^ 51) possible N r r' := ⟨by rw [q7, hsp.right_depth, hr.depth], b1, b2, b3, by
      rw [q9, hsp.right_conds]; exact List.rel_append hr.conds (.cons (condl false) .nil)⟩
    have subl : (curves l).Sublist (curves n) := by rw [hsp.left_curves]; exact List.filter_sublist
    have subr : (curves r).Sublist (curves n) := by rw [hsp.right_curves]; exact List.filter_sublist
    obtain ⟨Ll', g1, g2⟩ := ih1 l' sl (fun q hq => hsub q (subl.subset hq)) (subl.length_le.trans hlen)
      fun x hx => hB x (hn.v_mem hl (fun q hq => subl.subset hq) x hx)
    obtain ⟨Lr', g3, g4⟩ := ih2 r' sr (fun q hq => hsub q (subr.subset hq)) (subr.length_le.trans hlen)
      fun x hx => hB x (hn.v_mem hr' (fun q hq => subr.subset hq) x hx)
    refine ⟨Lr' ++ Ll', .branch ?_ q0 g1 g3, List.rel_append g4 g2⟩
    rintro (h | h)
    · simp only [Node.splittable, ← hn'.curves_length, hcv] at h
      simp at h
      omega
    · rw [hr.depth] at h; omega

/-- **C161** The tree that is computed with doubles, whatever the order of the additions: if every split of the tree of exact arithmetic was the best by more than
`60 W P² B² 2⁻⁵²` per curve of its region (`W` curves at `P` grid points, variances at most `B`) and no curve is within `2⁻⁵¹` of a threshold, both trees have
the same leaves in the same order; corresponding leaves hold the same curves and have the same conditions up to `2⁻⁵¹` in the thresholds. -/
theorem C161_tree (hc : CorrectlyRoundedExp c) (hs : SumsUp c.fl sum) {p : DT ℝ} (hv : ValidDT P p) (hN : p.numSplits + 2 ≤ 2 ^ 51)
    (hnP : (curves p.root).length * P ≤ 2 ^ 50) {B : ℝ} (hB : ∀ r ∈ p.root.v, ∀ x ∈ r, |x| ≤ B)
    (hfar : AwayFromThresholds (1 / 2 ^ 51) p.cfg.space p.possible p.numSplits (curves p.root)) {d : Int} (hd : 0 < d) {leaves : List (Node ℝ)}
    (hclear : ClearTree p.cfg.space p.possible p.numSplits p.minPoints P (30 * ((curves p.root).length * P) * B ^ 2 * (2 : ℝ) ^ (-52 : ℤ)) d p.root leaves) :
    (dtPartition p d).2 = .ok leaves ∧
    ∃ leaves', (@dtPartitionM ℝ (roundedMachine c sum) p d).2 = .ok leaves' ∧ (@dtPartitionM ℝ (roundedMachine c sum) p d).1.leaves = leaves' ∧
      List.Forall₂ (SameRegion (1 / 2 ^ 51) p.possible p.numSplits) leaves leaves' := by
  obtain ⟨L0, g1, -, g3, -⟩ := partition_eq hv hd
  obtain rfl : leaves = L0 := greedy_unique hv.wf hclear.greedy g3
  refine ⟨by rw [g1], ?_⟩
  obtain ⟨L, h1, h2⟩ := rounded_grown hc hs hv.wf hv.possible_mem hN hnP hfar hclear p.root ⟨rfl, rfl, rfl, rfl, by rw [hv.conds]; exact .nil⟩
    (fun _ h => h) le_rfl hB
  have hlen : L.length ≤ 2 ^ d.toNat := by
    obtain ⟨L3, m1, -, m3⟩ := @grownM_exists ℝ (roundedMachine c sum) _ _ hv.wf hv.possible_mem p.numSplits p.minPoints P d d.toNat p.root hv.shape (by rw [hv.depth]; omega)
    rw [h1.unique m1]
    exact m3
  have hne := h1.ne_nil
  have hpart : @dtPartitionM ℝ (roundedMachine c sum) p d = ({ p with leaves := L }, .ok L) := by
    unfold dtPartitionM
    rw [if_pos hd, partitionLoop_eq (loopFuel d) [p.root] [L] [] (.cons h1 .nil) (by
      simp only [List.map_cons, List.map_nil, List.sum_cons, List.sum_nil, loopFuel, pow_succ]; omega)]
    simp
  exact ⟨L, by rw [hpart], by rw [hpart], h2⟩

/-! the leaf of a configuration -/

/-- interpolation with doubles, between ends that were rounded before -/
theorem interpolate_error {fl : ℝ → ℝ} (hfl : RoundsToNearest fl) {t t' a b a' b' : ℝ} (ht : 0 ≤ t ∧ t ≤ 1) (ht' : 0 ≤ t' ∧ t' ≤ 1)
    (htt : |t' - t| ≤ 1 / 2 ^ 51) (ha : |a' - a| ≤ |a| / 2 ^ 53) (hb : |b' - b| ≤ |b| / 2 ^ 53) :
    |fl (fl (t' * fl (b' - a')) + a') - (t * (b - a) + a)| ≤ (|a| + |b|) / 2 ^ 49 := by
  obtain ⟨S, hS⟩ : ∃ S, S = |a| + |b| := ⟨_, rfl⟩
  obtain ⟨h, hh⟩ : ∃ h : ℝ, h = 1 / 2 ^ 53 := ⟨_, rfl⟩
  have h0 : 0 < h := by rw [hh]; positivity
  have h1 : h ≤ 1 / 1000 := by rw [hh]; norm_num
  have hS0 : 0 ≤ S := by rw [hS]; positivity
  have herr : ∀ x, |fl x - x| ≤ |x| * h := by
    intro x
    have := (hfl x).error
    rw [abs_sub_comm] at this
    refine this.trans_eq ?_
    rw [hh, zpow_neg]; norm_num
  have e51 : (1 : ℝ) / 2 ^ 51 = 4 * h := by rw [hh]; norm_num
  have e49 : S / 2 ^ 49 = 16 * (h * S) := by rw [hh]; ring
  have ea : |a' - a| ≤ |a| * h := by rw [hh]; refine ha.trans_eq (by ring)
  have eb : |b' - b| ≤ |b| * h := by rw [hh]; refine hb.trans_eq (by ring)
  rw [e51] at htt
  rw [← hS, e49]
  have hhS : h * S ≤ S / 1000 := by nlinarith
  have hhS0 : 0 ≤ h * S := by positivity
  have hhS2 : h * (h * S) ≤ h * S / 1000 := by nlinarith
  have hab : |b - a| ≤ S := by rw [hS]; have := abs_sub b a; linarith
  have haS : |a| ≤ S := by rw [hS]; linarith [abs_nonneg b]
  have d1 : |(b' - a') - (b - a)| ≤ h * S := by
    have e : (b' - a') - (b - a) = (b' - b) - (a' - a) := by ring
    rw [e]
    have := abs_sub (b' - b) (a' - a)
    rw [hS]
    nlinarith
  have d1' : |b' - a'| ≤ S + h * S := by
    have := abs_add_le ((b' - a') - (b - a)) (b - a)
    rw [sub_add_cancel] at this
    linarith
  obtain ⟨D, hD⟩ : ∃ D, D = fl (b' - a') := ⟨_, rfl⟩
  have d2 : |D - (b - a)| ≤ 2.1 * (h * S) := by
    have e := herr (b' - a')
    rw [← hD] at e
    have := abs_add_le (D - (b' - a')) ((b' - a') - (b - a))
    rw [sub_add_sub_cancel] at this
    have h5 : |b' - a'| * h ≤ (S + h * S) * h := mul_le_mul_of_nonneg_right d1' h0.le
    nlinarith
  have d2' : |D| ≤ 1.1 * S := by
    have := abs_add_le (D - (b - a)) (b - a)
    rw [sub_add_cancel] at this
    linarith
  have d3 : |t' * D - t * (b - a)| ≤ 6.1 * (h * S) := by
    have e : t' * D - t * (b - a) = t' * (D - (b - a)) + (t' - t) * (b - a) := by ring
    rw [e]
    have := abs_add_le (t' * (D - (b - a))) ((t' - t) * (b - a))
    rw [abs_mul, abs_mul, abs_of_nonneg ht'.1] at this
    have k1 : t' * |D - (b - a)| ≤ 1 * |D - (b - a)| := mul_le_mul_of_nonneg_right ht'.2 (abs_nonneg _)
    have k2 : |t' - t| * |b - a| ≤ 4 * h * S := mul_le_mul htt hab (abs_nonneg _) (by linarith)
    nlinarith
  have d3' : |t' * D| ≤ 1.1 * S := by
    rw [abs_mul, abs_of_nonneg ht'.1]
    have k1 : t' * |D| ≤ 1 * |D| := mul_le_mul_of_nonneg_right ht'.2 (abs_nonneg _)
    linarith
  obtain ⟨M, hM⟩ : ∃ M, M = fl (t' * D) := ⟨_, rfl⟩
  have d4 : |M - t * (b - a)| ≤ 7.2 * (h * S) := by
    have e := herr (t' * D)
    rw [← hM] at e
    have := abs_add_le (M - t' * D) (t' * D - t * (b - a))
    rw [sub_add_sub_cancel] at this
    have h5 : |t' * D| * h ≤ 1.1 * S * h := mul_le_mul_of_nonneg_right d3' h0.le
    nlinarith
  have d5 : |(M + a') - (t * (b - a) + a)| ≤ 8.2 * (h * S) := by
    have e : (M + a') - (t * (b - a) + a) = (M - t * (b - a)) + (a' - a) := by ring
    rw [e]
    have := abs_add_le (M - t * (b - a)) (a' - a)
    have h5 : |a| * h ≤ S * h := mul_le_mul_of_nonneg_right haS h0.le
    nlinarith
  have d5' : |M + a'| ≤ 3 * S := by
    have h6 : |t * (b - a)| ≤ S := by
      rw [abs_mul, abs_of_nonneg ht.1]
      have : t * |b - a| ≤ 1 * |b - a| := mul_le_mul_of_nonneg_right ht.2 (abs_nonneg _)
      linarith
    have h7 := abs_add_le (t * (b - a)) a
    have h8 := abs_add_le ((M + a') - (t * (b - a) + a)) (t * (b - a) + a)
    rw [sub_add_cancel] at h8
    linarith
  rw [← hD, ← hM]
  have e := herr (M + a')
  have := abs_add_le (fl (M + a') - (M + a')) ((M + a') - (t * (b - a) + a))
  rw [sub_add_sub_cancel] at this
  have h5 : |M + a'| * h ≤ 3 * S * h := mul_le_mul_of_nonneg_right d5' h0.le
  nlinarith

theorem clamp_near {l u a b e : ℝ} (h : |a - b| ≤ e) : |min u (max l a) - min u (max l b)| ≤ e := by
  refine (abs_min_sub_min_le_max u (max l a) u (max l b)).trans ?_
  rw [sub_self, abs_zero, max_eq_right (abs_nonneg _)]
  refine (abs_max_sub_max_le_max l a l b).trans ?_
  rw [sub_self, abs_zero, max_eq_right (abs_nonneg _)]
  exact h

theorem onAxis_within {l u t : ℝ} {g : Bool} (hlu : l ≤ u) (hg : g = true → 0 < l) (ht : 0 ≤ t ∧ t ≤ 1) : l ≤ onAxis l u g t ∧ onAxis l u g t ≤ u := by
  unfold onAxis
  split
  · rename_i h
    have hl := hg h
    have hu := hl.trans_le hlu
    have hlog := Real.log_le_log hl hlu
    constructor
    · rw [← Real.log_le_iff_le_exp hl]; nlinarith
    · rw [← Real.le_log_iff_exp_le hu]; nlinarith
  · constructor <;> nlinarith

/-- where the computed threshold lies on the axis, against the exact one -/
theorem unscale_near (hc : CorrectlyRoundedExp c) (hwf : ConfigSpace.WF cs) {hp : Hp ℝ} (hm : hp ∈ cs) {l u : ℝ} {g : Bool} (hb : hp.numerical? = some (l, u, g))
    (hlu : l ≤ u) (hg : g = true → 0 < l ∧ |Real.log l| + |Real.log u| ≤ 2 ^ 40) {t t' : ℝ} (ht : 0 ≤ t ∧ t ≤ 1) (ht' : 0 ≤ t' ∧ t' ≤ 1) (htt : |t' - t| ≤ 1 / 2 ^ 51) :
    unscaleFloat t cs hp.name = .ok (onAxis l u g t) ∧
    ∃ w, @unscaleFloatM ℝ (roundedMachine c sum) t' cs hp.name = .ok w ∧ |w - onAxis l u g t| ≤ axisResolution l u g := by
  let M : Machine ℝ := roundedMachine c sum
  have hget := ConfigSpace.get_of_mem hwf hm
  have hbd : hp.bounds = .ok (l, u, g) := by rw [Hp.bounds, hb]
  obtain ⟨w1, w2⟩ := onAxis_within (g := g) hlu (fun h => (hg h).1) ht
  have hclamp : min u (max l (onAxis l u g t)) = onAxis l u g t := by rw [max_eq_right w1, min_eq_right w2]
  constructor
  · unfold unscaleFloat
    rw [hget, Py.ok_bind, hbd, Py.ok_bind]
    dsimp only
    congr 1
    conv_rhs => rw [← hclamp]
    unfold onAxis
    cases g
    · simp only [Bool.false_eq_true, if_false]; rw [add_comm]
    · simp only [if_true]
      rw [add_comm]
      rfl
  · cases g with
    | false =>
      refine ⟨min u (max l (c.fl (c.fl (t' * c.fl (u - l)) + l))), ?_, ?_⟩
      · unfold unscaleFloatM
        rw [hget, Py.ok_bind, hbd, Py.ok_bind]
        dsimp only
        simp only [Bool.false_eq_true, if_false]
        rw [Py.ok_bind, (rounded_min_max c sum _ _).1, (rounded_min_max c sum _ _).2]
        rfl
      · rw [← hclamp]
        refine clamp_near ?_
        have := interpolate_error hc.fl ht ht' htt (a := l) (b := u) (a' := l) (b' := u) (by simp; positivity) (by simp; positivity)
        unfold onAxis axisResolution
        simp only [Bool.false_eq_true, if_false]
        rwa [add_comm l]
    | true =>
      obtain ⟨hl, hL⟩ := hg rfl
      have hu := hl.trans_le hlu
      refine ⟨min u (max l (c.exp (c.fl (c.fl (t' * c.fl (c.log u - c.log l)) + c.log l)))), ?_, ?_⟩
      · unfold unscaleFloatM
        rw [hget, Py.ok_bind, hbd, Py.ok_bind]
        dsimp only
        simp only [if_true]
        rw [← (rounded_min_max c sum _ _).1, ← (rounded_min_max c sum _ _).2]
        rfl
      · rw [← hclamp]
        refine clamp_near ?_
        have hlg : ∀ x, 0 < x → |c.log x - Real.log x| ≤ |Real.log x| / 2 ^ 53 := by
          intro x hx
          have := (hc.log x hx).error
          rw [abs_sub_comm] at this
          refine this.trans_eq ?_
          rw [zpow_neg]; norm_num; ring
        have key := interpolate_error hc.fl ht ht' htt (hlg l hl) (hlg u hu)
        obtain ⟨y', hy'⟩ : ∃ y', y' = c.fl (c.fl (t' * c.fl (c.log u - c.log l)) + c.log l) := ⟨_, rfl⟩
        rw [← hy'] at key ⊢
        obtain ⟨y, hy⟩ : ∃ y, y = Real.log l + t * (Real.log u - Real.log l) := ⟨_, rfl⟩
        have hon : onAxis l u true t = Real.exp y := by rw [hy]; rfl
        have hres : axisResolution l u true = u * (|Real.log l| + |Real.log u| + 1) / 2 ^ 48 := rfl
        rw [add_comm (t * _), ← hy] at key
        rw [hon] at w2 ⊢
        rw [hres]
        obtain ⟨Λ, hΛ⟩ : ∃ Λ, Λ = |Real.log l| + |Real.log u| := ⟨_, rfl⟩
        rw [← hΛ] at key hL ⊢
        have hΛ0 : 0 ≤ Λ := by rw [hΛ]; positivity
        obtain ⟨ε, hε⟩ : ∃ ε, ε = Λ / 2 ^ 49 := ⟨_, rfl⟩
        rw [← hε] at key
        have hε1 : ε ≤ 1 / 2 := by
          rw [hε, div_le_div_iff₀ (by positivity) (by norm_num)]
          calc Λ * 2 ≤ 2 ^ 40 * 2 := by linarith
            _ ≤ _ := by norm_num
        have hE : 0 < Real.exp y := Real.exp_pos y
        have e1 : |Real.exp y' - Real.exp y| ≤ Real.exp y * (2 * ε) := by
          have : Real.exp y' - Real.exp y = Real.exp y * (Real.exp (y' - y) - 1) := by
            rw [mul_sub, ← Real.exp_add]; simp
          rw [this, abs_mul, abs_of_pos hE]
          refine mul_le_mul_of_nonneg_left ?_ hE.le
          have := Real.abs_exp_sub_one_le (x := y' - y) (by linarith)
          linarith
        have e2 : |c.exp y' - Real.exp y'| ≤ Real.exp y' / 2 ^ 53 := by
          have := (hc.exp y').error
          rw [abs_sub_comm, abs_of_pos (Real.exp_pos y')] at this
          refine this.trans_eq ?_
          rw [zpow_neg]; norm_num; ring
        have e3 : Real.exp y' ≤ 2 * Real.exp y := by
          have := (abs_le.1 e1).2
          nlinarith
        have e4 := abs_add_le (c.exp y' - Real.exp y') (Real.exp y' - Real.exp y)
        rw [sub_add_sub_cancel] at e4
        have e5 : |c.exp y' - Real.exp y| ≤ Real.exp y * ((Λ + 1) / 2 ^ 48) := by
          have : Real.exp y * ((Λ + 1) / 2 ^ 48) = Real.exp y * (2 * ε) + Real.exp y / 2 ^ 48 := by rw [hε]; ring
          rw [this]
          have : Real.exp y' / 2 ^ 53 ≤ Real.exp y / 2 ^ 48 := by
            calc Real.exp y' / 2 ^ 53 ≤ 2 * Real.exp y / 2 ^ 53 := by gcongr
              _ = Real.exp y / 2 ^ 52 := by ring
              _ ≤ _ := by gcongr <;> norm_num
          linarith
        refine e5.trans ?_
        rw [mul_div_assoc]
        exact mul_le_mul_of_nonneg_right w2 (by positivity)

theorem threshold_within {N j : Nat} (hj : j ≤ N) : 0 ≤ threshold (K := ℝ) N j ∧ threshold (K := ℝ) N j ≤ 1 := by
  unfold threshold
  have : (j : ℝ) ≤ N := by exact_mod_cast hj
  constructor
  · positivity
  · rw [div_le_one (by positivity)]; linarith

/-- corresponding conditions treat a configuration that is away from the thresholds alike -/
theorem contains_same (hc : CorrectlyRoundedExp c) (hwf : ConfigSpace.WF cs) (hpos : ∀ hp ∈ possible, hp ∈ cs) {cfg : Config ℝ} (hcfg : ConfigAway possible N cfg)
    {A A' : List (Cond ℝ)} (h : List.Forall₂ (CondNear (1 / 2 ^ 51) possible N) A A') :
    @containsAllM ℝ (roundedMachine c sum) cs A' cfg = containsAll cs A cfg := by
  let M : Machine ℝ := roundedMachine c sum
  induction h with
  | nil => rfl
  | @cons a a' A A' ha _ ih =>
    obtain ⟨hp, hm, j, t, b, j1, j2, rfl, rfl, t0, t1, hnear⟩ := ha
    obtain ⟨l, u, g, x, hb, hlu, hg, hx, haway⟩ := hcfg hp hm
    obtain ⟨e1, w, e2, e3⟩ := unscale_near (c := c) (sum := sum) hc hwf (hpos hp hm) hb hlu hg (threshold_within j2) ⟨t0.le, t1.le⟩ hnear
    have h5 := haway j j1 j2
    have hiff : x ≤ w ↔ x ≤ onAxis l u g (threshold N j) := by
      rw [abs_le] at e3
      rw [lt_abs] at h5
      rcases h5 with h5 | h5
      · constructor <;> intro h <;> linarith
      · constructor <;> intro h <;> linarith
    have hsat : isSatisfiedM cs ⟨hp, .flt t, some b⟩ cfg = isSatisfied cs ⟨hp, .flt (threshold N j), some b⟩ cfg := by
      unfold isSatisfiedM isSatisfied condValueM condValue
      dsimp only
      rw [e1, e2]
      simp only [Py.map_ok, Py.ok_bind]
      rw [hx]
      cases b
      · simp only [compareFloatM, compareFloat, Machine.lt, M, ← not_le, hiff]
        rfl
      · simp only [compareFloatM, compareFloat, Machine.le, M, hiff, if_true]
    unfold containsAllM containsAll
    rw [hsat, ih]

/-- **C161** and a configuration whose values are not too near to a threshold (on linear and on logarithmic axes) belongs to the corresponding leaf:
`get_incumbent_region` returns the same region for both. -/
theorem C161_incumbent (hc : CorrectlyRoundedExp c) (hs : SumsUp c.fl sum) {p : DT ℝ} (hv : ValidDT P p) (hN : p.numSplits + 2 ≤ 2 ^ 51)
    (hnP : (curves p.root).length * P ≤ 2 ^ 50) {B : ℝ} (hB : ∀ r ∈ p.root.v, ∀ x ∈ r, |x| ≤ B)
    (hfar : AwayFromThresholds (1 / 2 ^ 51) p.cfg.space p.possible p.numSplits (curves p.root)) {d : Int} (hd : 0 < d) {leaves : List (Node ℝ)}
    (hclear : ClearTree p.cfg.space p.possible p.numSplits p.minPoints P (30 * ((curves p.root).length * P) * B ^ 2 * (2 : ℝ) ^ (-52 : ℤ)) d p.root leaves)
    {cfg : Config ℝ} (hcfg : ConfigAway p.possible p.numSplits cfg) :
    ∃ m m', dtIncumbentRegion (dtPartition p d).1 cfg = .ok (some m) ∧
      @dtIncumbentRegionM ℝ (roundedMachine c sum) (@dtPartitionM ℝ (roundedMachine c sum) p d).1 cfg = .ok (some m') ∧
      SameRegion (1 / 2 ^ 51) p.possible p.numSplits m m' := by
  let M : Machine ℝ := roundedMachine c sum
  obtain ⟨h1, leaves', h2, -, h3⟩ := C161_tree hc hs hv hN hnP hB hfar hd hclear
  have hnum : ∀ hp ∈ p.possible, hp.isNumerical = true := by
    intro hp hm
    obtain ⟨l, u, g, x, hb, -⟩ := hcfg hp hm
    simp [Hp.isNumerical, hb]
  obtain ⟨L, i, m, k1, k2, k3, k4⟩ := C57_exactly_one_leaf hv hnum hd (cfg := cfg) fun hp hm => by
    obtain ⟨l, u, g, x, -, -, -, hx, -⟩ := hcfg hp hm
    exact ⟨x, hx⟩
  have hnumber : ∀ x : ℝ, IsNum x := fun x => by simp [IsNum, Machine.le, M]
  obtain ⟨L', i', m', k1', k2', k3', k4'⟩ := C134_one_leaf (rounded_comparable c sum) hv hd (cfg := cfg) (fun hp hm => by
    obtain ⟨l, u, g, x, -, -, -, hx, -⟩ := hcfg hp hm
    exact ⟨x, hx, hnumber x⟩) (fun hp hm t _ => by
    obtain ⟨l, u, g, x, hb, -⟩ := hcfg hp hm
    have hbd : hp.bounds = .ok (l, u, g) := by rw [Hp.bounds, hb]
    unfold unscaleFloatM
    rw [ConfigSpace.get_of_mem hv.wf (hv.possible_mem hp hm), Py.ok_bind, hbd, Py.ok_bind]
    cases g
    · exact ⟨_, rfl, hnumber _⟩
    · exact ⟨_, rfl, hnumber _⟩)
  rw [h1] at k1
  rw [h2] at k1'
  obtain rfl := Except.ok.inj k1
  obtain rfl := Except.ok.inj k1'
  refine ⟨m, m', k4, k4', ?_⟩
  obtain ⟨hi, rfl⟩ := List.getElem?_eq_some_iff.1 k2
  have hlen := h3.length_eq
  have hrel := h3.get hi (by omega : i < leaves'.length)
  simp only [List.get_eq_getElem] at hrel
  have e1 := k3 i _ k2
  have e2 := k3' i _ (List.getElem?_eq_getElem (by omega : i < leaves'.length))
  rw [contains_same hc hv.wf hv.possible_mem hcfg hrel.conds, e1] at e2
  have : i = i' := by simpa using e2
  subst this
  rw [List.getElem?_eq_getElem (by omega : i < leaves'.length)] at k2'
  obtain rfl := Option.some.inj k2'
  exact hrel

end tree

/-! ### a concrete case -/

section ex

private def rtA : Hp ℝ := ⟨"a", .float 0 1 false⟩
private def rtB : Hp ℝ := ⟨"b", .float 0 1 false⟩
private def rtCurve (b v : ℝ) : Curve ℝ := ([[0, b]], [0], [v])
private noncomputable def rtRoot : Node ℝ := ⟨0, [[[0, 1/8]], [[0, 3/8]], [[0, 7/8]], [[0, 1]]], [[0], [0], [0], [0]], [[1], [1], [4], [4]], []⟩
private noncomputable def rtLower : Node ℝ := ⟨1, [[[0, 1/8]], [[0, 3/8]]], [[0], [0]], [[1], [1]], [⟨rtB, .flt (threshold 3 2), some true⟩]⟩
private noncomputable def rtUpper : Node ℝ := ⟨1, [[[0, 7/8]], [[0, 1]]], [[0], [0]], [[4], [4]], [⟨rtB, .flt (threshold 3 2), some false⟩]⟩

private theorem rt_curves : curves rtRoot = [rtCurve (1/8) 1, rtCurve (3/8) 1, rtCurve (7/8) 4, rtCurve 1 4] ∧
    curves rtLower = [rtCurve (1/8) 1, rtCurve (3/8) 1] ∧ curves rtUpper = [rtCurve (7/8) 4, rtCurve 1 4] := ⟨rfl, rfl, rfl⟩

private theorem rt_feature (b v : ℝ) : featureOf 1 (rtCurve b v) = b := rfl

private theorem rt_parts :
    (lowerPart 1 (threshold 3 1) (curves rtRoot) = [rtCurve (1/8) 1] ∧ upperPart 1 (threshold 3 1) (curves rtRoot) = [rtCurve (3/8) 1, rtCurve (7/8) 4, rtCurve 1 4]) ∧
    (lowerPart 1 (threshold 3 2) (curves rtRoot) = curves rtLower ∧ upperPart 1 (threshold 3 2) (curves rtRoot) = curves rtUpper) ∧
    (lowerPart 1 (threshold 3 3) (curves rtRoot) = curves rtLower ∧ upperPart 1 (threshold 3 3) (curves rtRoot) = curves rtUpper) := by
  rw [rt_curves.1, rt_curves.2.1, rt_curves.2.2]
  refine ⟨⟨?_, ?_⟩, ⟨?_, ?_⟩, ⟨?_, ?_⟩⟩ <;> norm_num [lowerPart, upperPart, rt_feature, threshold, List.filter_cons]

private theorem rt_cost : splitCost 1 3 (curves rtRoot) 1 1 = 6 ∧ splitCost 1 3 (curves rtRoot) 1 2 = 0 ∧ splitCost 1 3 (curves rtRoot) 1 3 = 0 := by
  obtain ⟨⟨a1, a2⟩, ⟨b1, b2⟩, c1, c2⟩ := rt_parts
  unfold splitCost
  rw [a1, a2, b1, b2, c1, c2, rt_curves.2.1, rt_curves.2.2]
  norm_num [curveLoss, meanVar, rtCurve]

private theorem rt_wf : ConfigSpace.WF [rtA, rtB] := by simp [ConfigSpace.WF, rtA, rtB]

private theorem rt_idx : ConfigSpace.idx [rtA, rtB] rtB.name = .ok 1 := rfl

private theorem rt_candidates {i j : Nat} {hp : Hp ℝ} {f : Nat} (h : IsCandidate [rtA, rtB] [rtB] 3 1 (curves rtRoot) i j hp f) :
    i = 0 ∧ hp = rtB ∧ f = 1 ∧ (j = 1 ∨ j = 2 ∨ j = 3) := by
  obtain ⟨h1, h2, h3, h4, -, -⟩ := h
  have hi : i = 0 := by
    have := (List.getElem?_eq_some_iff.1 h1).1
    simpa using this
  subst hi
  obtain rfl : rtB = hp := by simpa using h1
  rw [isFeature_idx rt_wf] at h2
  obtain rfl : 1 = f := Except.ok.inj (rt_idx.symm.trans h2)
  exact ⟨rfl, rfl, rfl, by omega⟩

/-- The first of three thresholds costs 6, the other two cost nothing and separate the curves alike. -/
private theorem rt_clear : ClearTree [rtA, rtB] [rtB] 3 1 1 (30 * ((curves rtRoot).length * (1 : Nat)) * 4 ^ 2 * (2 : ℝ) ^ (-52 : ℤ)) 1 rtRoot [rtUpper, rtLower] := by
  obtain ⟨⟨a1, a2⟩, ⟨b1, b2⟩, c1, c2⟩ := rt_parts
  obtain ⟨k1, k2, k3⟩ := rt_cost
  have shr : RegionShape 1 2 rtRoot := ⟨le_rfl, rfl, rfl, by simp [rtRoot], by simp [rtRoot], by simp [rtRoot]⟩
  have shl : RegionShape 1 2 rtLower := ⟨le_rfl, rfl, rfl, by simp [rtLower], by simp [rtLower], by simp [rtLower]⟩
  have shu : RegionShape 1 2 rtUpper := ⟨le_rfl, rfl, rfl, by simp [rtUpper], by simp [rtUpper], by simp [rtUpper]⟩
  refine .branch (i := 0) (j := 2) (hp := rtB) (f := 1) shr (by simp [rtRoot]) (by rw [rt_curves.1]; simp) ⟨⟨⟨rfl, (isFeature_idx rt_wf).2 rt_idx, by decide, by decide, ?_, ?_⟩, ?_⟩, ?_⟩ ?_
    (.leaf shl (.inl (by simp [rtLower]))) (.leaf shu (.inl (by simp [rtUpper]))) (Ll := [rtLower]) (Lr := [rtUpper])
  · rw [b1, rt_curves.2.1]; simp
  · rw [b2, rt_curves.2.2]; simp
  · intro i j hp f hc
    obtain ⟨rfl, rfl, rfl, rfl | rfl | rfl⟩ := rt_candidates hc
    · rw [k1, k2]; norm_num
    · simp
    · rw [k2, k3]; norm_num
  · intro i j hp f hc
    obtain ⟨rfl, rfl, rfl, rfl | rfl | rfl⟩ := rt_candidates hc
    · right
      rw [k1, k2, rt_curves.1, zpow_neg]; norm_num
    · left; simp
    · left
      rw [rt_curves.1]
      intro q hq
      simp only [List.mem_cons, List.not_mem_nil, or_false] at hq
      rcases hq with rfl | rfl | rfl | rfl <;> norm_num [rt_feature, threshold]
  · exact ⟨b1.symm, b2.symm, rfl, rfl, rfl, rfl⟩

private noncomputable def rtTree (cfg : IceCfg ℝ) (ice : IceState ℝ) : DT ℝ := ⟨{ cfg with space := [rtA, rtB] }, [rtB], 3, 1, ice, rtRoot, []⟩

/-- two curves with the variance 1 and two with the variance 4: computed with doubles, the tree has the same two leaves -/
example {c : ComputedExp} (hc : CorrectlyRoundedExp c) {sum : List ℝ → ℝ} (hs : SumsUp c.fl sum) (cfg : IceCfg ℝ) (ice : IceState ℝ) :
    ∃ l u, (@dtPartitionM ℝ (roundedMachine c sum) (rtTree cfg ice) 1).2 = .ok [u, l] ∧ l.x = rtLower.x ∧ u.x = rtUpper.x := by
  have hfar : AwayFromThresholds (1 / 2 ^ 51) [rtA, rtB] [rtB] 3 (curves rtRoot) := by
    intro q hq hp hhp f hf j j1 j2
    obtain rfl := List.mem_singleton.1 hhp
    rw [isFeature_idx rt_wf] at hf
    obtain rfl : 1 = f := Except.ok.inj (rt_idx.symm.trans hf)
    rw [rt_curves.1] at hq
    simp only [List.mem_cons, List.not_mem_nil, or_false] at hq
    have hj : j = 1 ∨ j = 2 ∨ j = 3 := by omega
    rcases hq with rfl | rfl | rfl | rfl <;> rcases hj with rfl | rfl | rfl <;> rw [rt_feature] <;> norm_num [threshold, abs_of_pos, abs_of_neg]
  obtain ⟨-, L, h1, -, h2⟩ := C161_tree hc hs (p := rtTree cfg ice) (P := 1) (B := 4)
    ⟨rt_wf, by simp [rtTree], ⟨le_rfl, rfl, rfl, by simp [rtTree, rtRoot], by simp [rtTree, rtRoot], by simp [rtTree, rtRoot]⟩, rfl, rfl⟩ (by norm_num [rtTree])
    (by show (curves rtRoot).length * 1 ≤ _; rw [rt_curves.1]; norm_num) (by simp [rtTree, rtRoot]) hfar (d := 1) one_pos rt_clear
  cases h2 with
  | cons a t => cases t with
    | cons b t => cases t with
      | nil => exact ⟨_, _, h1, b.x, a.x⟩

end ex

end PyPDP
