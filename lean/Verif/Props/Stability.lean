/-
C160: small errors of the variances do not change a tree whose splits were clearly the best.
-/
import Verif.Props.TreeInvariance
import Verif.Spec.Stability

namespace PyPDP
open Spec
variable {K : Type}

section core
variable [Field K] [LinearOrder K] [IsStrictOrderedRing K]

/-- the second curve runs through the same points, its variances differ by at most `ε`; those of the first one are between 0 and `V` -/
structure NearVar (ε V : K) (c c' : Curve K) : Prop where
  rows : c'.1 = c.1
  len : c'.2.2.length = c.2.2.length
  nonneg : ∀ p, 0 ≤ c.2.2.getD p 0
  le : ∀ p, c.2.2.getD p 0 ≤ V
  near : ∀ p, |c'.2.2.getD p 0 - c.2.2.getD p 0| ≤ ε

omit [Field K] [LinearOrder K] [IsStrictOrderedRing K] in
theorem forall₂_left {α β : Type} {Q : α → β → Prop} {L : List α} {L' : List β} (h : List.Forall₂ Q L L') : ∀ a ∈ L, ∃ b ∈ L', Q a b := by
  induction h with
  | nil => intro a ha; cases ha
  | @cons d d' l l' hd _ ih =>
    intro a ha
    rcases List.mem_cons.1 ha with rfl | ha
    · exact ⟨d', by simp, hd⟩
    · obtain ⟨c', h1, h2⟩ := ih a ha
      exact ⟨c', by simp [h1], h2⟩

theorem sum_near {ε : K} {A B : List K} (h : List.Forall₂ (fun a b => |b - a| ≤ ε) A B) : |B.sum - A.sum| ≤ A.length * ε := by
  induction h with
  | nil => simp
  | @cons a b l l' hab _ ih =>
    rw [List.sum_cons, List.sum_cons, List.length_cons, show b + l'.sum - (a + l.sum) = (b - a) + (l'.sum - l.sum) by ring]
    refine (abs_add_le _ _).trans ?_
    push_cast
    linarith

theorem mean_near {ε : K} (hε : 0 ≤ ε) {A B : List K} (h : List.Forall₂ (fun a b => |b - a| ≤ ε) A B) :
    |B.sum / (B.length : K) - A.sum / (A.length : K)| ≤ ε := by
  rw [← h.length_eq, ← sub_div, abs_div, Nat.abs_cast]
  rcases Nat.eq_zero_or_pos A.length with h0 | h0
  · rw [h0]; simpa using hε
  · rw [div_le_iff₀ (by exact_mod_cast h0), mul_comm]
    exact sum_near h

theorem mean_between {V : K} (hV : 0 ≤ V) {A : List K} (h : ∀ a ∈ A, 0 ≤ a ∧ a ≤ V) : 0 ≤ A.sum / (A.length : K) ∧ A.sum / (A.length : K) ≤ V := by
  have h1 : 0 ≤ A.sum := List.sum_nonneg fun a ha => (h a ha).1
  refine ⟨div_nonneg h1 (Nat.cast_nonneg _), ?_⟩
  rcases Nat.eq_zero_or_pos A.length with h0 | h0
  · rw [h0]; simpa using hV
  · rw [div_le_iff₀ (by exact_mod_cast h0), mul_comm]
    have := List.sum_le_card_nsmul A V fun a ha => (h a ha).2
    rwa [nsmul_eq_mul] at this

theorem squares_near {ε V mA mB : K} (hε : 0 ≤ ε) (hA : 0 ≤ mA ∧ mA ≤ V) (hB : |mB - mA| ≤ ε) {A B : List K}
    (h : List.Forall₂ (fun a b => (0 ≤ a ∧ a ≤ V) ∧ |b - a| ≤ ε) A B) :
    |(B.map fun b => (b - mB) ^ 2).sum - (A.map fun a => (a - mA) ^ 2).sum| ≤ A.length * (4 * ε * (V + ε)) := by
  induction h with
  | nil => simp
  | @cons a b l l' hab _ ih =>
    simp only [List.map_cons, List.sum_cons, List.length_cons]
    rw [show ∀ x y z w : K, x + y - (z + w) = (x - z) + (y - w) from fun x y z w => by ring]
    refine (abs_add_le _ _).trans ?_
    have : |(b - mB) ^ 2 - (a - mA) ^ 2| ≤ 4 * ε * (V + ε) := by
      rw [show (b - mB) ^ 2 - (a - mA) ^ 2 = ((b - a) - (mB - mA)) * (2 * (a - mA) + ((b - a) - (mB - mA))) by ring, abs_mul]
      have e1 : |(b - a) - (mB - mA)| ≤ 2 * ε := (abs_sub _ _).trans (by linarith [hab.2])
      have e2 : |2 * (a - mA)| ≤ 2 * V := by
        rw [abs_le]
        constructor <;> linarith [hab.1.1, hab.1.2, hA.1, hA.2]
      have e3 : |2 * (a - mA) + ((b - a) - (mB - mA))| ≤ 2 * V + 2 * ε := (abs_add_le _ _).trans (by linarith)
      calc _ ≤ (2 * ε) * (2 * V + 2 * ε) := mul_le_mul e1 e3 (abs_nonneg _) (by linarith)
        _ = _ := by ring
    push_cast
    linarith

variable {P : Nat} {ε V : K} {space possible : List (Hp K)} {N minPoints : Nat}

theorem curveLoss_near (hV : 0 ≤ V) (hε : 0 ≤ ε) {L L' : List (Curve K)} (h : List.Forall₂ (NearVar ε V) L L') :
    |curveLoss P L' - curveLoss P L| ≤ P * L.length * (4 * ε * (V + ε)) := by
  unfold curveLoss
  rw [← Finset.sum_sub_distrib]
  refine (Finset.abs_sum_le_sum_abs _ _).trans ?_
  rw [show (P : K) * L.length * (4 * ε * (V + ε)) = ∑ _p ∈ Finset.range P, (L.length : K) * (4 * ε * (V + ε)) by
    rw [Finset.sum_const, Finset.card_range, nsmul_eq_mul, mul_assoc]]
  refine Finset.sum_le_sum fun p _ => ?_
  have hAB : List.Forall₂ (fun a b => (0 ≤ a ∧ a ≤ V) ∧ |b - a| ≤ ε) (L.map fun c => c.2.2.getD p 0) (L'.map fun c => c.2.2.getD p 0) := by
    rw [List.forall₂_map_left_iff, List.forall₂_map_right_iff]
    exact h.imp fun c c' hc => ⟨⟨hc.nonneg p, hc.le p⟩, hc.near p⟩
  have hb : ∀ a ∈ L.map fun c => c.2.2.getD p 0, 0 ≤ a ∧ a ≤ V := by
    intro a ha
    obtain ⟨c, hc, rfl⟩ := List.mem_map.1 ha
    obtain ⟨c', -, hcc⟩ := forall₂_left h c hc
    exact ⟨hcc.nonneg p, hcc.le p⟩
  have hm : |meanVar p L' - meanVar p L| ≤ ε := by
    have := mean_near hε (hAB.imp fun a b hab => hab.2)
    rwa [List.length_map, List.length_map] at this
  have hm2 : 0 ≤ meanVar p L ∧ meanVar p L ≤ V := by
    have := mean_between hV hb
    rwa [List.length_map] at this
  have := squares_near hε hm2 hm hAB
  rwa [List.map_map, List.map_map, List.length_map] at this

omit [IsStrictOrderedRing K] in
theorem near_lower (f : Nat) (t : K) {L L' : List (Curve K)} (h : List.Forall₂ (NearVar ε V) L L') :
    List.Forall₂ (NearVar ε V) (lowerPart f t L) (lowerPart f t L') := related_filter h fun c c' hc => by unfold featureOf; rw [hc.rows]

omit [IsStrictOrderedRing K] in
theorem near_upper (f : Nat) (t : K) {L L' : List (Curve K)} (h : List.Forall₂ (NearVar ε V) L L') :
    List.Forall₂ (NearVar ε V) (upperPart f t L) (upperPart f t L') := related_filter h fun c c' hc => by unfold featureOf; rw [hc.rows]

omit [IsStrictOrderedRing K] in
theorem near_parts_length (f : Nat) (t : K) (L : List (Curve K)) : (lowerPart f t L).length + (upperPart f t L).length = L.length := by
  induction L with
  | nil => rfl
  | cons c L ih =>
    unfold lowerPart upperPart at ih ⊢
    rw [List.filter_cons, List.filter_cons]
    by_cases h : featureOf f c ≤ t
    · have h' : ¬ t < featureOf f c := not_lt.2 h
      simp [h, h'] at ih ⊢
      omega
    · have h' : t < featureOf f c := not_le.1 h
      simp [h, h'] at ih ⊢
      omega

theorem splitCost_near (hV : 0 ≤ V) (hε : 0 ≤ ε) {L L' : List (Curve K)} (h : List.Forall₂ (NearVar ε V) L L') (f j : Nat) :
    |splitCost P N L' f j - splitCost P N L f j| ≤ P * L.length * (4 * ε * (V + ε)) := by
  unfold splitCost
  have h1 := curveLoss_near (P := P) hV hε (near_lower f (threshold N j) h)
  have h2 := curveLoss_near (P := P) hV hε (near_upper f (threshold N j) h)
  have h3 := near_parts_length f (threshold N j) L
  rw [show ∀ x y z w : K, x + y - (z + w) = (x - z) + (y - w) from fun x y z w => by ring]
  refine (abs_add_le _ _).trans ((add_le_add h1 h2).trans_eq ?_)
  rw [← h3]
  push_cast
  ring

omit [IsStrictOrderedRing K] in
theorem near_cand {L L' : List (Curve K)} (h : List.Forall₂ (NearVar ε V) L L') {i j : Nat} {hp : Hp K} {f : Nat} :
    IsCandidate space possible N minPoints L' i j hp f ↔ IsCandidate space possible N minPoints L i j hp f := by
  have h1 := (near_lower f (threshold N j) h).length_eq
  have h2 := (near_upper f (threshold N j) h).length_eq
  constructor
  · rintro ⟨a, b, c, d, e, g⟩; exact ⟨a, b, c, d, by rw [h1]; exact e, by rw [h2]; exact g⟩
  · rintro ⟨a, b, c, d, e, g⟩; exact ⟨a, b, c, d, by rw [← h1]; exact e, by rw [← h2]; exact g⟩

omit [IsStrictOrderedRing K] in
theorem same_sides {L : List (Curve K)} {f f' j j' : Nat} (h : ∀ c ∈ L, featureOf f' c ≤ threshold N j' ↔ featureOf f c ≤ threshold N j) :
    splitCost P N L f' j' = splitCost P N L f j := by
  have h1 : lowerPart f' (threshold N j') L = lowerPart f (threshold N j) L := List.filter_congr fun c hc => by simp [h c hc]
  have h2 : upperPart f' (threshold N j') L = upperPart f (threshold N j) L := List.filter_congr fun c hc => by
    have := h c hc
    simp only [← not_le, this]
  unfold splitCost
  rw [h1, h2]

/-- what was clearly the best is the best of the other curves -/
theorem near_best (hV : 0 ≤ V) (hε : 0 ≤ ε) {L L' : List (Curve K)} (h : List.Forall₂ (NearVar ε V) L L') {i j : Nat} {hp : Hp K} {f : Nat}
    (hb : IsClearlyBest space possible N minPoints P (4 * ε * (V + ε)) L i j hp f) : IsBestCandidate space possible N minPoints P L' i j hp f := by
  refine ⟨(near_cand h).2 hb.best.1, fun i' j' hp' f' hc => ?_⟩
  have hc := (near_cand h).1 hc
  rcases hb.gap i' j' hp' f' hc with hg | hg
  · have e1 : splitCost P N L' f' j' = splitCost P N L' f j := by
      apply same_sides
      intro c' hc'
      obtain ⟨c, hcm, hcc⟩ := forall₂_left h.flip c' hc'
      have := hg c hcm
      unfold featureOf at this ⊢
      rw [hcc.rows]
      exact this
    have e2 := same_sides (P := P) hg
    rw [e1]
    exact ⟨le_rfl, fun _ => (hb.best.2 i' j' hp' f' hc).2 e2.symm⟩
  · have h1 := abs_le.1 (splitCost_near (P := P) (N := N) hV hε h f j)
    have h2 := abs_le.1 (splitCost_near (P := P) (N := N) hV hε h f' j')
    have : splitCost P N L' f j < splitCost P N L' f' j' := by linarith [h1.2, h2.1]
    exact ⟨this.le, fun e => absurd e this.ne⟩

omit [IsStrictOrderedRing K] in
theorem Spec.ClearTree.greedy {δ : K} {d : Int} {n : Node K} {L : List (Node K)} (h : ClearTree space possible N minPoints P δ d n L) :
    Greedy space possible N minPoints P d n L := by
  induction h with
  | leaf h1 h2 => exact .leaf h1 h2
  | branch h1 h2 h3 h4 h5 _ _ ih1 ih2 => exact .branch h1 h2 h3 h4.best h5 ih1 ih2

theorem near_greedy (hV : 0 ≤ V) (hε : 0 ≤ ε) (hwf : ConfigSpace.WF space) {d : Int} {n : Node K} {L : List (Node K)}
    (hg : ClearTree space possible N minPoints P (4 * ε * (V + ε)) d n L) :
    ∀ {n' : Node K} {L' : List (Node K)}, Greedy space possible N minPoints P d n' L' → SameCut (List.Forall₂ (NearVar ε V)) n n' →
      List.Forall₂ (SameCut (List.Forall₂ (NearVar ε V))) L L' := by
  induction hg with
  | @leaf n hn hs =>
    intro n' L' hg' hc
    cases hg' with
    | leaf _ _ => exact .cons hc .nil
    | @branch _ l r Ll Lr i j hp f _ h1 h2 h3 _ _ _ =>
      exfalso
      rw [hc.depth] at h1
      rw [← hc.curves.length_eq] at h2
      rcases hs with hs | hs | hs
      · omega
      · omega
      · exact hs _ _ _ _ ((near_cand hc.curves).1 h3.1)
  | @branch n l r Ll Lr i j hp f hn h1 h2 h3 hsp hgl hgr ih1 ih2 =>
    intro n' L' hg' hc
    cases hg' with
    | leaf _ hs =>
      exfalso
      rw [hc.depth, ← hc.curves.length_eq] at hs
      rcases hs with hs | hs | hs
      · omega
      · omega
      · exact hs _ _ _ _ ((near_cand hc.curves).2 h3.best.1)
    | @branch _ l' r' Ll' Lr' i' j' hp' f' _ _ _ h3' hsp' hgl' hgr' =>
      obtain ⟨rfl, rfl, rfl, rfl⟩ := best_unique hwf (near_best hV hε hc.curves h3) h3'
      refine List.rel_append (ih2 hgr' ⟨?_, ?_, ?_⟩) (ih1 hgl' ⟨?_, ?_, ?_⟩)
      · rw [hsp'.right_depth, hsp.right_depth, hc.depth]
      · rw [hsp'.right_conds, hsp.right_conds, hc.conds]
      · rw [hsp'.right_curves, hsp.right_curves]; exact near_upper f (threshold N j) hc.curves
      · rw [hsp'.left_depth, hsp.left_depth, hc.depth]
      · rw [hsp'.left_conds, hsp.left_conds, hc.conds]
      · rw [hsp'.left_curves, hsp.left_curves]; exact near_lower f (threshold N j) hc.curves

theorem indist_eq : Indist P (1 : K) (fun L L' => L' = L) where
  pos := one_pos
  len h := by rw [h]
  lower _ _ h := by rw [h]
  upper _ _ h := by rw [h]
  loss h := by rw [h, one_mul]

/-- there is only one greedily grown tree -/
theorem greedy_unique (hwf : ConfigSpace.WF space) {d : Int} {n : Node K} {L L' : List (Node K)} (h : Greedy space possible N minPoints P d n L)
    (h' : Greedy space possible N minPoints P d n L') : L = L' := by
  have := forall₂_mem (indist_eq.greedy hwf h h' ⟨rfl, rfl, rfl⟩) (S := fun m m' => m = m') fun m m' hm hm' hc => by
    have s1 := h.shapes m hm
    have s2 := h'.shapes m' hm'
    have hx := s2.map_x
    have hy := s2.map_y
    have hv := s2.map_v
    rw [hc.curves] at hx hy hv
    rw [s1.map_x] at hx
    rw [s1.map_y] at hy
    rw [s1.map_v] at hv
    cases m
    cases m'
    obtain ⟨hd, hcond, -⟩ := hc
    simp_all
  exact List.forall₂_eq_eq_eq ▸ this

end core

section trees
variable [Field K] [LinearOrder K] [IsStrictOrderedRing K]

/-- **C160** Another surrogate on the same samples, whose variances differ by at most `ε` from those of the first one, which are at most `V`. If every split of
the first tree was the best by more than `8 ε (V + ε)` per curve and grid point of its region, the second tree has the same leaves in the same order, cut out by
the same conditions and holding the same rows; the variances of the leaves differ by at most `ε`, their losses by at most `4 ε (V + ε)` per curve and grid point. -/
theorem C160_stable [Transc K] {space : ConfigSpace K} (hwf : space.WF) {predict predict' : Predict K} {mu sd mu' sd' : List K → K}
    (hp : RowWise space.length predict mu sd) (hp' : RowWise space.length predict' mu' sd') {ε V : K}
    (hsd : ∀ r : List K, r.length = space.length → sd r ^ 2 ≤ V ∧ |sd' r ^ 2 - sd r ^ 2| ≤ ε)
    {samples : List (List K)} (hrows : ∀ r ∈ samples, r.length = space.length) (hs : samples ≠ [])
    {sel : Selection K} {perAxis numSplits minPoints : Nat} (hg : 1 ≤ perAxis) {notSplittable : Option (Selection K)} {p : DT K}
    (h : dtInit space predict sel samples perAxis numSplits minPoints notSplittable = .ok p)
    (hmem : ∀ hp ∈ p.cfg.selected, hp ∈ space) (hd : (p.cfg.selected.map Hp.name).Nodup) (hne : p.cfg.selected ≠ []) {depth : Int} (hdep : 0 < depth)
    {leaves : List (Node K)} (hclear : ClearTree space p.possible numSplits minPoints (perAxis ^ p.cfg.selected.length) (4 * ε * (V + ε)) depth p.root leaves) :
    (dtPartition p depth).2 = .ok leaves ∧
    ∃ p' leaves', dtInit space predict' sel samples perAxis numSplits minPoints notSplittable = .ok p' ∧ (dtPartition p' depth).2 = .ok leaves' ∧
      List.Forall₂ (fun m m' => m'.depth = m.depth ∧ m'.conds = m.conds ∧ m'.x = m.x ∧
        List.Forall₂ (fun row row' => List.Forall₂ (fun v v' => |v' - v| ≤ ε) row row') m.v m'.v ∧
        |regionLoss m'.v - regionLoss m.v| ≤ ((perAxis ^ p.cfg.selected.length : Nat) : K) * m.x.length * (4 * ε * (V + ε))) leaves leaves' := by
  obtain ⟨p', P, idx, grid, h1, hv, hv', e0, e1, -, e2, e3, e4, -, -, -, c1, c2⟩ := tree_pair hwf hp hp' hrows hs hrows hs hg h hmem hd hne
  obtain ⟨c, ns, i, dd, -, -, -, -, -, e⟩ := dtInit_ok h
  have hns : p.numSplits = numSplits := by rw [e]
  have hmp : p.minPoints = minPoints := by rw [e]
  have hcroot : curves p.root ≠ [] := by
    rw [c1]
    simpa using hs
  have hshape : RegionShape (perAxis ^ p.cfg.selected.length) space.length p.root := by
    cases hclear with
    | leaf a _ => exact a
    | branch a _ _ _ _ _ _ => exact a
  obtain rfl : P = perAxis ^ p.cfg.selected.length := by
    obtain ⟨c, cs, hc⟩ := List.exists_cons_of_ne_nil hcroot
    have hx := hshape.map_x
    rw [hc, List.map_cons] at hx
    have hm : c.1 ∈ p.root.x := by rw [← hx]; simp
    rw [← (hshape.xs _ hm).1, (hv.shape.xs _ hm).1]
  have hrow0 : (List.replicate space.length (0 : K)).length = space.length := List.length_replicate
  have hV : 0 ≤ V := (sq_nonneg _).trans (hsd _ hrow0).1
  have hε : 0 ≤ ε := (abs_nonneg _).trans (hsd _ hrow0).2
  obtain ⟨L, g1, -, g3, -⟩ := partition_eq hv hdep
  obtain ⟨L', g2, -, g4, -⟩ := partition_eq hv' hdep
  rw [e1, e2, e3, e4, e0, hns, hmp] at g4
  rw [e0, hns, hmp] at g3
  have hrel : List.Forall₂ (NearVar ε V) (curves p.root) (curves p'.root) := by
    rw [c1, c2]
    clear c1 c2 hs h h1 hcroot
    induction samples with
    | nil => exact .nil
    | cons r rs ih =>
      refine .cons ?_ (ih fun r' hr' => hrows r' (by simp [hr']))
      have key : ∀ q : Nat, 0 ≤ (curveAt idx grid mu sd r).2.2.getD q 0 ∧ (curveAt idx grid mu sd r).2.2.getD q 0 ≤ V ∧
          |(curveAt idx grid mu' sd' r).2.2.getD q 0 - (curveAt idx grid mu sd r).2.2.getD q 0| ≤ ε := by
        intro q
        simp only [curveAt, List.getD_eq_getElem?_getD, List.getElem?_map]
        cases hq : grid[q]? with
        | none => simpa using ⟨hV, hε⟩
        | some t =>
          simp only [Option.map_some, Option.getD_some]
          have hl : (assignRow idx t r).length = space.length := by rw [assignRow_length]; exact hrows r (by simp)
          exact ⟨sq_nonneg _, hsd _ hl⟩
      exact ⟨rfl, by simp [curveAt], fun q => (key q).1, fun q => (key q).2.1, fun q => (key q).2.2⟩
  have hrel' : SameCut (List.Forall₂ (NearVar ε V)) p.root p'.root := ⟨by rw [hv.depth, hv'.depth], by rw [hv.conds, hv'.conds], hrel⟩
  obtain rfl : leaves = L := greedy_unique hwf hclear.greedy g3
  refine ⟨by rw [g1], p', L', h1, by rw [g2], ?_⟩
  refine forall₂_mem (near_greedy hV hε hwf hclear g4 hrel') fun m m' hm hm' hc => ?_
  have s1 := g3.shapes m hm
  have s2 := g4.shapes m' hm'
  refine ⟨hc.depth, hc.conds, ?_, ?_, ?_⟩
  · rw [← s1.map_x, ← s2.map_x]
    have := hc.curves
    generalize curves m = A at this
    generalize curves m' = B at this
    induction this with
    | nil => rfl
    | cons hab _ ih => rw [List.map_cons, List.map_cons, ih, hab.rows]
  · rw [← s1.map_v, ← s2.map_v, List.forall₂_map_left_iff, List.forall₂_map_right_iff]
    refine hc.curves.imp fun a b hab => ?_
    rw [List.forall₂_iff_get]
    refine ⟨hab.len.symm, fun q h1 h2 => ?_⟩
    have := hab.near q
    simpa [List.getD_eq_getElem?_getD, List.getElem?_eq_getElem h1, List.getElem?_eq_getElem h2] using this
  · rw [regionLoss_curves s1, regionLoss_curves s2, ← s1.curves_length]
    exact curveLoss_near hV hε hc.curves

/-- **C160** and every configuration belongs to the corresponding leaf: `get_incumbent_region` fails for both trees or for none, finds a region in both
or in none, and the two regions have the same conditions and hold the curves of the same rows. -/
theorem C160_incumbent [Transc K] {space : ConfigSpace K} (hwf : space.WF) {predict predict' : Predict K} {mu sd mu' sd' : List K → K}
    (hp : RowWise space.length predict mu sd) (hp' : RowWise space.length predict' mu' sd') {ε V : K}
    (hsd : ∀ r : List K, r.length = space.length → sd r ^ 2 ≤ V ∧ |sd' r ^ 2 - sd r ^ 2| ≤ ε)
    {samples : List (List K)} (hrows : ∀ r ∈ samples, r.length = space.length) (hs : samples ≠ [])
    {sel : Selection K} {perAxis numSplits minPoints : Nat} (hg : 1 ≤ perAxis) {notSplittable : Option (Selection K)} {p p' : DT K}
    (h : dtInit space predict sel samples perAxis numSplits minPoints notSplittable = .ok p)
    (h' : dtInit space predict' sel samples perAxis numSplits minPoints notSplittable = .ok p')
    (hmem : ∀ hp ∈ p.cfg.selected, hp ∈ space) (hd : (p.cfg.selected.map Hp.name).Nodup) (hne : p.cfg.selected ≠ []) {depth : Int} (hdep : 0 < depth)
    {leaves : List (Node K)} (hclear : ClearTree space p.possible numSplits minPoints (perAxis ^ p.cfg.selected.length) (4 * ε * (V + ε)) depth p.root leaves)
    (cfg : Config K) :
    (∀ e, dtIncumbentRegion (dtPartition p depth).1 cfg = .error e ↔ dtIncumbentRegion (dtPartition p' depth).1 cfg = .error e) ∧
    (dtIncumbentRegion (dtPartition p depth).1 cfg = .ok none ↔ dtIncumbentRegion (dtPartition p' depth).1 cfg = .ok none) ∧
    (∀ m, dtIncumbentRegion (dtPartition p depth).1 cfg = .ok (some m) →
      ∃ m', dtIncumbentRegion (dtPartition p' depth).1 cfg = .ok (some m') ∧ m'.conds = m.conds ∧ (curves m').map Prod.fst = (curves m).map Prod.fst) := by
  obtain ⟨g0, q', leaves', h1, g1, g2⟩ := C160_stable hwf hp hp' hsd hrows hs hg h hmem hd hne hdep hclear
  rw [h'] at h1
  obtain rfl := Except.ok.inj h1
  obtain ⟨q', P, idx, grid, h1, hv, hv', -, e1, -⟩ := tree_pair hwf hp hp' hrows hs hrows hs hg h hmem hd hne
  rw [h'] at h1
  obtain rfl := Except.ok.inj h1
  obtain ⟨L, k1, -, k3, -⟩ := partition_eq hv hdep
  obtain ⟨L', k2, -, k4, -⟩ := partition_eq hv' hdep
  rw [k1] at g0
  rw [k2] at g1
  obtain rfl := Except.ok.inj g0
  obtain rfl := Except.ok.inj g1
  rw [k1, k2]
  obtain ⟨r1, r2, r3⟩ := incumbent_related (R := fun A B => B.map Prod.fst = A.map Prod.fst) (p := { p with leaves := L }) (p' := { p' with leaves := L' }) e1
    (forall₂_mem g2 fun m m' hm hm' hc => ⟨hc.1, hc.2.1, by rw [(k3.shapes m hm).map_x, (k4.shapes m' hm').map_x, hc.2.2.1]⟩) cfg
  exact ⟨r1, r2, fun m hm => by obtain ⟨m', h1, h2⟩ := r3 m hm; exact ⟨m', h1, h2.conds, h2.curves⟩⟩

end trees

/-! ### a concrete case -/

section ex

local instance transcStability : Transc ℚ := ⟨id, id⟩

private def stPredict (e : ℚ) : Predict ℚ := fun X => .ok (X.map (fun _ => 0), X.map fun r => if r.getD 1 0 ≤ 1/2 then 1 else 2 + e)

private def stRoot : Node ℚ := ⟨0, invSamples.map fun r => [[0, r.getD 1 0], [1, r.getD 1 0]], List.replicate 4 [0, 0], [[1, 1], [4, 4], [1, 1], [4, 4]], []⟩

private def stLower : Node ℚ := ⟨1, [[[0, 1/8], [1, 1/8]], [[0, 3/8], [1, 3/8]]], List.replicate 2 [0, 0], [[1, 1], [1, 1]], [⟨⟨"b", .float 0 1 false⟩, .flt (1/2), some true⟩]⟩

private def stUpper : Node ℚ := ⟨1, [[[0, 7/8], [1, 7/8]], [[0, 1], [1, 1]]], List.replicate 2 [0, 0], [[4, 4], [4, 4]], [⟨⟨"b", .float 0 1 false⟩, .flt (1/2), some false⟩]⟩

/-- Two curves with variance 1 and two with variance 4, three thresholds. The second one separates them at no cost, the third one as well, the first one costs 12. The
next best one costs 12: an error of `ε = 1/50` changes the cost of a split by at most `2 * 4 * 4 * ε * (V + ε) < 6`. -/
private theorem st_clear : ClearTree invSpace [⟨"b", .float 0 1 false⟩] 3 1 2 (4 * (1/50) * (4 + 1/50)) 1 stRoot [stUpper, stLower] := by
  have hwf : ConfigSpace.WF invSpace := by decide
  have hshape : ∀ m ∈ [stRoot, stLower, stUpper], RegionShape 2 2 m := by
    intro m hm
    have : m = stRoot ∨ m = stLower ∨ m = stUpper := by simpa using hm
    rcases this with rfl | rfl | rfl <;>
      exact ⟨by decide, by decide, by decide, by decide +kernel, by decide +kernel, by decide +kernel⟩
  have hcand : ∀ i j hp f, IsCandidate invSpace [⟨"b", .float 0 1 false⟩] 3 1 (curves stRoot) i j hp f → i = 0 ∧ hp = ⟨"b", .float 0 1 false⟩ ∧ f = 1 ∧ (j = 1 ∨ j = 2 ∨ j = 3) := by
    rintro i j hp f ⟨h1, h2, h3, h4, -, -⟩
    have hi : i = 0 := by
      have := (List.getElem?_eq_some_iff.1 h1).1
      simpa using this
    subst hi
    obtain rfl : (⟨"b", .float 0 1 false⟩ : Hp ℚ) = hp := by simpa using h1
    rw [isFeature_idx hwf] at h2
    obtain rfl : 1 = f := Except.ok.inj ((by decide : ConfigSpace.idx invSpace "b" = .ok 1).symm.trans h2)
    exact ⟨rfl, rfl, rfl, by omega⟩
  have hcost : splitCost 2 3 (curves stRoot) 1 1 = 12 ∧ splitCost 2 3 (curves stRoot) 1 2 = 0 ∧ splitCost 2 3 (curves stRoot) 1 3 = 0 := by decide +kernel
  refine .branch (i := 0) (j := 2) (hp := ⟨"b", .float 0 1 false⟩) (f := 1) (hshape _ (by simp)) (by decide) (by decide) ⟨⟨⟨rfl, ?_, by decide, by decide, ?_, ?_⟩, ?_⟩, ?_⟩ ?_
    (.leaf (hshape _ (by simp)) (.inl (by decide))) (.leaf (hshape _ (by simp)) (.inl (by decide))) (Ll := [stLower]) (Lr := [stUpper])
  · rw [isFeature_idx hwf]; decide
  · decide +kernel
  · decide +kernel
  · intro i j hp f hc
    obtain ⟨rfl, rfl, rfl, rfl | rfl | rfl⟩ := hcand i j hp f hc
    · rw [hcost.1, hcost.2.1]; norm_num
    · simp
    · rw [hcost.2.2, hcost.2.1]; norm_num
  · intro i j hp f hc
    obtain ⟨rfl, rfl, rfl, rfl | rfl | rfl⟩ := hcand i j hp f hc
    · right
      rw [hcost.1, hcost.2.1, show (curves stRoot).length = 4 by decide +kernel]; norm_num
    · left; simp
    · left
      decide +kernel
  · exact ⟨by decide +kernel, by decide +kernel, rfl, rfl, by decide +kernel, by decide +kernel⟩

/-- the variances 1 and 4 against 1 and 4.01…: the same two leaves -/
example : ∃ p p' L', dtInit invSpace (stPredict 0) (.name "a") invSamples 2 3 1 none = .ok p ∧ dtInit invSpace (stPredict (1/300)) (.name "a") invSamples 2 3 1 none = .ok p' ∧
    (dtPartition p 1).2 = .ok [stUpper, stLower] ∧ (dtPartition p' 1).2 = .ok L' ∧ L'.map Node.conds = [stUpper.conds, stLower.conds] := by
  have hwf : ConfigSpace.WF invSpace := by decide
  have hrow : ∀ e : ℚ, RowWise 2 (stPredict e) (fun _ => 0) (fun r => if r.getD 1 0 ≤ 1/2 then 1 else 2 + e) := fun _ _ _ _ => rfl
  have hmap : (dtInit invSpace (stPredict 0) (.name "a") invSamples 2 3 1 none).map (fun p => (p.root, p.possible, p.cfg.selected)) =
      .ok (stRoot, [⟨"b", .float 0 1 false⟩], [⟨"a", .float 0 1 false⟩]) := by decide +kernel
  obtain ⟨p, hp, he⟩ := Py.map_eq_ok.1 hmap
  have hroot : p.root = stRoot ∧ p.possible = [⟨"b", .float 0 1 false⟩] ∧ p.cfg.selected = [⟨"a", .float 0 1 false⟩] := by
    obtain ⟨h1, h2⟩ := Prod.mk.inj he
    obtain ⟨h2, h3⟩ := Prod.mk.inj h2
    exact ⟨h1, h2, h3⟩
  obtain ⟨h1, p', L', h2, h3, h4⟩ := C160_stable hwf (hrow 0) (hrow (1/300)) (ε := 1/50) (V := 4) (by
    intro r _
    split_ifs <;> norm_num [abs_le]) (by decide) (by decide) (by decide) hp (by rw [hroot.2.2]; decide) (by rw [hroot.2.2]; decide) (by rw [hroot.2.2]; decide) (depth := 1) (by decide)
    (by rw [hroot.1, hroot.2.1, hroot.2.2]; exact st_clear)
  refine ⟨p, p', L', hp, h2, h1, h3, ?_⟩
  cases h4 with
  | cons a t => cases t with
    | cons b t => cases t with
      | nil => simp [a.2.1, b.2.1]

end ex

end PyPDP
