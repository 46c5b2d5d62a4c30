/-
C165: on a surrogate whose variance is a sum the tree is the regression tree of the component of the hyperparameters that are not selected.
-/
import Verif.Props.TreeInvariance
import Verif.Props.Additive
import Verif.Spec.AdditiveVariance

namespace PyPDP
open Spec
variable {K : Type}

section core
variable [Field K] [LinearOrder K] [IsStrictOrderedRing K]

/-- a relation between lists of curves with `P` and with `P'` grid points that no step of a tree over the hyperparameters `possible` can tell apart -/
structure IndistOver (space possible : List (Hp K)) (P P' : Nat) (s : K) (R : List (Curve K) → List (Curve K) → Prop) : Prop where
  pos : 0 < s
  len : ∀ {L L'}, R L L' → L'.length = L.length
  lower : ∀ {L L'} {hp : Hp K} {f : Nat} (t : K), hp ∈ possible → IsFeature space hp f → R L L' → R (lowerPart f t L) (lowerPart f t L')
  upper : ∀ {L L'} {hp : Hp K} {f : Nat} (t : K), hp ∈ possible → IsFeature space hp f → R L L' → R (upperPart f t L) (upperPart f t L')
  loss : ∀ {L L'}, R L L' → curveLoss P' L' = s * curveLoss P L

variable {P P' : Nat} {s : K} {R : List (Curve K) → List (Curve K) → Prop} {space possible : List (Hp K)} {N minPoints : Nat}

omit [IsStrictOrderedRing K] in
theorem IndistOver.cand (h : IndistOver space possible P P' s R) {L L' : List (Curve K)} (hR : R L L') {i j : Nat} {hp : Hp K} {f : Nat} :
    IsCandidate space possible N minPoints L' i j hp f ↔ IsCandidate space possible N minPoints L i j hp f := by
  constructor
  · rintro ⟨a, b, c, d, e, g⟩
    have hm := List.mem_of_getElem? a
    exact ⟨a, b, c, d, by rw [← h.len (h.lower _ hm b hR)]; exact e, by rw [← h.len (h.upper _ hm b hR)]; exact g⟩
  · rintro ⟨a, b, c, d, e, g⟩
    have hm := List.mem_of_getElem? a
    exact ⟨a, b, c, d, by rw [h.len (h.lower _ hm b hR)]; exact e, by rw [h.len (h.upper _ hm b hR)]; exact g⟩

omit [IsStrictOrderedRing K] in
theorem IndistOver.cost (h : IndistOver space possible P P' s R) {L L' : List (Curve K)} (hR : R L L') {i j : Nat} {hp : Hp K} {f : Nat}
    (hc : IsCandidate space possible N minPoints L i j hp f) : splitCost P' N L' f j = s * splitCost P N L f j := by
  have hm := List.mem_of_getElem? hc.hp_at
  unfold splitCost
  rw [h.loss (h.lower (threshold N j) hm hc.feature hR), h.loss (h.upper (threshold N j) hm hc.feature hR)]
  ring

theorem IndistOver.best (h : IndistOver space possible P P' s R) {L L' : List (Curve K)} (hR : R L L') {i j : Nat} {hp : Hp K} {f : Nat}
    (hb : IsBestCandidate space possible N minPoints P' L' i j hp f) : IsBestCandidate space possible N minPoints P L i j hp f := by
  have hc0 := (h.cand hR).1 hb.1
  refine ⟨hc0, fun i' j' hp' f' hc => ?_⟩
  have := hb.2 i' j' hp' f' ((h.cand hR).2 hc)
  rw [h.cost hR hc, h.cost hR hc0] at this
  exact ⟨le_of_mul_le_mul_left this.1 h.pos, fun e => this.2 (by rw [e])⟩

theorem IndistOver.greedy (h : IndistOver space possible P P' s R) (hwf : ConfigSpace.WF space) {d : Int} {n : Node K} {L : List (Node K)}
    (hg : Greedy space possible N minPoints P d n L) :
    ∀ {n' : Node K} {L' : List (Node K)}, Greedy space possible N minPoints P' d n' L' → SameCut R n n' → List.Forall₂ (SameCut R) L L' := by
  induction hg with
  | @leaf n hn hs =>
    intro n' L' hg' hc
    cases hg' with
    | leaf _ _ => exact .cons hc .nil
    | @branch _ l r Ll Lr i j hp f _ h1 h2 h3 _ _ _ =>
      exfalso
      rw [hc.depth] at h1
      rw [h.len hc.curves] at h2
      rcases hs with hs | hs | hs
      · omega
      · omega
      · exact hs _ _ _ _ (h.best hc.curves h3).1
  | @branch n l r Ll Lr i j hp f hn h1 h2 h3 hsp hgl hgr ih1 ih2 =>
    intro n' L' hg' hc
    cases hg' with
    | leaf _ hs =>
      exfalso
      rw [hc.depth, h.len hc.curves] at hs
      rcases hs with hs | hs | hs
      · omega
      · omega
      · exact hs _ _ _ _ ((h.cand hc.curves).2 h3.1)
    | @branch _ l' r' Ll' Lr' i' j' hp' f' _ _ _ h3' hsp' hgl' hgr' =>
      obtain ⟨rfl, rfl, rfl, rfl⟩ := best_unique hwf h3 (h.best hc.curves h3')
      have hm := List.mem_of_getElem? h3.1.hp_at
      have hf := h3.1.feature
      refine List.rel_append (ih2 hgr' ⟨?_, ?_, ?_⟩) (ih1 hgl' ⟨?_, ?_, ?_⟩)
      · rw [hsp'.right_depth, hsp.right_depth, hc.depth]
      · rw [hsp'.right_conds, hsp.right_conds, hc.conds]
      · rw [hsp'.right_curves, hsp.right_curves]; exact h.upper (threshold N j) hm hf hc.curves
      · rw [hsp'.left_depth, hsp.left_depth, hc.depth]
      · rw [hsp'.left_conds, hsp.left_conds, hc.conds]
      · rw [hsp'.left_curves, hsp.left_curves]; exact h.lower (threshold N j) hm hf hc.curves

/-! ### curves of the same samples on two grids -/

theorem curveLoss_additive {idx : List Nat} {grid : List (List K)} {mu sd w : List K → K} {U : List K → K} {sub : List (List K)} {P : Nat}
    (hP : grid.length = P) (hadd : ∀ t ∈ grid, ∀ r ∈ sub, sd (assignRow idx t r) ^ 2 = U t + w r) :
    curveLoss P (sub.map (curveAt idx grid mu sd)) = (P : K) * scatter w sub := by
  have hp : ∀ p ∈ Finset.range P, ((sub.map (curveAt idx grid mu sd)).map fun c =>
      (c.2.2.getD p 0 - meanVar p (sub.map (curveAt idx grid mu sd))) ^ 2).sum = scatter w sub := by
    intro p hp
    have hlt : p < grid.length := by rw [hP]; exact Finset.mem_range.1 hp
    have hv : ∀ r ∈ sub, (curveAt idx grid mu sd r).2.2.getD p 0 = U grid[p] + w r := by
      intro r hr
      have : (curveAt idx grid mu sd r).2.2[p]? = some (U grid[p] + w r) := by
        simp [curveAt, List.getElem?_eq_getElem hlt, hadd _ (List.getElem_mem hlt) r hr]
      rw [List.getD_eq_getElem?_getD, this]; rfl
    rcases eq_or_ne sub [] with rfl | hne
    · simp [scatter]
    have hn : (sub.length : K) ≠ 0 := by
      have := List.length_pos_iff.2 hne
      exact_mod_cast this.ne'
    have hm : meanVar p (sub.map (curveAt idx grid mu sd)) = U grid[p] + (sub.map w).sum / (sub.length : K) := by
      unfold meanVar
      have e : sub.map ((fun c : Curve K => c.2.2.getD p 0) ∘ curveAt idx grid mu sd) = sub.map fun r => U grid[p] + w r := List.map_congr_left hv
      rw [List.map_map, List.length_map, e, List.sum_map_add]
      simp only [List.map_const', List.sum_replicate, nsmul_eq_mul]
      field_simp
    rw [List.map_map, hm]
    unfold scatter
    congr 1
    refine List.map_congr_left fun r hr => ?_
    simp only [Function.comp]
    rw [hv r hr]
    ring
  unfold curveLoss
  rw [Finset.sum_congr rfl hp, Finset.sum_const, Finset.card_range, nsmul_eq_mul]

omit [LinearOrder K] [IsStrictOrderedRing K] in
theorem featureOf_curveAt {idx : List Nat} {grid : List (List K)} (hg : grid ≠ []) {mu sd : List K → K} {f : Nat} (hf : f ∉ idx) (r : List K) :
    featureOf f (curveAt idx grid mu sd r) = r.getD f 0 := by
  obtain ⟨t, ts, rfl⟩ := List.exists_cons_of_ne_nil hg
  simp only [featureOf, curveAt, List.map_cons, List.getD_cons_zero]
  rw [List.getD_eq_getElem?_getD, assignRow_other hf, ← List.getD_eq_getElem?_getD]

/-- the curves of the same samples, on one grid and on the other -/
def SameSamples (idx : List Nat) (grid grid' : List (List K)) (mu sd : List K → K) (samples : List (List K)) (L L' : List (Curve K)) : Prop :=
  ∃ sub : List (List K), sub.Sublist samples ∧ L = sub.map (curveAt idx grid mu sd) ∧ L' = sub.map (curveAt idx grid' mu sd)

theorem indist_additive {idx : List Nat} {grid grid' : List (List K)} {mu sd w U : List K → K} {samples : List (List K)} {P P' : Nat}
    (hP : grid.length = P) (hP' : grid'.length = P') (hpos : 0 < P) (hpos' : 0 < P')
    (hadd : ∀ t ∈ grid ++ grid', ∀ r ∈ samples, sd (assignRow idx t r) ^ 2 = U t + w r)
    (hfree : ∀ hp ∈ possible, ∀ f, IsFeature space hp f → f ∉ idx) :
    IndistOver space possible P P' ((P' : K) / (P : K)) (SameSamples idx grid grid' mu sd samples) := by
  have hP0 : (0 : K) < P := by exact_mod_cast hpos
  have hP0' : (0 : K) < P' := by exact_mod_cast hpos'
  have hg : grid ≠ [] := by rintro rfl; simp at hP; omega
  have hg' : grid' ≠ [] := by rintro rfl; simp at hP'; omega
  refine ⟨div_pos hP0' hP0, ?_, ?_, ?_, ?_⟩
  · rintro L L' ⟨sub, -, rfl, rfl⟩; simp
  · rintro L L' hp f t hm hf ⟨sub, hsub, rfl, rfl⟩
    refine ⟨sub.filter fun r => decide (r.getD f 0 ≤ t), List.filter_sublist.trans hsub, ?_, ?_⟩ <;>
    · unfold lowerPart
      rw [List.filter_map]
      congr 2
      funext r
      simp only [Function.comp, featureOf_curveAt hg (hfree hp hm f hf), featureOf_curveAt hg' (hfree hp hm f hf)]
  · rintro L L' hp f t hm hf ⟨sub, hsub, rfl, rfl⟩
    refine ⟨sub.filter fun r => decide (t < r.getD f 0), List.filter_sublist.trans hsub, ?_, ?_⟩ <;>
    · unfold upperPart
      rw [List.filter_map]
      congr 2
      funext r
      simp only [Function.comp, featureOf_curveAt hg (hfree hp hm f hf), featureOf_curveAt hg' (hfree hp hm f hf)]
  · rintro L L' ⟨sub, hsub, rfl, rfl⟩
    rw [curveLoss_additive hP fun t ht r hr => hadd t (List.mem_append_left _ ht) r (hsub.subset hr),
      curveLoss_additive hP' fun t ht r hr => hadd t (List.mem_append_right _ ht) r (hsub.subset hr)]
    field_simp

/-! ### the trees -/

/-- **C165** If the variance of the surrogate is a function `u` of the selected hyperparameters plus a function `w` of the others, the tree does not depend
on the grid: for any two grid sizes the leaves come in the same order, have the same conditions and hold the curves of the same samples, and the loss of
a leaf is the number of grid points times the sum of the squared deviations of `w` from its mean over these samples. -/
theorem C165_tree [Transc K] {space : ConfigSpace K} (hwf : space.WF) {predict : Predict K} {mu sd u w : List K → K}
    (hp : RowWise space.length predict mu sd) {samples : List (List K)} (hrows : ∀ r ∈ samples, r.length = space.length) (hs : samples ≠ [])
    {sel : Selection K} {g g' numSplits minPoints : Nat} (hg : 1 ≤ g) (hg' : 1 ≤ g') {notSplittable : Option (Selection K)} {p : DT K}
    (h : dtInit space predict sel samples g numSplits minPoints notSplittable = .ok p)
    (hmem : ∀ hp ∈ p.cfg.selected, hp ∈ space) (hd : (p.cfg.selected.map Hp.name).Nodup) (hne : p.cfg.selected ≠ [])
    (hadd : ∀ r : List K, r.length = space.length → sd r ^ 2 = u r + w r) (hu : ReadsSelected space p.cfg.selected u)
    (hw : ReadsOthers space p.cfg.selected w) :
    ∃ p', dtInit space predict sel samples g' numSplits minPoints notSplittable = .ok p' ∧ ∀ depth : Int, 0 < depth →
      ∃ leaves leaves', (dtPartition p depth).2 = .ok leaves ∧ (dtPartition p' depth).2 = .ok leaves' ∧
        (∀ cfg, (dtIncumbentRegion (dtPartition p depth).1 cfg).map (Option.map Node.conds) =
          (dtIncumbentRegion (dtPartition p' depth).1 cfg).map (Option.map Node.conds)) ∧
        List.Forall₂ (fun m m' => m'.depth = m.depth ∧ m'.conds = m.conds ∧ ∃ sub : List (List K), sub.Sublist samples ∧
          List.Forall₂ (fun r rows => rows.length = g ^ p.cfg.selected.length ∧ ∀ row ∈ rows, AgreesOnOthers space p.cfg.selected r row) sub m.x ∧
          List.Forall₂ (fun r rows => rows.length = g' ^ p.cfg.selected.length ∧ ∀ row ∈ rows, AgreesOnOthers space p.cfg.selected r row) sub m'.x ∧
          regionLoss m.v = ((g ^ p.cfg.selected.length : Nat) : K) * scatter w sub ∧
          regionLoss m'.v = ((g' ^ p.cfg.selected.length : Nat) : K) * scatter w sub) leaves leaves' := by
  obtain ⟨c, ns, i, dd, hc, hns, -, -, -, e⟩ := dtInit_ok h
  obtain ⟨hsel, -⟩ := algorithmInit_eq hc
  have hpc : p.cfg = c := by rw [e]
  rw [← hpc] at hsel
  obtain ⟨S, hS⟩ : ∃ S, S = p.cfg.selected := ⟨_, rfl⟩
  rw [← hS] at hsel hmem hd hne hu hw
  simp only [← hS]
  obtain ⟨grid, hgr, hgl, hfull⟩ := C40_grid (K := K) (List.length_pos_iff.2 hne) g
  obtain ⟨grid', hgr', hgl', hfull'⟩ := C40_grid (K := K) (List.length_pos_iff.2 hne) g'
  have hvc : ValidCfg (⟨space, S, samples, samples.length, g, g ^ S.length, false, predict⟩ : IceCfg K) :=
    ⟨hwf, hmem, hd, hne, hrows, rfl, rfl⟩
  obtain ⟨idx, hidx, hnd, hfeat⟩ := hvc.idx
  dsimp only at hidx hfeat
  obtain ⟨q, q1, q2, q3, q4, q5, q6, q7, q8⟩ := dtInit_rows hwf hp hsel hmem hd hne hrows hs hg numSplits minPoints hns hidx hgr
  obtain ⟨q', r1, r2, r3, r4, r5, r6, r7, r8⟩ := dtInit_rows hwf hp hsel hmem hd hne hrows hs hg' numSplits minPoints hns hidx hgr'
  rw [h] at q1
  obtain rfl := Except.ok.inj q1
  have hother : ∀ f, (∀ hp ∈ S, ¬ IsFeature space hp f) → f ∉ idx := by
    intro f hf hm
    obtain ⟨j, hj⟩ := List.getElem?_of_mem hm
    have hjl := (List.getElem?_eq_some_iff.1 hj).1
    have hlen := hfeat.length_eq
    have := hfeat.get (i := j) (by omega) hjl
    simp only [List.get_eq_getElem] at this
    rw [List.getElem?_eq_getElem hjl] at hj
    rw [Option.some.inj hj] at this
    exact hf _ (List.getElem_mem _) this
  have hfree : ∀ hp ∈ p.possible, ∀ f, IsFeature space hp f → f ∉ idx := by
    intro a ha f hf
    refine hother f fun b hb hfb => ?_
    rw [q4] at ha
    have := (List.mem_filter.1 ha).2
    simp only [decide_eq_true_eq] at this
    refine this.1 (List.mem_map.2 ⟨b, hb, ?_⟩)
    obtain ⟨x, hx, hxn⟩ := hf
    obtain ⟨y, hy, hyn⟩ := hfb
    rw [hx] at hy
    obtain rfl := Option.some.inj hy
    rw [← hxn, hyn]
  obtain ⟨r0, hr0⟩ := List.exists_mem_of_ne_nil samples hs
  have hsum : ∀ t ∈ grid ++ grid', ∀ r ∈ samples, sd (assignRow idx t r) ^ 2 = u (atPoint space S t r0) + w r := by
    intro t ht r hr
    have htl : t.length = S.length := by
      rcases List.mem_append.1 ht with ht | ht
      · exact ((hfull.2 t).1 ht).1
      · exact ((hfull'.2 t).1 ht).1
    rw [assignRow_atPoint hvc hidx (hrows r hr) htl]
    exact additive_atPoint hd (mu := fun r => sd r ^ 2) hadd hu hw (hrows r hr) (hrows r0 hr0) htl
  have hpos : 0 < g ^ S.length := Nat.pow_pos hg
  have hpos' : 0 < g' ^ S.length := Nat.pow_pos hg'
  have hind := indist_additive (space := space) (possible := p.possible) (mu := mu) hgl hgl' hpos hpos' hsum hfree
  refine ⟨q', r1, fun depth hdep => ?_⟩
  obtain ⟨L, g1, -, g3, -⟩ := partition_eq q7 hdep
  obtain ⟨L', g1', -, g3', -⟩ := partition_eq r7 hdep
  rw [q2, q5, q6] at g3
  rw [r2, r4, r5, r6, ← q4] at g3'
  have hrel := hind.greedy hwf g3 g3' ⟨by rw [q7.depth, r7.depth], by rw [q7.conds, r7.conds], samples, List.Sublist.refl _, q8, r8⟩
  refine ⟨L, L', by rw [g1], by rw [g1'], fun cfg => ?_, ?_⟩
  · rw [g1, g1']
    obtain ⟨a1, a2, a3⟩ := incumbent_related (p := { p with leaves := L }) (p' := { q' with leaves := L' }) (by dsimp only; rw [r2, q2]) hrel cfg
    cases hr : dtIncumbentRegion { p with leaves := L } cfg with
    | error e => rw [(a1 e).1 hr]
    | ok o =>
      cases o with
      | none => rw [a2.1 hr]
      | some m =>
        obtain ⟨m', b1, b2⟩ := a3 m hr
        rw [b1]
        simp [Py.map_ok, b2.conds]
  · refine forall₂_mem hrel fun m m' hm hm' hc => ?_
    obtain ⟨sub, hsub, c1, c2⟩ := hc.curves
    have s1 := g3.shapes m hm
    have s2 := g3'.shapes m' hm'
    have rows : ∀ (gr : List (List K)) (P : Nat) (n : Node K), gr.length = P → RegionShape P space.length n → curves n = sub.map (curveAt idx gr mu sd) →
        List.Forall₂ (fun r rows => rows.length = P ∧ ∀ row ∈ rows, AgreesOnOthers space S r row) sub n.x := by
      intro gr P n hP hsn hcn
      rw [← hsn.map_x, hcn, List.map_map, List.forall₂_map_right_iff, List.forall₂_same]
      intro r _
      simp only [Function.comp, curveAt, List.length_map]
      refine ⟨hP, fun row hrow f hf => ?_⟩
      obtain ⟨t, -, rfl⟩ := List.mem_map.1 hrow
      exact assignRow_other (hother f hf) t r
    refine ⟨hc.depth, hc.conds, sub, hsub, rows grid _ m hgl s1 c1, rows grid' _ m' hgl' s2 c2, ?_, ?_⟩
    · rw [regionLoss_curves s1, c1]
      exact curveLoss_additive hgl fun t ht r hr => hsum t (List.mem_append_left _ ht) r (hsub.subset hr)
    · rw [regionLoss_curves s2, c2]
      exact curveLoss_additive hgl' fun t ht r hr => hsum t (List.mem_append_right _ ht) r (hsub.subset hr)

end core

/-! ### an example -/

section ex

local instance transcAdditive : Transc ℚ := ⟨id, id⟩

/-- variance 9 for `a = 1`, plus 16 for `b` in the upper part: the standard deviations are 0, 3, 4 and 5 -/
private def sumSd (r : List ℚ) : ℚ :=
  if r.getD 0 0 = 1 then (if r.getD 1 0 ≤ 1/2 then 3 else 5) else (if r.getD 1 0 ≤ 1/2 then 0 else 4)

private def sumPredict : Predict ℚ := fun X => .ok (X.map fun r => r.getD 0 0, X.map sumSd)

example : RowWise 2 sumPredict (fun r => r.getD 0 0) sumSd := fun _ _ _ => rfl

private def sumU (r : List ℚ) : ℚ := if r.getD 0 0 = 1 then 9 else 0
private def sumW (r : List ℚ) : ℚ := if r.getD 1 0 ≤ 1/2 then 0 else 16

example (r : List ℚ) : sumSd r ^ 2 = sumU r + sumW r := by
  unfold sumSd sumU sumW
  split_ifs <;> norm_num

/-- `u` reads "a", `w` reads "b" -/
example : ReadsSelected invSpace [⟨"a", .float 0 1 false⟩] sumU ∧ ReadsOthers invSpace [⟨"a", .float 0 1 false⟩] sumW := by
  constructor
  · intro r r' _ _ h
    have := h _ (by simp) 0 ⟨⟨"a", .float 0 1 false⟩, rfl, rfl⟩
    simp only [sumU, List.getD_eq_getElem?_getD, this]
  · intro r r' _ _ h
    have := h 1 (by
      rintro hp hm ⟨x, hx, hn⟩
      obtain rfl := List.mem_singleton.1 hm
      obtain rfl := Option.some.inj hx
      exact absurd hn (by decide))
    simp only [sumW, List.getD_eq_getElem?_getD, this]

private def sumLeaves (g : Nat) : Py (List InvLeaf) := do
  let p ← dtInit invSpace sumPredict (.name "a") [[0, 1/8], [0, 7/8], [0, 3/8]] g 1 1 none
  let leaves ← (dtPartition p 1).2
  let root : InvLeaf := ⟨[], [], regionLoss p.root.v⟩
  return root :: leaves.map fun m => ⟨m.conds.map fun c => ((match c.nval with | .flt t => t | _ => 0), c.lessEqual), m.x.map fun rows => [rows.getD 0 []],
    regionLoss m.v⟩

/-- one grid point: loss 512/3 of the root, none in the leaves -/
example : sumLeaves 1 = .ok [⟨[], [], 512/3⟩, ⟨[(1/2, some false)], [[[0, 7/8]]], 0⟩, ⟨[(1/2, some true)], [[[0, 1/8]], [[0, 3/8]]], 0⟩] := by decide +kernel

/-- three grid points: three times the loss, the same leaves -/
example : sumLeaves 3 = .ok [⟨[], [], 3 * (512/3)⟩, ⟨[(1/2, some false)], [[[0, 7/8]]], 0⟩, ⟨[(1/2, some true)], [[[0, 1/8]], [[0, 3/8]]], 0⟩] := by
  decide +kernel

example : scatter sumW [[0, 1/8], [0, 7/8], [0, 3/8]] = 512/3 := by decide +kernel

end ex

end PyPDP
