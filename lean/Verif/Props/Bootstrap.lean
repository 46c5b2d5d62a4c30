/-
C190: with a growing sample_size the trees of a forest become the decision trees of all samples.
-/
import Verif.Props.TreeLimit
import Verif.Props.ForestInvariance
import Verif.Spec.Stability
import Verif.Props.RoundedForest

namespace PyPDP
open Spec MeasureTheory ProbabilityTheory Filter Topology

/-- Indices that are drawn independently and uniformly from `0, ..., n - 1`. -/
structure Spec.UniformIndices {Ω : Type} [MeasurableSpace Ω] (P : Measure Ω) (n : Nat) (I : ℕ → Ω → ℕ) : Prop where
  meas : ∀ i, Measurable (I i)
  indep : iIndepFun I P
  range : ∀ i ω, I i ω < n
  uniform : ∀ i j, j < n → P {ω | I i ω = j} = 1 / n

/-! ### the empirical distribution -/

/-- row number `j` as a vector -/
def rowVec (F : Nat) (S : List (List ℝ)) (j : Nat) : Fin F → ℝ := fun f => (S.getD j []).getD f 0

/-- the distribution of one draw from the rows -/
noncomputable def empirical (F : Nat) (S : List (List ℝ)) : Measure (Fin F → ℝ) := ∑ j ∈ Finset.range S.length, (1 / (S.length : ENNReal)) • Measure.dirac (rowVec F S j)

section empirical
variable {F : Nat} {S : List (List ℝ)}

theorem ofFn_rowVec (hrows : ∀ r ∈ S, r.length = F) {j : Nat} (hj : j < S.length) : List.ofFn (rowVec F S j) = S.getD j [] := by
  have e : S.getD j [] = S[j] := by simp [List.getElem?_eq_getElem hj]
  have hl : (S.getD j []).length = F := by rw [e]; exact hrows _ (List.getElem_mem _)
  unfold rowVec
  generalize S.getD j [] = r at hl
  refine List.ext_getElem (by simp [hl]) fun i h1 h2 => ?_
  simp [List.getElem?_eq_getElem h2]

theorem sum_rows (q : List ℝ → ℝ) (S : List (List ℝ)) : ∑ j ∈ Finset.range S.length, q (S.getD j []) = (S.map q).sum := by
  induction S with
  | nil => simp
  | cons r S ih =>
    rw [List.length_cons, Finset.sum_range_succ', List.map_cons, List.sum_cons, ← ih, add_comm]
    simp

theorem empirical_integral (hrows : ∀ r ∈ S, r.length = F) (q : List ℝ → ℝ) : ∫ x, q (List.ofFn x) ∂(empirical F S) = (S.map q).sum / S.length := by
  unfold empirical
  have hint : ∀ j ∈ Finset.range S.length, Integrable (fun x : Fin F → ℝ => q (List.ofFn x)) ((1 / (S.length : ENNReal)) • Measure.dirac (rowVec F S j)) := by
    intro j hj
    have hS : (S.length : ENNReal) ≠ 0 := by
      have := Finset.mem_range.1 hj
      exact_mod_cast (by omega : S.length ≠ 0)
    exact (integrable_dirac (by simp)).smul_measure (by simp [hS])
  rw [integral_finsetSum_measure hint, ← sum_rows, Finset.sum_div]
  refine Finset.sum_congr rfl fun j hj => ?_
  rw [integral_smul_measure, integral_dirac, ofFn_rowVec hrows (Finset.mem_range.1 hj)]
  simp
  ring

theorem empirical_set (hrows : ∀ r ∈ S, r.length = F) {A : List ℝ → Bool} (hA : MeasurableSet (passing (F := F) A)) (q : List ℝ → ℝ) :
    ∫ x in passing A, q (List.ofFn x) ∂(empirical F S) = ((S.filter A).map q).sum / S.length := by
  rw [← integral_indicator hA]
  have e : (passing A).indicator (fun x : Fin F → ℝ => q (List.ofFn x)) = fun x => (fun r => if A r = true then q r else 0) (List.ofFn x) := by
    funext x
    simp [Set.indicator_apply, passing]
  rw [e, empirical_integral hrows fun r => if A r = true then q r else 0]
  congr 1
  clear hrows
  induction S with
  | nil => simp
  | cons r S ih =>
    by_cases h : A r = true <;> simp [h, ih]

theorem empirical_null (S : List (List ℝ)) {N : Set (Fin F → ℝ)} (h : ∀ j < S.length, rowVec F S j ∉ N) : empirical F S N = 0 := by
  unfold empirical
  rw [Measure.finsetSum_apply]
  refine Finset.sum_eq_zero fun j hj => ?_
  rw [Measure.smul_apply, Measure.dirac_apply]
  simp [h j (Finset.mem_range.1 hj)]

theorem empirical_prob (hS : S ≠ []) : IsProbabilityMeasure (empirical F S) := by
  constructor
  unfold empirical
  rw [Measure.finsetSum_apply]
  have : (S.length : ENNReal) ≠ 0 := by simpa using hS
  simp only [Measure.smul_apply, measure_univ, smul_eq_mul, mul_one, Finset.sum_const, Finset.card_range, nsmul_eq_mul, one_div]
  exact ENNReal.mul_inv_cancel this (by simp)

theorem empirical_real (hrows : ∀ r ∈ S, r.length = F) (hS : S ≠ []) {A : List ℝ → Bool} (hA : MeasurableSet (passing (F := F) A)) :
    (empirical F S).real (passing A) = (S.filter A).length / S.length := by
  have := empirical_prob (F := F) hS
  have h := empirical_set hrows hA fun _ => 1
  simpa using h

end empirical

/-! ### draws -/

section draws
variable {Ω : Type} [MeasurableSpace Ω] {P : Measure Ω} [IsProbabilityMeasure P] {S : List (List ℝ)} {I : ℕ → Ω → ℕ} {F : Nat}

omit [IsProbabilityMeasure P] in
/-- drawn rows are a random sample of the empirical distribution -/
theorem drawn_sample (hI : UniformIndices P S.length I) : IsRandomSample P (fun i ω => rowVec F S (I i ω)) ∧ iIndepFun (fun i ω => rowVec F S (I i ω)) P ∧
    P.map (fun ω => rowVec F S (I 0 ω)) = empirical F S := by
  have hm : Measurable (rowVec F S) := measurable_from_top
  have hind : iIndepFun (fun i ω => rowVec F S (I i ω)) P := hI.indep.comp (fun _ => rowVec F S) fun _ => hm
  have hmap : ∀ i, P.map (fun ω => rowVec F S (I i ω)) = empirical F S := by
    intro i
    ext N hN
    rw [Measure.map_apply (show Measurable fun ω => rowVec F S (I i ω) from hm.comp (hI.meas i)) hN]
    have e : (fun ω => rowVec F S (I i ω)) ⁻¹' N = ⋃ j ∈ Finset.range S.length, {ω | I i ω = j ∧ rowVec F S j ∈ N} := by
      ext ω
      simp only [Set.mem_preimage, Set.mem_iUnion, Finset.mem_range, Set.mem_ofPred_eq, exists_prop]
      constructor
      · exact fun h => ⟨I i ω, hI.range i ω, rfl, h⟩
      · rintro ⟨j, -, rfl, h⟩
        exact h
    rw [e, measure_biUnion_finset]
    · unfold empirical
      rw [Measure.finsetSum_apply]
      refine Finset.sum_congr rfl fun j hj => ?_
      rw [Measure.smul_apply, Measure.dirac_apply' _ hN]
      by_cases h : rowVec F S j ∈ N
      · simp only [h, and_true, hI.uniform i j (Finset.mem_range.1 hj)]
        simp [h]
      · simp [h]
    · intro a _ b _ hab
      refine Set.disjoint_left.2 ?_
      rintro ω ⟨h1, -⟩ ⟨h2, -⟩
      exact hab (h1.symm.trans h2)
    · intro j _
      by_cases h : rowVec F S j ∈ N
      · simp only [h, and_true]
        exact hI.meas i (measurableSet_singleton j)
      · simp [h]
  exact ⟨⟨fun i => hm.comp (hI.meas i), fun i j hij => hind.indepFun hij, fun i => by rw [hmap i, hmap 0]⟩, hind, hmap 0⟩

end draws

/-! ### the tree of the empirical distribution is the decision tree -/

section tree
variable {space : ConfigSpace ℝ} {S : List (List ℝ)} {idx : List Nat} {grid : List (List ℝ)} {mu sd : List ℝ → ℝ} {v : List ℝ → List ℝ → ℝ}
  {possible : List (Hp ℝ)} {N : Nat}

theorem empirical_loss (hrows : ∀ r ∈ S, r.length = space.length) (hS : S ≠ []) {A : List ℝ → Bool} (hA : MeasurableSet (passing (F := space.length) A))
    (hv : ∀ t ∈ grid, ∀ r ∈ S, sd (assignRow idx t r) ^ 2 = v t r) :
    populationLoss (empirical space.length S) grid v A = curveLoss grid.length ((S.filter A).map (curveAt idx grid mu sd)) / S.length := by
  rw [curveLoss_samples (v := v) _ fun t ht r hr => hv t ht r (List.mem_of_mem_filter hr)]
  unfold populationLoss
  have hn : (S.length : ℝ) ≠ 0 := by
    have := List.length_pos_iff.2 hS
    exact_mod_cast this.ne'
  have e : ∀ t ∈ grid, ∫ x in passing A, (v t (List.ofFn x) - (∫ x in passing A, v t (List.ofFn x) ∂(empirical space.length S)) / (empirical space.length S).real (passing (F := space.length) A)) ^ 2 ∂(empirical space.length S)
      = (((S.filter A).map fun r => v t r ^ 2).sum - ((S.filter A).map fun r => v t r).sum ^ 2 / (S.filter A).length) / S.length := by
    intro t _
    rw [empirical_set hrows hA (v t), empirical_real hrows hS hA, div_div_div_cancel_right₀ hn]
    rw [empirical_set hrows hA fun r => (v t r - ((S.filter A).map (v t)).sum / (S.filter A).length) ^ 2]
    have := squares_about_mean ((S.filter A).map (v t))
    rw [List.map_map, List.map_map, List.length_map] at this
    congr 1
  rw [List.map_congr_left e]
  generalize grid = G
  induction G with
  | nil => simp
  | cons t G ih => rw [List.map_cons, List.sum_cons, ih, List.map_cons, List.sum_cons, add_div]

/-- a decision tree of all samples with one curve per region at least, whose splits were strictly the best, is the tree of the empirical distribution -/
theorem clear_population (hrows : ∀ r ∈ S, r.length = space.length) (hS : S ≠ []) (hg : grid ≠ []) (hfree : ∀ hp ∈ possible, ∀ f, IsFeature space hp f → f ∉ idx)
    (hv : ∀ t ∈ grid, ∀ r ∈ S, sd (assignRow idx t r) ^ 2 = v t r) {depth : Int} {n : Node ℝ} {L : List (Node ℝ)}
    (hT : ClearTree space possible N 1 grid.length 0 depth n L) :
    ∀ {A : List ℝ → Bool}, MeasurableSet (passing (F := space.length) A) → curves n = (S.filter A).map (curveAt idx grid mu sd) →
    ∃ R, PopulationTree (empirical space.length S) grid v space possible N depth A n.conds n.depth R ∧ L.map Node.conds = R.map Prod.snd := by
  have hn : (0 : ℝ) < S.length := by exact_mod_cast List.length_pos_iff.2 hS
  have hpos : ∀ {B : List ℝ → Bool}, MeasurableSet (passing (F := space.length) B) → (0 < (empirical space.length S).real (passing B) ↔ 1 ≤ (S.filter B).length) := by
    intro B hB
    rw [empirical_real hrows hS hB, div_pos_iff_of_pos_right hn]
    norm_cast
  have hcand : ∀ {A : List ℝ → Bool}, MeasurableSet (passing (F := space.length) A) → ∀ i j hp f,
      IsPopulationCandidate (empirical space.length S) space possible N A i j hp f ↔ IsCandidate space possible N 1 ((S.filter A).map (curveAt idx grid mu sd)) i j hp f := by
    intro A hA i j hp f
    have hm := passing_measurable_below hA f (threshold N j)
    constructor
    · intro h
      obtain ⟨e1, e2⟩ := parts_filter (mu := mu) (sd := sd) hg (hfree hp (List.mem_of_getElem? h.hp_at) f h.feature) (threshold N j) S A
      refine ⟨h.hp_at, h.feature, h.one_le, h.le, ?_, ?_⟩
      · rw [e1, List.length_map]; exact (hpos hm.1).1 h.left_pos
      · rw [e2, List.length_map]; exact (hpos hm.2).1 h.right_pos
    · intro h
      obtain ⟨e1, e2⟩ := parts_filter (mu := mu) (sd := sd) hg (hfree hp (List.mem_of_getElem? h.hp_at) f h.feature) (threshold N j) S A
      have s1 := h.left_size
      have s2 := h.right_size
      rw [e1, List.length_map] at s1
      rw [e2, List.length_map] at s2
      exact ⟨h.hp_at, h.feature, h.one_le, h.le, (hpos hm.1).2 s1, (hpos hm.2).2 s2⟩
  have hcost : ∀ {A : List ℝ → Bool}, MeasurableSet (passing (F := space.length) A) → ∀ {hp f}, hp ∈ possible → IsFeature space hp f → ∀ j,
      populationCost (empirical space.length S) grid v N A f j = splitCost grid.length N ((S.filter A).map (curveAt idx grid mu sd)) f j / S.length := by
    intro A hA hp f hpm hf j
    have hm := passing_measurable_below hA f (threshold N j)
    obtain ⟨e1, e2⟩ := parts_filter (mu := mu) (sd := sd) hg (hfree hp hpm f hf) (threshold N j) S A
    rw [populationCost, splitCost, e1, e2, empirical_loss (mu := mu) hrows hS hm.1 hv, empirical_loss (mu := mu) hrows hS hm.2 hv, add_div]
  induction hT with
  | @leaf n hsh hstop =>
    intro A hA hcur
    refine ⟨[(A, n.conds)], .leaf ?_, rfl⟩
    rcases hstop with h | h | h
    · exact .inl h
    · refine .inr fun i j hp f hc => ?_
      have hc := (hcand hA i j hp f).1 hc
      rw [← hcur] at hc
      have h1 := hc.left_size
      have h2 := hc.right_size
      have := near_parts_length f (threshold N j) (curves n)
      omega
    · refine .inr fun i j hp f hc => ?_
      have hc := (hcand hA i j hp f).1 hc
      rw [← hcur] at hc
      exact h _ _ _ _ hc
  | @branch n l r Ll Lr i j hp f hsh hd h2 hb hsp _ _ ihl ihr =>
    intro A hA hcur
    have hm := passing_measurable_below hA f (threshold N j)
    have hbc := hb.best.1
    rw [hcur] at hbc
    have hpm := List.mem_of_getElem? hbc.hp_at
    have hfi := hfree hp hpm f hbc.feature
    obtain ⟨p1, p2⟩ := parts_filter (mu := mu) (sd := sd) hg hfi (threshold N j) S A
    obtain ⟨Rl, hl, el⟩ := ihl hm.1 (by rw [hsp.left_curves, hcur]; exact p1)
    obtain ⟨Rr, hr, er⟩ := ihr hm.2 (by rw [hsp.right_curves, hcur]; exact p2)
    rw [hsp.left_conds, hsp.left_depth] at hl
    rw [hsp.right_conds, hsp.right_depth] at hr
    refine ⟨Rr ++ Rl, .branch hd ⟨(hcand hA i j hp f).2 hbc, ?_⟩ hl hr, by rw [List.map_append, List.map_append, el, er]⟩
    intro i' j' hp' f' hc'
    have hc' := (hcand hA i' j' hp' f').1 hc'
    have hpm' := List.mem_of_getElem? hc'.hp_at
    have hfi' := hfree hp' hpm' f' hc'.feature
    have hgap := hb.gap i' j' hp' f' (by rw [hcur]; exact hc')
    have hord := hb.best.2 i' j' hp' f' (by rw [hcur]; exact hc')
    rw [hcur] at hgap hord
    rcases hgap with h | h
    · refine .inr ⟨empirical_null S fun k hk hN => ?_, hord.2 (same_sides h).symm⟩
      obtain ⟨h1, h2⟩ := hN
      rw [ofFn_rowVec hrows hk] at h1 h2
      have hmem : S.getD k [] ∈ S.filter A := List.mem_filter.2 ⟨getD_mem hk, h1⟩
      have := h _ (List.mem_map_of_mem hmem)
      rw [featureOf_curveAt hg hfi', featureOf_curveAt hg hfi] at this
      exact h2 this
    · left
      rw [hcost hA hpm hbc.feature, hcost hA hpm' hc'.feature]
      simp only [mul_zero, add_zero] at h
      exact (div_lt_div_iff_of_pos_right hn).2 h

end tree

/-! ### only the conditions of the leaves matter for the incumbent region -/

section region

theorem firstContaining_conds (cs : ConfigSpace ℝ) (cfg : Config ℝ) {A B : List (Node ℝ)} (h : A.map Node.conds = B.map Node.conds) :
    (firstContaining cs cfg A).map (Option.map Node.conds) = (firstContaining cs cfg B).map (Option.map Node.conds) := by
  induction A generalizing B with
  | nil =>
    cases B with
    | nil => rfl
    | cons b B => simp at h
  | cons a A ih =>
    cases B with
    | nil => simp at h
    | cons b B =>
      simp only [List.map_cons, List.cons.injEq] at h
      simp only [firstContaining, h.1]
      cases containsAll cs b.conds cfg with
      | error e => rfl
      | ok x =>
        rw [Py.ok_bind, Py.ok_bind]
        cases x
        · exact ih h.2
        · exact congrArg (fun c => (Except.ok (some c) : Py (Option (List (Cond ℝ))))) h.1

theorem overlap_conds (cs : ConfigSpace ℝ) (ofVector : List ℝ → Config ℝ) {A B : List (Option (Node ℝ))} (h : A.map (Option.map Node.conds) = B.map (Option.map Node.conds))
    (mo : Int) (k : Nat) (S : List (List ℝ)) : overlapIndices cs ofVector A mo k S = overlapIndices cs ofVector B mo k S := by
  have hr : ∀ cfg, (A.mapM fun r => inRegion cs r cfg) = B.mapM fun r => inRegion cs r cfg := by
    intro cfg
    clear k mo
    induction A generalizing B with
    | nil =>
      cases B with
      | nil => rfl
      | cons b B => simp at h
    | cons a A ih =>
      cases B with
      | nil => simp at h
      | cons b B =>
        simp only [List.map_cons, List.cons.injEq] at h
        have e : inRegion cs a cfg = inRegion cs b cfg := by
          cases a with
          | none => cases b with
            | none => rfl
            | some b => simp at h
          | some a => cases b with
            | none => simp at h
            | some b =>
              have := h.1
              simp only [Option.map_some, Option.some.injEq] at this
              simp only [inRegion, this]
        rw [List.mapM_cons, List.mapM_cons, e, ih h.2]
  induction S generalizing k with
  | nil => rfl
  | cons s S ih => simp only [overlapIndices, countRegions, hr, ih]

theorem regions_conds {A B : List (DT ℝ)} (inc : Config ℝ)
    (h : List.Forall₂ (fun t t' : DT ℝ => t.cfg.space = t'.cfg.space ∧ t.leaves.map Node.conds = t'.leaves.map Node.conds) A B) :
    (A.mapM fun t => dtIncumbentRegion t inc).map (List.map (Option.map Node.conds)) = (B.mapM fun t => dtIncumbentRegion t inc).map (List.map (Option.map Node.conds)) := by
  induction h with
  | nil => rfl
  | @cons a b A B hab _ ih =>
    have e : (dtIncumbentRegion a inc).map (Option.map Node.conds) = (dtIncumbentRegion b inc).map (Option.map Node.conds) := by
      unfold dtIncumbentRegion
      have : a.leaves = [] ↔ b.leaves = [] := by rw [← List.map_eq_nil_iff (f := Node.conds), hab.2, List.map_eq_nil_iff]
      by_cases hl : a.leaves = []
      · rw [if_pos hl, if_pos (this.1 hl)]
      · rw [if_neg hl, if_neg fun h => hl (this.2 h), hab.1]
        exact firstContaining_conds _ _ hab.2
    rw [List.mapM_cons, List.mapM_cons]
    generalize dtIncumbentRegion a inc = x at e ⊢
    generalize dtIncumbentRegion b inc = y at e ⊢
    generalize List.mapM (fun t => dtIncumbentRegion t inc) A = xs at ih ⊢
    generalize List.mapM (fun t => dtIncumbentRegion t inc) B = ys at ih ⊢
    rcases x with e1 | x <;> rcases y with e2 | y <;> simp only [Except.map, Except.ok.injEq, Except.error.injEq, reduceCtorEq] at e
    · subst e; rfl
    · rcases xs with e1 | xs <;> rcases ys with e2 | ys <;> simp only [Except.map, Except.ok.injEq, Except.error.injEq, reduceCtorEq] at ih
      · subst ih; rfl
      · change Except.ok (List.map _ (x :: xs)) = Except.ok (List.map _ (y :: ys))
        rw [List.map_cons, List.map_cons, e, ih]

/-- forests whose trees have the same conditions find the same incumbent regions -/
theorem forest_conds {p : RF ℝ} {A B : List (DT ℝ)}
    (h : List.Forall₂ (fun t t' : DT ℝ => t.cfg.space = t'.cfg.space ∧ t.leaves.map Node.conds = t'.leaves.map Node.conds) A B) (ofVector : List ℝ → Config ℝ)
    (inc : Config ℝ) (mo : Option Int) :
    rfIncumbentRegion ofVector { p with trees := some A } inc mo = rfIncumbentRegion ofVector { p with trees := some B } inc mo := by
  have hr := regions_conds inc h
  have hl := h.length_eq
  rcases A with _ | ⟨a, A⟩
  · cases h
    rfl
  rcases B with _ | ⟨b, B⟩
  · simp at hl
  unfold rfIncumbentRegion
  dsimp only [rfIce]
  generalize List.mapM (fun t => dtIncumbentRegion t inc) (a :: A) = xs at hr ⊢
  generalize List.mapM (fun t => dtIncumbentRegion t inc) (b :: B) = ys at hr ⊢
  rcases xs with e1 | xs <;> rcases ys with e2 | ys <;> simp only [Except.map, Except.ok.injEq, Except.error.injEq, reduceCtorEq] at hr
  · subst hr; rfl
  · rw [Py.ok_bind, Py.ok_bind, overlap_conds _ _ hr, hl]

end region

/-! ### the forest -/

section forest
variable {Ω : Type} [MeasurableSpace Ω] {P : Measure Ω} [IsProbabilityMeasure P]

/-- a function that is 0 except at finitely many rows -/
theorem rows_measurable {F : Nat} (S : List (List ℝ)) (q : List ℝ → ℝ) : Measurable fun x : Fin F → ℝ => if List.ofFn x ∈ S then q (List.ofFn x) else 0 := by
  obtain ⟨s, hs⟩ : ∃ s : Set (Fin F → ℝ), s = {x | List.ofFn x ∈ S} := ⟨_, rfl⟩
  have hfin : s.Finite := by
    rw [hs]
    exact Set.Finite.preimage (f := fun x : Fin F → ℝ => List.ofFn x) (fun x _ y _ h => List.ofFn_injective h) (List.finite_toSet S)
  refine measurable_of_restrict_of_restrict_compl hfin.measurableSet ?_ ?_
  · have := hfin.countable.to_subtype
    exact measurable_of_countable _
  · have : sᶜ.domRestrict (fun x : Fin F → ℝ => if List.ofFn x ∈ S then q (List.ofFn x) else 0) = fun _ => 0 := by
      funext x
      have hx : List.ofFn x.1 ∉ S := fun h => x.2 (hs ▸ h)
      rw [Set.domRestrict_apply, if_neg hx]
    rw [this]
    exact measurable_const

theorem empirical_bounded {F : Nat} {S : List (List ℝ)} (hrows : ∀ r ∈ S, r.length = F) (q : List ℝ → ℝ) : ∃ B : ℝ, ∀ᵐ x ∂(empirical F S), |q (List.ofFn x)| ≤ B := by
  refine ⟨(S.map fun r => |q r|).sum, ae_iff.2 (empirical_null S fun j hj hN => hN ?_)⟩
  rw [ofFn_rowVec hrows hj]
  exact List.single_le_sum (fun a ha => by obtain ⟨r, -, rfl⟩ := List.mem_map.1 ha; exact abs_nonneg _) _ (List.mem_map_of_mem (f := fun r => |q r|) (getD_mem hj))

/-- one tree: its leaves have, except with a probability that decreases exponentially with the number of draws, the conditions of the tree that sees every sample once -/
theorem drawn_tree {p : RF ℝ} (hp : ValidRF p) {mu sd : List ℝ → ℝ} (hmu : RowWise p.cfg.space.length p.cfg.predict mu sd) (hn : p.cfg.samples ≠ [])
    (hg : 1 ≤ p.cfg.perAxis) {i : IceState ℝ} (hi : i.cfg.space = p.cfg.space ∧ i.cfg.predict = p.cfg.predict ∧ i.cfg.selected = p.cfg.selected ∧
    i.cfg.samples = p.cfg.samples ∧ i.cfg.perAxis = p.cfg.perAxis) {maxDepth : Int} (hd : 0 < maxDepth) {mask : List Bool} {choice : Nat}
    (hmask : mask.length = p.possible.length) (hchoice : choice < p.possible.length)
    {t₀ : DT ℝ} (ht₀ : growTree p i maxDepth ⟨List.range p.cfg.samples.length, mask, choice⟩ = .ok t₀)
    (hclear : ClearTree p.cfg.space t₀.possible 100 1 (p.cfg.perAxis ^ p.cfg.selected.length) 0 maxDepth t₀.root t₀.leaves)
    {I : ℕ → Ω → ℕ} (hI : UniformIndices P p.cfg.samples.length I) :
    ∀ᶠ a in tailFilter P expRates ⟨_, 0, 1, le_rfl, one_pos, rfl⟩ exp_rates.1, ∃ t, growTree p i maxDepth ⟨(List.range a.1).map fun k => I k a.2, mask, choice⟩ = .ok t ∧
      t₀.cfg.space = t.cfg.space ∧ t₀.leaves.map Node.conds = t.leaves.map Node.conds := by
  obtain ⟨hX, hind, hmap⟩ := drawn_sample (F := p.cfg.space.length) hI
  have hrows := hp.cfg.rows
  have hnl : 0 < p.cfg.samples.length := List.length_pos_iff.2 hn
  obtain ⟨idx, hidx, -, hfeat⟩ := hp.cfg.idx
  obtain ⟨grid, hgr, hgl, -⟩ := C40_grid (K := ℝ) (List.length_pos_iff.2 hp.cfg.sel_ne) p.cfg.perAxis
  obtain ⟨own, ho1, -, ho3⟩ := calcNow_curves hp.cfg hp.not_centered hmu hn hg hidx hgr
  have hgne : grid ≠ [] := by
    rintro rfl
    have : 0 < p.cfg.perAxis ^ p.cfg.selected.length := Nat.pow_pos hg
    simp at hgl
    omega
  have hfree0 : ∀ hq ∈ p.possible, ∀ f, IsFeature p.cfg.space hq f → f ∉ idx := by
    intro a ha f hf hm
    obtain ⟨j, hj⟩ := List.getElem?_of_mem hm
    have hjl := (List.getElem?_eq_some_iff.1 hj).1
    have hlen := hfeat.length_eq
    have hfb := hfeat.get (i := j) (by omega) hjl
    simp only [List.get_eq_getElem] at hfb
    rw [List.getElem?_eq_getElem hjl] at hj
    rw [Option.some.inj hj] at hfb
    rw [hp.possible] at ha
    have := (List.mem_filter.1 ha).2
    simp only [decide_eq_true_eq] at this
    refine this (List.mem_map.2 ⟨_, List.getElem_mem (by omega : j < p.cfg.selected.length), ?_⟩)
    obtain ⟨x, hx, hxn⟩ := hf
    obtain ⟨y, hy, hyn⟩ := hfb
    rw [hx] at hy
    obtain rfl := Option.some.inj hy
    rw [← hxn, ← hyn]
  -- the tree of all samples
  obtain ⟨own', t', ho', h2, -, -, h3, -, -⟩ := growTree_ok hp hmu hn hg hi hnl hd (w := ⟨List.range p.cfg.samples.length, mask, choice⟩)
    ⟨by simp, fun i hi => List.mem_range.1 hi, hmask, hchoice⟩
  rw [ht₀] at h2
  obtain rfl := Except.ok.inj h2
  rw [ho1] at ho'
  obtain rfl := Except.ok.inj ho'
  have hroots : ∀ {w : ForestDraw} {t : DT ℝ}, IsForestTree p (dataCurves own) 100 1 (p.cfg.perAxis ^ p.cfg.selected.length) maxDepth w t →
      curves t.root = w.indices.map fun k => curveAt idx grid mu sd (p.cfg.samples.getD k []) := by
    intro w t h
    have := h.root
    rw [ho3] at this
    generalize curves t.root = C at this
    generalize w.indices = J at this
    induction this with
    | nil => rfl
    | @cons k c ks cs hk _ ih =>
      rw [List.map_cons, ih]
      congr 1
      rw [List.getElem?_map] at hk
      obtain ⟨r, hr, rfl⟩ := Option.map_eq_some_iff.1 hk
      simp [hr]
  obtain ⟨v, hv⟩ : ∃ v : List ℝ → List ℝ → ℝ, v = fun t r => if r ∈ p.cfg.samples then sd (assignRow idx t r) ^ 2 else 0 := ⟨_, rfl⟩
  have hvS : ∀ t ∈ grid, ∀ r ∈ p.cfg.samples, sd (assignRow idx t r) ^ 2 = v t r := by
    intro t _ r hr
    rw [hv]
    simp [hr]
  have hfree : ∀ hq ∈ t₀.possible, ∀ f, IsFeature p.cfg.space hq f → f ∉ idx := fun hq h => hfree0 hq (h3.splits_sub.subset h)
  rw [← hgl] at hclear
  obtain ⟨R, hR, hconds⟩ := clear_population (mu := mu) hrows hn hgne hfree hvS hclear (A := fun _ => true)
    (by have : passing (F := p.cfg.space.length) (fun _ => true) = Set.univ := by ext x; simp [passing]
        rw [this]; exact MeasurableSet.univ)
    (by rw [hroots h3, List.filter_true]
        refine List.ext_getElem (by simp) fun k h1 h2 => ?_
        simp only [List.length_map] at h2
        simp [List.getElem?_eq_getElem h2])
  rw [h3.depth, h3.conds, ← hmap] at hR
  have hm : ∀ t ∈ grid, Measurable fun x : Fin p.cfg.space.length → ℝ => v t (List.ofFn x) := by
    intro t _
    rw [hv]
    exact rows_measurable p.cfg.samples fun r => sd (assignRow idx t r) ^ 2
  have hb1 : ∀ t, ∃ B : ℝ, ∀ᵐ x ∂(P.map fun ω => rowVec p.cfg.space.length p.cfg.samples (I 0 ω)), |v t (List.ofFn x)| ≤ B := by
    intro t
    rw [hmap]
    exact empirical_bounded hrows _
  have hb2 : ∀ t, ∃ B : ℝ, ∀ᵐ x ∂(P.map fun ω => rowVec p.cfg.space.length p.cfg.samples (I 0 ω)), |v t (List.ofFn x) ^ 2| ≤ B := by
    intro t
    rw [hmap]
    exact empirical_bounded hrows fun r => v t r ^ 2
  have hprob : IsProbabilityMeasure (P.map fun ω => rowVec p.cfg.space.length p.cfg.samples (I 0 ω)) := by rw [hmap]; exact empirical_prob hn
  have hlaw : SampleLaw P (fun k ω => rowVec p.cfg.space.length p.cfg.samples (I k ω)) (fun q => (Measurable fun x : Fin p.cfg.space.length → ℝ => q (List.ofFn x)) ∧
      ∃ B : ℝ, ∀ᵐ x ∂(P.map fun ω => rowVec p.cfg.space.length p.cfg.samples (I 0 ω)), |q (List.ofFn x)| ≤ B)
      (tailFilter P expRates ⟨_, 0, 1, le_rfl, one_pos, rfl⟩ exp_rates.1) :=
    tail_law hX exp_rates.2 fun A hA q ⟨hq, B, hB⟩ ε hε => exp_deviation hX hind hA hq hB hε
  have hrow : ∀ k ω, List.ofFn (rowVec p.cfg.space.length p.cfg.samples (I k ω)) = p.cfg.samples.getD (I k ω) [] := fun k ω => ofFn_rowVec hrows (hI.range k ω)
  have htrue : passing (F := p.cfg.space.length) (fun _ => true) = Set.univ := by ext x; simp [passing]
  have hcore := law_core (minPoints := 1) (mu := mu) (sd := sd) hp.cfg.wf hX hlaw ⟨measurable_const, 1, by simp⟩ hgne hfree le_rfl
    (fun t ht k ω => by rw [hrow]; exact hvS t ht _ (getD_mem (hI.range k ω))) hm
    (fun t ht => by
      obtain ⟨B, hB⟩ := hb2 t
      exact Integrable.of_bound ((hm t ht).pow_const 2).aestronglyMeasurable B (by simpa only [Real.norm_eq_abs] using hB))
    (fun t ht => ⟨hm t ht, hb1 t⟩) (fun t ht => ⟨(hm t ht).pow_const 2, hb2 t⟩) hR (by rw [htrue]; exact MeasurableSet.univ) (by rw [htrue]; simp)
  filter_upwards [hcore, hlaw.large.eventually (eventually_ge_atTop 1)] with a hcore ha
  obtain ⟨own', t, ho', g2, -, -, g3, -, -⟩ := growTree_ok hp hmu hn hg hi (size := a.1) ha hd (w := ⟨(List.range a.1).map fun k => I k a.2, mask, choice⟩)
    ⟨by simp, fun i hi => by obtain ⟨k, -, rfl⟩ := List.mem_map.1 hi; exact hI.range k _, hmask, hchoice⟩
  rw [ho1] at ho'
  obtain rfl := Except.ok.inj ho'
  have hposs : t.possible = t₀.possible := by
    by_cases hm : ∃ j : Nat, mask[j]? = some true
    · have hnd : p.possible.Nodup := by
        rw [hp.possible]
        exact (List.Nodup.of_map _ hp.cfg.wf).filter _
      have hmem : ∀ hq, hq ∈ t.possible ↔ hq ∈ t₀.possible := by
        intro hq
        have key : hq ∈ p.possible → (hq ∈ t.possible ↔ hq ∈ t₀.possible) := by
          intro hpm
          obtain ⟨j, hj⟩ := List.mem_iff_getElem?.1 hpm
          rw [h3.splits_mask hm j hq hj, g3.splits_mask hm j hq hj]
        exact ⟨fun hx => (key (g3.splits_sub.subset hx)).1 hx, fun hx => (key (h3.splits_sub.subset hx)).2 hx⟩
      classical
      rw [sublist_eq_filter hnd h3.splits_sub, sublist_eq_filter hnd g3.splits_sub]
      exact List.filter_congr fun a _ => by simp [hmem a]
    · obtain ⟨hq, a1, a2⟩ := h3.splits_choice fun j hj => hm ⟨j, hj⟩
      obtain ⟨hq', b1, b2⟩ := g3.splits_choice fun j hj => hm ⟨j, hj⟩
      rw [a1] at b1
      rw [a2, b2, Option.some.inj b1]
  refine ⟨t, g2, by rw [h3.space, g3.space], ?_⟩
  have hG := g3.leaves
  rw [hposs, ← hgl] at hG
  have := hcore t.root t.leaves g3.depth g3.conds (by
    rw [hroots g3, List.filter_true, firstSamples, List.map_map, List.map_map]
    refine List.map_congr_left fun k _ => ?_
    simp only [Function.comp, hrow]) hG
  rw [hconds]
  exact (forall₂_conds this).symm

/-- `partition` of a valid forest with trees that are all grown -/
theorem partition_of_trees {p : RF ℝ} {i : IceState ℝ} (hi : rfIce p = .ok i) {numTrees maxDepth size : Int} (ht : 0 < numTrees) (hd : 0 < maxDepth) (hs : 0 < size)
    {draw : Nat → ForestDraw} {ts : List (DT ℝ)} (h : List.Forall₂ (fun w t => growTree p i maxDepth w = .ok t) ((List.range numTrees.toNat).map draw) ts) :
    rfPartition p numTrees maxDepth (some size) draw = ({ p with ice := some i, trees := some ts }, .ok ()) := by
  have := growLoop_ok h []
  simp [rfPartition, ht, hd, hs, hi, this]

/-- **C190.** Every tree of a forest draws `m` of the samples. If the trees that see every sample exactly once are grown without ties (whatever hyperparameters they
may be split along), then all trees of the forest have the regions of those trees, and the incumbent region of the forest is that of those trees, for every
configuration and every overlap, and whatever hyperparameters are drawn, except with a probability that decreases exponentially with `m`. -/
theorem C190_forest {p : RF ℝ} (hp : ValidRF p) {mu sd : List ℝ → ℝ} (hmu : RowWise p.cfg.space.length p.cfg.predict mu sd) (hn : p.cfg.samples ≠ [])
    (hg : 1 ≤ p.cfg.perAxis) {numTrees maxDepth : Int} (ht : 0 < numTrees) (hd : 0 < maxDepth)
    (hclear : ∀ w t, ValidDraw p p.cfg.samples.length w → w.indices = List.range p.cfg.samples.length →
      (rfPartition p 1 maxDepth (some p.cfg.samples.length) fun _ => w).1.trees = some [t] →
      ClearTree p.cfg.space t.possible 100 1 (p.cfg.perAxis ^ p.cfg.selected.length) 0 maxDepth t.root t.leaves)
    {I : ℕ → ℕ → Ω → ℕ} (hI : ∀ k : ℕ, (k : Int) < numTrees → UniformIndices P p.cfg.samples.length (I k)) :
    ∃ C c : ℝ, 0 < c ∧ ∀ m : ℕ, 1 ≤ m → P {ω | ¬ ∀ (mask : ℕ → List Bool) (choice : ℕ → ℕ), (∀ k, (mask k).length = p.possible.length) → (∀ k, choice k < p.possible.length) →
      ∃ A B, rfPartition p numTrees maxDepth (some m) (fun k => ⟨(List.range m).map fun i => I k i ω, mask k, choice k⟩) = (A, .ok ()) ∧
        rfPartition p numTrees maxDepth (some p.cfg.samples.length) (fun k => ⟨List.range p.cfg.samples.length, mask k, choice k⟩) = (B, .ok ()) ∧
        (A.trees.getD []).length = numTrees ∧
        (A.trees.getD []).map (fun t => t.leaves.map Node.conds) = (B.trees.getD []).map (fun t => t.leaves.map Node.conds) ∧
        ∀ ofVector inc mo, rfIncumbentRegion ofVector A inc mo = rfIncumbentRegion ofVector B inc mo} ≤ ENNReal.ofReal (C * Real.exp (-c * m)) := by
  obtain ⟨i, hi, -, -, hicfg⟩ := rfIce_ok hp
  have hnl : 0 < p.cfg.samples.length := List.length_pos_iff.2 hn
  have hfull : ∀ (mask : List Bool) (choice : Nat), mask.length = p.possible.length → choice < p.possible.length →
      ∃ t₀, growTree p i maxDepth ⟨List.range p.cfg.samples.length, mask, choice⟩ = .ok t₀ ∧
        ClearTree p.cfg.space t₀.possible 100 1 (p.cfg.perAxis ^ p.cfg.selected.length) 0 maxDepth t₀.root t₀.leaves := by
    intro mask choice h1 h2
    have hv : ValidDraw p p.cfg.samples.length ⟨List.range p.cfg.samples.length, mask, choice⟩ := ⟨by simp, fun i hi => List.mem_range.1 hi, h1, h2⟩
    obtain ⟨-, t, -, g, -⟩ := growTree_ok hp hmu hn hg hicfg hnl hd hv
    refine ⟨t, g, hclear _ t hv rfl ?_⟩
    rw [partition_of_trees (ts := [t]) hi one_pos hd (by exact_mod_cast hnl) (by simpa using g)]
  have hev : ∀ᶠ a in tailFilter P expRates ⟨_, 0, 1, le_rfl, one_pos, rfl⟩ exp_rates.1, ∀ (k : Fin numTrees.toNat) (u : Fin p.possible.length → Bool) (c : Fin p.possible.length),
      ∃ t₀ t, growTree p i maxDepth ⟨List.range p.cfg.samples.length, List.ofFn u, c⟩ = .ok t₀ ∧
        growTree p i maxDepth ⟨(List.range a.1).map fun j => I k j a.2, List.ofFn u, c⟩ = .ok t ∧
        t₀.cfg.space = t.cfg.space ∧ t₀.leaves.map Node.conds = t.leaves.map Node.conds := by
    refine eventually_all.2 fun k => eventually_all.2 fun u => eventually_all.2 fun c => ?_
    obtain ⟨t₀, h1, h2⟩ := hfull (List.ofFn u) c (by simp) c.2
    filter_upwards [drawn_tree hp hmu hn hg hicfg hd (by simp) c.2 h1 h2 (hI k (by have := k.2; omega))] with a ⟨t, h3, h4⟩
    exact ⟨t₀, t, h1, h3, h4⟩
  obtain ⟨r, ⟨C, c, -, hc, rfl⟩, hr⟩ := mem_tail.1 hev
  refine ⟨C, c, hc, fun m hm => (measure_mono ?_).trans (hr m)⟩
  rintro ω hω hgood
  refine hω fun mask choice hmask hchoice => ?_
  have hall : ∀ k ∈ List.range numTrees.toNat, ∃ t : DT ℝ × DT ℝ, growTree p i maxDepth ⟨List.range p.cfg.samples.length, mask k, choice k⟩ = .ok t.1 ∧
      growTree p i maxDepth ⟨(List.range m).map fun j => I k j ω, mask k, choice k⟩ = .ok t.2 ∧
      t.1.cfg.space = t.2.cfg.space ∧ t.1.leaves.map Node.conds = t.2.leaves.map Node.conds := by
    intro k hk
    obtain ⟨t₀, t, h1, h2, h3⟩ := hgood ⟨k, List.mem_range.1 hk⟩ (fun j => (mask k)[j.1]'(by rw [hmask k]; exact j.2)) ⟨choice k, hchoice k⟩
    have e : List.ofFn (fun j : Fin p.possible.length => (mask k)[j.1]'(by rw [hmask k]; exact j.2)) = mask k := by
      refine List.ext_getElem (by simp [hmask k]) fun j _ _ => by simp
    rw [e] at h1 h2
    exact ⟨(t₀, t), h1, h2, h3⟩
  have hne : Nonempty (DT ℝ × DT ℝ) := ⟨(hall 0 (List.mem_range.2 (by omega))).choose⟩
  choose! T h1 h2 h3 using hall
  obtain ⟨ks, hks⟩ : ∃ ks, ks = List.range numTrees.toNat := ⟨_, rfl⟩
  rw [← hks] at h1 h2 h3
  refine ⟨_, _, partition_of_trees (ts := ks.map fun k => (T k).2) hi ht hd (by exact_mod_cast hm) ?_,
    partition_of_trees (ts := ks.map fun k => (T k).1) hi ht hd (by exact_mod_cast hnl) ?_, ?_, ?_, fun ofVector inc mo => ?_⟩
  · rw [← hks, List.forall₂_map_left_iff, List.forall₂_map_right_iff, List.forall₂_same]
    exact h2
  · rw [← hks, List.forall₂_map_left_iff, List.forall₂_map_right_iff, List.forall₂_same]
    exact h1
  · simp [hks]
    omega
  · simp only [Option.getD_some, List.map_map]
    exact List.map_congr_left fun k hk => (h3 k hk).2.symm
  · refine (forest_conds (p := { p with ice := some i, trees := none }) ?_ ofVector inc mo).symm
    rw [List.forall₂_map_left_iff, List.forall₂_map_right_iff, List.forall₂_same]
    exact h3

/-- exponentially improbable failures happen only finitely often -/
theorem almost_of_rate {φ : ℕ → Ω → Prop} (h : ∃ C c : ℝ, 0 < c ∧ ∀ m : ℕ, 1 ≤ m → P {ω | ¬ φ m ω} ≤ ENNReal.ofReal (C * Real.exp (-c * m))) :
    ∀ᵐ ω ∂P, ∀ᶠ m in atTop, φ m ω := by
  obtain ⟨C, c, hc, h⟩ := h
  have hsum : Summable fun m : ℕ => |C| * Real.exp (-c * (m + 1 : ℕ)) := by
    refine Summable.mul_left _ ((summable_nat_add_iff (f := fun m : ℕ => Real.exp (-c * m)) 1).2 ?_)
    simpa only [mul_comm] using Real.summable_exp_nat_mul_iff.2 (neg_lt_zero.2 hc)
  have hfin : ∑' m, P {ω | ¬ φ (m + 1) ω} ≠ ⊤ := by
    refine ne_top_of_le_ne_top hsum.tsum_ofReal_ne_top (ENNReal.tsum_le_tsum fun m => (h (m + 1) (by omega)).trans (ENNReal.ofReal_le_ofReal ?_))
    exact mul_le_mul_of_nonneg_right (le_abs_self _) (Real.exp_pos _).le
  filter_upwards [ae_eventually_notMem hfin] with ω hω
  obtain ⟨N, hN⟩ := eventually_atTop.1 hω
  refine eventually_atTop.2 ⟨N + 1, fun m hm => ?_⟩
  have := not_not.1 (hN (m - 1) (by omega))
  rwa [Nat.sub_add_cancel (by omega)] at this

/-- and almost surely they all are the trees of all samples from some number of draws on -/
theorem C190_settles {p : RF ℝ} (hp : ValidRF p) {mu sd : List ℝ → ℝ} (hmu : RowWise p.cfg.space.length p.cfg.predict mu sd) (hn : p.cfg.samples ≠ [])
    (hg : 1 ≤ p.cfg.perAxis) {numTrees maxDepth : Int} (ht : 0 < numTrees) (hd : 0 < maxDepth)
    (hclear : ∀ w t, ValidDraw p p.cfg.samples.length w → w.indices = List.range p.cfg.samples.length →
      (rfPartition p 1 maxDepth (some p.cfg.samples.length) fun _ => w).1.trees = some [t] →
      ClearTree p.cfg.space t.possible 100 1 (p.cfg.perAxis ^ p.cfg.selected.length) 0 maxDepth t.root t.leaves)
    {I : ℕ → ℕ → Ω → ℕ} (hI : ∀ k : ℕ, (k : Int) < numTrees → UniformIndices P p.cfg.samples.length (I k)) :
    ∀ᵐ ω ∂P, ∀ᶠ m : ℕ in atTop, ∀ (mask : ℕ → List Bool) (choice : ℕ → ℕ), (∀ k, (mask k).length = p.possible.length) → (∀ k, choice k < p.possible.length) →
      ∃ A B, rfPartition p numTrees maxDepth (some m) (fun k => ⟨(List.range m).map fun i => I k i ω, mask k, choice k⟩) = (A, .ok ()) ∧
        rfPartition p numTrees maxDepth (some p.cfg.samples.length) (fun k => ⟨List.range p.cfg.samples.length, mask k, choice k⟩) = (B, .ok ()) ∧
        (A.trees.getD []).length = numTrees ∧
        (A.trees.getD []).map (fun t => t.leaves.map Node.conds) = (B.trees.getD []).map (fun t => t.leaves.map Node.conds) ∧
        ∀ ofVector inc mo, rfIncumbentRegion ofVector A inc mo = rfIncumbentRegion ofVector B inc mo :=
  almost_of_rate (C190_forest hp hmu hn hg ht hd hclear hI)

end forest

/-- there are such draws, for any number of trees -/
theorem uniform_exists {n : Nat} (hn : 0 < n) : ∃ (P : Measure (ℕ → ℕ → Fin n)) (I : ℕ → ℕ → (ℕ → ℕ → Fin n) → ℕ), IsProbabilityMeasure P ∧ ∀ k, UniformIndices P n (I k) := by
  have : Nonempty (Fin n) := ⟨⟨0, hn⟩⟩
  obtain ⟨Q, hQ⟩ : ∃ Q : Measure (Fin n), Q = uniformOn Set.univ := ⟨_, rfl⟩
  have hQp : IsProbabilityMeasure Q := by rw [hQ]; infer_instance
  obtain ⟨R, hR⟩ : ∃ R : Measure (ℕ → Fin n), R = Measure.infinitePi fun _ => Q := ⟨_, rfl⟩
  have hRp : IsProbabilityMeasure R := by rw [hR]; infer_instance
  have e1 : ∀ k, (Measure.infinitePi fun _ : ℕ => R).map (fun ω => ω k) = R := fun k => (measurePreserving_eval_infinitePi (fun _ : ℕ => R) k).map_eq
  have e2 : ∀ i, R.map (fun ω => ω i) = Q := fun i => by rw [hR]; exact (measurePreserving_eval_infinitePi (fun _ : ℕ => Q) i).map_eq
  have hind : iIndepFun (fun (i : ℕ) (ω : ℕ → Fin n) => ω i) R := by
    rw [hR]
    exact iIndepFun_infinitePi (P := fun _ : ℕ => Q) (X := fun _ x => x) fun _ => measurable_id
  have hval : Measurable fun j : Fin n => j.1 := measurable_of_countable _
  refine ⟨Measure.infinitePi fun _ => R, fun k i ω => (ω k i).1, inferInstance, fun k => ⟨fun i => ?_, ?_, fun i ω => (ω k i).2, fun i j hj => ?_⟩⟩
  · exact hval.comp ((measurable_pi_apply i).comp (measurable_pi_apply k))
  · have h1 : iIndepFun (fun (i : ℕ) (ω : ℕ → Fin n) => (ω i).1) R := hind.comp _ fun _ => hval
    refine (iIndepFun_iff_measure_inter_preimage_eq_mul).2 fun s sets hs => ?_
    have h2 := (iIndepFun_iff_measure_inter_preimage_eq_mul).1 h1 s hs
    have hm : ∀ i ∈ s, MeasurableSet ((fun ω : ℕ → Fin n => (ω i).1) ⁻¹' sets i) := fun i hi => (hval.comp (measurable_pi_apply i)) (hs i hi)
    rw [← e1 k, Measure.map_apply (measurable_pi_apply k) (Finset.measurableSet_biInter _ hm)] at h2
    rw [Finset.prod_congr rfl fun i hi => Measure.map_apply (measurable_pi_apply k) (hm i hi)] at h2
    simp only [Set.preimage_iInter] at h2
    exact h2
  · have h1 : {ω : ℕ → ℕ → Fin n | (ω k i).1 = j} = (fun ω => ω k) ⁻¹' ((fun ω => ω i) ⁻¹' {⟨j, hj⟩}) := by
      ext ω
      simp [Fin.ext_iff]
    rw [h1, ← Measure.map_apply (measurable_pi_apply k) ((measurable_pi_apply i) (measurableSet_singleton _)), e1,
      ← Measure.map_apply (measurable_pi_apply i) (measurableSet_singleton _), e2, hQ]
    simp [uniformOn_univ]

/-! ### an example -/

private def bsA : Hp ℝ := ⟨"a", .float 0 1 false⟩
private def bsB : Hp ℝ := ⟨"b", .float 0 1 false⟩
private noncomputable def bsSd (r : List ℝ) : ℝ := if r.getD 1 0 < 1/2 then 0 else 1
private noncomputable def bsForest : RF ℝ :=
  ⟨⟨[bsA, bsB], [bsA], [[0, 1/8], [0, 7/8]], 2, 3, 3, false, fun X => .ok (X.map fun _ => 0, X.map bsSd)⟩, [bsB], 100, 10, none, none⟩

private theorem bs_wf : ConfigSpace.WF [bsA, bsB] := by simp [ConfigSpace.WF, bsA, bsB]

private theorem bs_valid : ValidRF bsForest :=
  ⟨⟨bs_wf, by simp [bsForest], by simp [bsForest], by simp [bsForest], by simp [bsForest], rfl, rfl⟩, rfl, by simp [bsForest, bsA, bsB], by simp [bsForest]⟩

/-- Two samples, and ten trees of depth 3: the assumptions hold, and there are such draws. -/
example : ∃ (P : Measure (ℕ → ℕ → Fin 2)) (I : ℕ → ℕ → (ℕ → ℕ → Fin 2) → ℕ) (C c : ℝ), IsProbabilityMeasure P ∧ (∀ k, UniformIndices P 2 (I k)) ∧ 0 < c ∧
    ∀ m : ℕ, 1 ≤ m → P {ω | ¬ ∃ A B, rfPartition bsForest 10 3 (some m) (fun k => ⟨(List.range m).map fun i => I k i ω, [true], 0⟩) = (A, .ok ()) ∧
      rfPartition bsForest 10 3 (some 2) (fun _ => ⟨[0, 1], [true], 0⟩) = (B, .ok ()) ∧
      (A.trees.getD []).map (fun t => t.leaves.map Node.conds) = (B.trees.getD []).map (fun t => t.leaves.map Node.conds)} ≤ ENNReal.ofReal (C * Real.exp (-c * m)) := by
  obtain ⟨P, I, hP, hI⟩ := uniform_exists (n := 2) two_pos
  have hmu : RowWise bsForest.cfg.space.length bsForest.cfg.predict (fun _ => 0) bsSd := fun X _ _ => rfl
  have hn : bsForest.cfg.samples ≠ [] := by simp [bsForest]
  have hg : 1 ≤ bsForest.cfg.perAxis := by simp [bsForest]
  obtain ⟨C, c, hc, h⟩ := C190_forest (P := P) bs_valid hmu hn hg (numTrees := 10) (maxDepth := 3) (by norm_num) (by norm_num) (by
    intro w t hw _ ht
    obtain ⟨own, trees, i, h1, -, -, h4, -, h6, h7⟩ := C66_partition bs_valid hmu hn hg (numTrees := 1) (maxDepth := 3) (size := 2) one_pos (by norm_num) two_pos
      (draw := fun _ => w) fun k _ => hw
    have e : trees = [t] := by
      have : (rfPartition bsForest 1 3 (some 2) fun _ => w).1.trees = some [t] := ht
      rw [h4] at this
      exact Option.some.inj this
    obtain ⟨hlen, hT⟩ := h7 0 t (by rw [e]; rfl)
    have hposs : t.possible = [bsB] := by
      have hsub : List.Sublist t.possible [bsB] := hT.splits_sub
      have hne := hT.splits_ne
      generalize t.possible = L at hsub hne
      cases hsub with
      | cons _ h => exact absurd (List.sublist_nil.1 h) hne
      | cons_cons _ h => rw [List.sublist_nil.1 h]
    have hG := hT.leaves
    rw [hposs] at hG ⊢
    exact clear_of_two bs_wf hG (by have : ((curves t.root).length : Int) = 2 := hlen
                                    omega)) (I := I) fun k _ => hI k
  refine ⟨P, I, C, c, hP, hI, hc, fun m hm => (measure_mono ?_).trans (h m hm)⟩
  rintro ω hω hgood
  obtain ⟨A, B, h1, h2, -, h3, -⟩ := hgood (fun _ => [true]) (fun _ => 0) (fun _ => rfl) (fun _ => by simp [bsForest])
  exact hω ⟨A, B, h1, h2, h3⟩

end PyPDP
