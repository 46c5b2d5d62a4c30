/-
C186: with enough random samples the tree is the tree of the distribution.
-/
import Verif.Spec.PopulationTree
import Verif.Props.Recovery
import Verif.Props.PdpTruth
import Verif.Props.MmdConsistency

namespace PyPDP
open Spec MeasureTheory ProbabilityTheory Filter Topology

/-! ### sums over random samples -/

section sums
variable {Ω : Type} [MeasurableSpace Ω] {F : Nat}

omit [MeasurableSpace Ω] in
theorem sum_filter_firstSamples (X : ℕ → Ω → Fin F → ℝ) (A : List ℝ → Bool) (q : List ℝ → ℝ) (n : Nat) (ω : Ω) :
    (((firstSamples X n ω).filter A).map q).sum = ∑ i ∈ Finset.range n, if A (List.ofFn (X i ω)) = true then q (List.ofFn (X i ω)) else 0 := by
  unfold firstSamples
  induction n with
  | zero => simp
  | succ n ih =>
    rw [List.range_succ, List.map_append, List.filter_append, List.map_append, List.sum_append, ih, Finset.sum_range_succ]
    congr 1
    by_cases h : A (List.ofFn (X n ω)) = true <;> simp [h]

theorem passing_measurable_below {A : List ℝ → Bool} (hA : MeasurableSet (passing (F := F) A)) (f : Nat) (t : ℝ) :
    MeasurableSet (passing (F := F) (testBelow A f t)) ∧ MeasurableSet (passing (F := F) (testAbove A f t)) := by
  have hm : Measurable fun x : Fin F → ℝ => (List.ofFn x).getD f 0 := by
    by_cases hf : f < F
    · have : (fun x : Fin F → ℝ => (List.ofFn x).getD f 0) = fun x => x ⟨f, hf⟩ := by
        funext x
        simp [hf]
      rw [this]
      exact measurable_pi_apply _
    · have : (fun x : Fin F → ℝ => (List.ofFn x).getD f 0) = fun _ => 0 := by
        funext x
        simp [hf]
      rw [this]
      exact measurable_const
  constructor
  · have : passing (F := F) (testBelow A f t) = passing A ∩ {x | (List.ofFn x).getD f 0 ≤ t} := by
      ext x
      simp [passing, testBelow]
    rw [this]
    exact hA.inter (measurableSet_le hm measurable_const)
  · have : passing (F := F) (testAbove A f t) = passing A ∩ {x | t < (List.ofFn x).getD f 0} := by
      ext x
      simp [passing, testAbove]
    rw [this]
    exact hA.inter (measurableSet_lt measurable_const hm)

variable {P : Measure Ω} [IsProbabilityMeasure P] {X : ℕ → Ω → Fin F → ℝ}

omit [IsProbabilityMeasure P] in
/-- the strong law for the samples in a region -/
theorem region_law (hX : IsRandomSample P X) {A : List ℝ → Bool} (hA : MeasurableSet (passing (F := F) A)) {q : List ℝ → ℝ}
    (hq : Measurable fun x : Fin F → ℝ => q (List.ofFn x)) (hi : Integrable (fun x : Fin F → ℝ => q (List.ofFn x)) (P.map (X 0))) :
    ∀ᵐ ω ∂P, Tendsto (fun n : ℕ => (((firstSamples X n ω).filter A).map q).sum / n) atTop (𝓝 (∫ x in passing A, q (List.ofFn x) ∂(P.map (X 0)))) := by
  have hmeas : Measurable fun x : Fin F → ℝ => if A (List.ofFn x) = true then q (List.ofFn x) else 0 := Measurable.ite hA hq measurable_const
  have hind : (fun x : Fin F → ℝ => if A (List.ofFn x) = true then q (List.ofFn x) else 0) = (passing A).indicator fun x => q (List.ofFn x) := by
    funext x
    simp [Set.indicator_apply, passing]
  have hint : Integrable (fun x : Fin F → ℝ => if A (List.ofFn x) = true then q (List.ofFn x) else 0) (P.map (X 0)) := by
    rw [hind]
    exact hi.indicator hA
  have hlaw := strong_law_ae_real (fun i ω => if A (List.ofFn (X i ω)) = true then q (List.ofFn (X i ω)) else 0) (hint.comp_measurable (hX.meas 0))
    (fun i j hij => (hX.indep hij).comp hmeas hmeas)
    (fun i => (IdentDistrib.mk (hX.meas i).aemeasurable (hX.meas 0).aemeasurable (hX.ident i)).comp hmeas)
  have hval : ∫ ω, (if A (List.ofFn (X 0 ω)) = true then q (List.ofFn (X 0 ω)) else 0) ∂P = ∫ x in passing A, q (List.ofFn x) ∂(P.map (X 0)) := by
    rw [← integral_indicator hA, ← hind, integral_map (hX.meas 0).aemeasurable hmeas.aestronglyMeasurable]
  rw [hval] at hlaw
  simp only [sum_filter_firstSamples]
  exact hlaw

theorem region_share (hX : IsRandomSample P X) {A : List ℝ → Bool} (hA : MeasurableSet (passing (F := F) A)) :
    ∀ᵐ ω ∂P, Tendsto (fun n : ℕ => (((firstSamples X n ω).filter A).length : ℝ) / n) atTop (𝓝 ((P.map (X 0)).real (passing A))) := by
  have : IsProbabilityMeasure (P.map (X 0)) := Measure.isProbabilityMeasure_map (hX.meas 0).aemeasurable
  have h := region_law hX hA (q := fun _ => 1) measurable_const (integrable_const _)
  simpa using h

omit [IsProbabilityMeasure P] in
/-- no sample is in a region without probability -/
theorem region_null (hX : IsRandomSample P X) {S : Set (Fin F → ℝ)} (hS : P.map (X 0) S = 0) : ∀ᵐ ω ∂P, ∀ i, X i ω ∉ S := by
  rw [ae_all_iff]
  intro i
  have : ∀ᵐ x ∂(P.map (X i)), x ∉ S := by
    rw [hX.ident i, ae_iff]
    simpa using hS
  exact ae_of_ae_map (hX.meas i).aemeasurable this

omit [MeasurableSpace Ω] in
theorem mem_firstSamples {n : Nat} {ω : Ω} {r : List ℝ} (h : r ∈ firstSamples X n ω) : ∃ i, r = List.ofFn (X i ω) := by
  obtain ⟨i, -, rfl⟩ := List.mem_map.1 h
  exact ⟨i, rfl⟩

theorem squares_about_mean (l : List ℝ) : (l.map fun a => (a - l.sum / l.length) ^ 2).sum = (l.map (· ^ 2)).sum - l.sum ^ 2 / l.length := by
  have key : ∀ (m : ℝ) (l : List ℝ), (l.map fun a => (a - m) ^ 2).sum = (l.map (· ^ 2)).sum - 2 * m * l.sum + l.length * m ^ 2 := by
    intro m l
    induction l with
    | nil => simp
    | cons a l ih =>
      simp only [List.map_cons, List.sum_cons, List.length_cons, ih]
      push_cast
      ring
  rw [key]
  rcases eq_or_ne (l.length : ℝ) 0 with h | h
  · rw [h]; simp
  · field_simp
    ring

theorem curveLoss_samples {idx : List Nat} {grid : List (List ℝ)} {mu sd : List ℝ → ℝ} {v : List ℝ → List ℝ → ℝ} (sub : List (List ℝ))
    (hv : ∀ t ∈ grid, ∀ r ∈ sub, sd (assignRow idx t r) ^ 2 = v t r) :
    curveLoss grid.length (sub.map (curveAt idx grid mu sd)) =
      (grid.map fun t => (sub.map fun r => v t r ^ 2).sum - (sub.map fun r => v t r).sum ^ 2 / sub.length).sum := by
  rw [← sum_range_getD]
  unfold curveLoss
  refine Finset.sum_congr rfl fun p hp => ?_
  have hp := Finset.mem_range.1 hp
  have hval : ∀ r ∈ sub, (curveAt idx grid mu sd r).2.2.getD p 0 = v (grid.getD p []) r := by
    intro r hr
    rw [← hv _ (getD_mem hp) r hr]
    simp [curveAt, List.getElem?_eq_getElem hp]
  have h1 : (sub.map (curveAt idx grid mu sd)).map (fun c => c.2.2.getD p 0) = sub.map fun r => v (grid.getD p []) r := by
    rw [List.map_map]
    exact List.map_congr_left hval
  have h2 := squares_about_mean (sub.map fun r => v (grid.getD p []) r)
  rw [← h1, List.map_map, List.map_map, List.length_map] at h2
  unfold meanVar
  refine Eq.trans ?_ (h2.trans ?_)
  · rw [List.map_map (f := curveAt idx grid mu sd)]
    rfl
  · rw [h1, List.map_map, List.length_map]
    rfl

theorem integral_about_mean {μ : Measure (Fin F → ℝ)} [IsProbabilityMeasure μ] {S : Set (Fin F → ℝ)} (h0 : 0 < μ.real S) {w : (Fin F → ℝ) → ℝ}
    (hw : Measurable w) (hi : Integrable (fun x => w x ^ 2) μ) :
    ∫ x in S, (w x - (∫ x in S, w x ∂μ) / μ.real S) ^ 2 ∂μ = ∫ x in S, w x ^ 2 ∂μ - (∫ x in S, w x ∂μ) ^ 2 / μ.real S := by
  have hi1 : Integrable w μ := ((memLp_two_iff_integrable_sq hw.aestronglyMeasurable).2 hi).integrable (by norm_num)
  obtain ⟨m, hm⟩ : ∃ m, m = (∫ x in S, w x ∂μ) / μ.real S := ⟨_, rfl⟩
  have e : ∀ x, (w x - m) ^ 2 = w x ^ 2 - (2 * m) * w x + m ^ 2 := fun x => by ring
  rw [← hm]
  simp only [e]
  have hsub : Integrable (fun x => w x ^ 2 - (2 * m) * w x) (μ.restrict S) := hi.integrableOn.sub (hi1.integrableOn.const_mul _)
  rw [integral_add hsub (integrable_const _), integral_sub hi.integrableOn (hi1.integrableOn.const_mul _), integral_const_mul, integral_const, measureReal_restrict_apply_univ, smul_eq_mul, hm]
  field_simp
  ring

/-- the loss of the samples in a region, per sample, tends to the loss of the region -/
theorem region_loss (hX : IsRandomSample P X) {A : List ℝ → Bool} (hA : MeasurableSet (passing (F := F) A)) (h0 : 0 < (P.map (X 0)).real (passing A))
    {idx : List Nat} {grid : List (List ℝ)} {mu sd : List ℝ → ℝ} {v : List ℝ → List ℝ → ℝ}
    (hv : ∀ t ∈ grid, ∀ x : Fin F → ℝ, sd (assignRow idx t (List.ofFn x)) ^ 2 = v t (List.ofFn x))
    (hm : ∀ t ∈ grid, Measurable fun x : Fin F → ℝ => v t (List.ofFn x))
    (hi : ∀ t ∈ grid, Integrable (fun x : Fin F → ℝ => v t (List.ofFn x) ^ 2) (P.map (X 0))) :
    ∀ᵐ ω ∂P, Tendsto (fun n : ℕ => curveLoss grid.length (((firstSamples X n ω).filter A).map (curveAt idx grid mu sd)) / n) atTop
      (𝓝 (populationLoss (P.map (X 0)) grid v A)) := by
  have hprob : IsProbabilityMeasure (P.map (X 0)) := Measure.isProbabilityMeasure_map (hX.meas 0).aemeasurable
  have hone : ∀ t ∈ grid, ∀ᵐ ω ∂P, Tendsto (fun n : ℕ => ((((firstSamples X n ω).filter A).map fun r => v t r ^ 2).sum -
      (((firstSamples X n ω).filter A).map fun r => v t r).sum ^ 2 / ((firstSamples X n ω).filter A).length) / n) atTop
      (𝓝 (∫ x in passing A, (v t (List.ofFn x) - (∫ x in passing A, v t (List.ofFn x) ∂(P.map (X 0))) / (P.map (X 0)).real (passing (F := F) A)) ^ 2 ∂(P.map (X 0)))) := by
    intro t ht
    have hi1 : Integrable (fun x : Fin F → ℝ => v t (List.ofFn x)) (P.map (X 0)) :=
      ((memLp_two_iff_integrable_sq (hm t ht).aestronglyMeasurable).2 (hi t ht)).integrable (by norm_num)
    rw [integral_about_mean h0 (hm t ht) (hi t ht)]
    filter_upwards [region_law hX hA (q := fun r => v t r ^ 2) ((hm t ht).pow_const 2) (hi t ht), region_law hX hA (hm t ht) hi1, region_share hX hA] with ω a b c
    refine (a.sub ((b.pow 2).div c h0.ne')).congr' ?_
    filter_upwards [eventually_gt_atTop 0] with n hn
    have hn : (n : ℝ) ≠ 0 := by exact_mod_cast hn.ne'
    simp only [Pi.div_apply]
    rcases eq_or_ne (((firstSamples X n ω).filter A).length : ℝ) 0 with h | h
    · rw [h]
      simp
    · field_simp
  have hall : ∀ᵐ ω ∂P, ∀ p : Fin grid.length, Tendsto (fun n : ℕ => ((((firstSamples X n ω).filter A).map fun r => v grid[p] r ^ 2).sum -
      (((firstSamples X n ω).filter A).map fun r => v grid[p] r).sum ^ 2 / ((firstSamples X n ω).filter A).length) / n) atTop
      (𝓝 (∫ x in passing A, (v grid[p] (List.ofFn x) - (∫ x in passing A, v grid[p] (List.ofFn x) ∂(P.map (X 0))) / (P.map (X 0)).real (passing (F := F) A)) ^ 2 ∂(P.map (X 0)))) :=
    ae_all_iff.2 fun p => hone _ (List.getElem_mem _)
  filter_upwards [hall] with ω h
  have hs := tendsto_finsetSum Finset.univ fun (p : Fin grid.length) _ => h p
  unfold populationLoss
  have e1 : ∀ φ : List ℝ → ℝ, (grid.map φ).sum = ∑ p : Fin grid.length, φ grid[p] := by
    intro φ
    rw [← List.sum_ofFn]
    congr 1
    refine List.ext_getElem (by simp) fun i h1 h2 => by simp
  rw [e1]
  refine hs.congr fun n => ?_
  rw [curveLoss_samples (v := v) _ fun t ht r hr => ?_, e1, Finset.sum_div]
  obtain ⟨i, rfl⟩ := mem_firstSamples (List.mem_of_mem_filter hr)
  exact hv t ht _

end sums

/-! ### the tree -/

section tree
variable {Ω : Type} [MeasurableSpace Ω] {P : Measure Ω} [IsProbabilityMeasure P] {space : ConfigSpace ℝ} {X : ℕ → Ω → Fin space.length → ℝ}
  {idx : List Nat} {grid : List (List ℝ)} {mu sd : List ℝ → ℝ} {v : List ℝ → List ℝ → ℝ} {possible : List (Hp ℝ)} {N minPoints : Nat}

omit [MeasurableSpace Ω] in
theorem parts_filter (hg : grid ≠ []) {f : Nat} (hf : f ∉ idx) (t : ℝ) (S : List (List ℝ)) (A : List ℝ → Bool) :
    lowerPart f t ((S.filter A).map (curveAt idx grid mu sd)) = (S.filter (testBelow A f t)).map (curveAt idx grid mu sd) ∧
    upperPart f t ((S.filter A).map (curveAt idx grid mu sd)) = (S.filter (testAbove A f t)).map (curveAt idx grid mu sd) := by
  constructor
  · unfold lowerPart
    rw [List.filter_map, List.filter_filter]
    congr 2
    funext r
    simp only [Function.comp, featureOf_curveAt hg hf, testBelow, Bool.and_comm]
  · unfold upperPart
    rw [List.filter_map, List.filter_filter]
    congr 2
    funext r
    simp only [Function.comp, featureOf_curveAt hg hf, testAbove, Bool.and_comm]

/-- below every node of the tree of the distribution, the tree of the samples is almost surely the same from some number of samples on -/
theorem population_core (hwf : space.WF) (hX : IsRandomSample P X) (hg : grid ≠ []) (hfree : ∀ hp ∈ possible, ∀ f, IsFeature space hp f → f ∉ idx)
    (hmp : 1 ≤ minPoints)
    (hv : ∀ t ∈ grid, ∀ x : Fin space.length → ℝ, sd (assignRow idx t (List.ofFn x)) ^ 2 = v t (List.ofFn x))
    (hm : ∀ t ∈ grid, Measurable fun x : Fin space.length → ℝ => v t (List.ofFn x))
    (hi : ∀ t ∈ grid, Integrable (fun x : Fin space.length → ℝ => v t (List.ofFn x) ^ 2) (P.map (X 0)))
    {depth : Int} {A : List ℝ → Bool} {conds : List (Cond ℝ)} {k : Nat} {R : List ((List ℝ → Bool) × List (Cond ℝ))}
    (hT : PopulationTree (P.map (X 0)) grid v space possible N depth A conds k R) :
    MeasurableSet (passing (F := space.length) A) → 0 < (P.map (X 0)).real (passing A) →
    (∀ p ∈ R, MeasurableSet (passing (F := space.length) p.1) ∧ 0 < (P.map (X 0)).real (passing p.1)) ∧
    ∀ᵐ ω ∂P, ∀ᶠ n in atTop, ∀ (m : Node ℝ) (L : List (Node ℝ)), m.depth = k → m.conds = conds →
      curves m = ((firstSamples X n ω).filter A).map (curveAt idx grid mu sd) → Greedy space possible N minPoints grid.length depth m L →
      List.Forall₂ (fun p m' => m'.conds = p.2 ∧ curves m' = ((firstSamples X n ω).filter p.1).map (curveAt idx grid mu sd)) R L := by
  have hnull : ∀ {A : List ℝ → Bool}, MeasurableSet (passing (F := space.length) A) → ∀ᵐ ω ∂P, ∀ n, ∀ i j hp f,
      IsCandidate space possible N minPoints (((firstSamples X n ω).filter A).map (curveAt idx grid mu sd)) i j hp f →
      IsPopulationCandidate (P.map (X 0)) space possible N A i j hp f := by
    intro A hA
    have hprob : IsProbabilityMeasure (P.map (X 0)) := Measure.isProbabilityMeasure_map (hX.meas 0).aemeasurable
    have hz : ∀ B : List ℝ → Bool, ∀ᵐ ω ∂P, ¬ 0 < (P.map (X 0)).real (passing B) → ∀ n, (firstSamples X n ω).filter B = [] := by
      intro B
      by_cases hB : 0 < (P.map (X 0)).real (passing B)
      · exact ae_of_all _ fun ω h => absurd hB h
      · have h0 : P.map (X 0) (passing B) = 0 := by
          have := le_antisymm (not_lt.1 hB) measureReal_nonneg
          exact (measureReal_eq_zero_iff).1 this
        filter_upwards [region_null hX h0] with ω h _ n
        rw [List.filter_eq_nil_iff]
        intro r hr
        obtain ⟨i, rfl⟩ := mem_firstSamples hr
        exact h i
    have hall : ∀ᵐ ω ∂P, ∀ f j : ℕ, (¬ 0 < (P.map (X 0)).real (passing (testBelow A f (threshold N j))) → ∀ n, (firstSamples X n ω).filter (testBelow A f (threshold N j)) = []) ∧
        (¬ 0 < (P.map (X 0)).real (passing (testAbove A f (threshold N j))) → ∀ n, (firstSamples X n ω).filter (testAbove A f (threshold N j)) = []) :=
      ae_all_iff.2 fun f => ae_all_iff.2 fun j => (hz _).and (hz _)
    filter_upwards [hall] with ω h n i j hp f hc
    obtain ⟨e1, e2⟩ := parts_filter (mu := mu) (sd := sd) hg (hfree hp (List.mem_of_getElem? hc.hp_at) f hc.feature) (threshold N j) (firstSamples X n ω) A
    have s1 := hc.left_size
    have s2 := hc.right_size
    rw [e1, List.length_map] at s1
    rw [e2, List.length_map] at s2
    refine ⟨hc.hp_at, hc.feature, hc.one_le, hc.le, ?_, ?_⟩
    · by_contra hn
      rw [(h f j).1 hn n, List.length_nil] at s1
      omega
    · by_contra hn
      rw [(h f j).2 hn n, List.length_nil] at s2
      omega
  induction hT with
  | @leaf A conds k hstop =>
    intro hA h0
    refine ⟨by simpa using ⟨hA, h0⟩, ?_⟩
    filter_upwards [hnull hA] with ω h
    refine Eventually.of_forall fun n m L hd hc hcur hG => ?_
    cases hG with
    | leaf _ _ => exact .cons ⟨hc, hcur⟩ .nil
    | branch _ h1 _ h3 _ _ _ =>
      exfalso
      rcases hstop with hstop | hstop
      · omega
      · have := h3.1
        rw [hcur] at this
        exact hstop _ _ _ _ (h n _ _ _ _ this)
  | @branch A conds k i j hp f Ll Lr hk hb _ _ ihl ihr =>
    intro hA h0
    have hmeas := fun f j => passing_measurable_below hA f (threshold N j)
    obtain ⟨hl1, hl2⟩ := ihl (hmeas f j).1 hb.cand.left_pos
    obtain ⟨hr1, hr2⟩ := ihr (hmeas f j).2 hb.cand.right_pos
    refine ⟨fun p hp => (List.mem_append.1 hp).elim (hr1 p) (hl1 p), ?_⟩
    -- costs of all splits
    have hcost : ∀ᵐ ω ∂P, ∀ f' j' : ℕ, 0 < (P.map (X 0)).real (passing (testBelow A f' (threshold N j'))) → 0 < (P.map (X 0)).real (passing (testAbove A f' (threshold N j'))) →
        f' ∉ idx → Tendsto (fun n : ℕ => splitCost grid.length N (((firstSamples X n ω).filter A).map (curveAt idx grid mu sd)) f' j' / n) atTop
          (𝓝 (populationCost (P.map (X 0)) grid v N A f' j')) := by
      refine ae_all_iff.2 fun f' => ae_all_iff.2 fun j' => ?_
      by_cases h1 : 0 < (P.map (X 0)).real (passing (testBelow A f' (threshold N j')))
      swap
      · exact ae_of_all _ fun ω h => absurd h h1
      by_cases h2 : 0 < (P.map (X 0)).real (passing (testAbove A f' (threshold N j')))
      swap
      · exact ae_of_all _ fun ω _ h => absurd h h2
      filter_upwards [region_loss hX (hmeas f' j').1 h1 hv hm hi, region_loss hX (hmeas f' j').2 h2 hv hm hi] with ω a b _ _ hf
      refine (a.add b).congr fun n => ?_
      obtain ⟨e1, e2⟩ := parts_filter (mu := mu) (sd := sd) hg hf (threshold N j') (firstSamples X n ω) A
      rw [splitCost, e1, e2]
      ring
    have hsame : ∀ᵐ ω ∂P, ∀ f' j' : ℕ,
        P.map (X 0) {x | A (List.ofFn x) = true ∧ ¬ ((List.ofFn x).getD f' 0 ≤ threshold N j' ↔ (List.ofFn x).getD f 0 ≤ threshold N j)} = 0 →
        ∀ i, A (List.ofFn (X i ω)) = true → ((List.ofFn (X i ω)).getD f' 0 ≤ threshold N j' ↔ (List.ofFn (X i ω)).getD f 0 ≤ threshold N j) := by
      refine ae_all_iff.2 fun f' => ae_all_iff.2 fun j' => ?_
      by_cases h1 : P.map (X 0) {x | A (List.ofFn x) = true ∧ ¬ ((List.ofFn x).getD f' 0 ≤ threshold N j' ↔ (List.ofFn x).getD f 0 ≤ threshold N j)} = 0
      · filter_upwards [region_null hX h1] with ω h _ i hAi
        by_contra hc
        exact h i ⟨hAi, hc⟩
      · exact ae_of_all _ fun ω h => absurd h h1
    filter_upwards [hl2, hr2, hnull hA, hcost, hsame, region_share hX (hmeas f j).1, region_share hX (hmeas f j).2] with ω el er hn hc hs s1 s2
    have hmemp := List.mem_of_getElem? hb.cand.hp_at
    have hfi := hfree hp hmemp f hb.cand.feature
    have hmany : ∀ {B : List ℝ → Bool} {b : ℝ}, 0 < b → Tendsto (fun n : ℕ => (((firstSamples X n ω).filter B).length : ℝ) / n) atTop (𝓝 b) →
        ∀ᶠ n in atTop, minPoints ≤ ((firstSamples X n ω).filter B).length := by
      intro B b hb0 ht
      have h1 : Tendsto (fun n : ℕ => (((firstSamples X n ω).filter B).length : ℝ) / n * n) atTop atTop := ht.pos_mul_atTop hb0 tendsto_natCast_atTop_atTop
      filter_upwards [h1.eventually_ge_atTop (minPoints : ℝ), eventually_gt_atTop 0] with n h2 h3
      rw [div_mul_cancel₀ _ (by exact_mod_cast h3.ne')] at h2
      exact_mod_cast h2
    have hless : ∀ᶠ n in atTop, ∀ f' ∈ Finset.range space.length, ∀ j' ∈ Finset.range (N + 1), f' ∉ idx →
        0 < (P.map (X 0)).real (passing (testBelow A f' (threshold N j'))) → 0 < (P.map (X 0)).real (passing (testAbove A f' (threshold N j'))) →
        populationCost (P.map (X 0)) grid v N A f j < populationCost (P.map (X 0)) grid v N A f' j' →
        splitCost grid.length N (((firstSamples X n ω).filter A).map (curveAt idx grid mu sd)) f j <
          splitCost grid.length N (((firstSamples X n ω).filter A).map (curveAt idx grid mu sd)) f' j' := by
      rw [eventually_all_finset]
      intro f' _
      rw [eventually_all_finset]
      intro j' _
      by_cases hf' : f' ∈ idx
      · exact Eventually.of_forall fun n h => absurd hf' h
      by_cases h1 : 0 < (P.map (X 0)).real (passing (testBelow A f' (threshold N j')))
      swap
      · exact Eventually.of_forall fun n _ h => absurd h h1
      by_cases h2 : 0 < (P.map (X 0)).real (passing (testAbove A f' (threshold N j')))
      swap
      · exact Eventually.of_forall fun n _ _ h => absurd h h2
      by_cases h3 : populationCost (P.map (X 0)) grid v N A f j < populationCost (P.map (X 0)) grid v N A f' j'
      swap
      · exact Eventually.of_forall fun n _ _ _ h => absurd h h3
      filter_upwards [(hc f j hb.cand.left_pos hb.cand.right_pos hfi).eventually_lt (hc f' j' h1 h2 hf') h3, eventually_gt_atTop 0] with n h4 h5 _ _ _ _
      exact (div_lt_div_iff_of_pos_right (by exact_mod_cast h5)).1 h4
    filter_upwards [el, er, hless, hmany hb.cand.left_pos s1, hmany hb.cand.right_pos s2] with n el er hless m1 m2 m L hdep hcond hcur hG
    obtain ⟨p1, p2⟩ := parts_filter (mu := mu) (sd := sd) hg hfi (threshold N j) (firstSamples X n ω) A
    have hbest : IsBestCandidate space possible N minPoints grid.length (curves m) i j hp f := by
      rw [hcur]
      refine ⟨⟨hb.cand.hp_at, hb.cand.feature, hb.cand.one_le, hb.cand.le, by rw [p1, List.length_map]; exact m1, by rw [p2, List.length_map]; exact m2⟩, ?_⟩
      intro i' j' hp' f' hcand
      have hpc := hn n i' j' hp' f' hcand
      rcases hb.best i' j' hp' f' hpc with h | ⟨h, hord⟩
      · have hflt : f' < space.length := by
          obtain ⟨x, hx, -⟩ := hcand.feature
          exact (List.getElem?_eq_some_iff.1 hx).1
        have := hless f' (Finset.mem_range.2 hflt) j' (Finset.mem_range.2 (by have := hcand.le; omega)) (hfree hp' (List.mem_of_getElem? hcand.hp_at) f' hcand.feature)
          hpc.left_pos hpc.right_pos h
        exact ⟨this.le, fun e => absurd e this.ne⟩
      · have : splitCost grid.length N (((firstSamples X n ω).filter A).map (curveAt idx grid mu sd)) f' j' =
            splitCost grid.length N (((firstSamples X n ω).filter A).map (curveAt idx grid mu sd)) f j := by
          apply same_sides
          intro c hcm
          obtain ⟨r, hr, rfl⟩ := List.mem_map.1 hcm
          obtain ⟨hr1, hr2⟩ := List.mem_filter.1 hr
          obtain ⟨a, rfl⟩ := mem_firstSamples hr1
          rw [featureOf_curveAt hg (hfree hp' (List.mem_of_getElem? hcand.hp_at) f' hcand.feature), featureOf_curveAt hg hfi]
          exact hs f' j' h a hr2
        exact ⟨this.ge, fun _ => hord⟩
    have hlen : 2 ≤ (curves m).length := by
      rw [← near_parts_length f (threshold N j) (curves m), hcur, p1, p2, List.length_map, List.length_map]
      omega
    cases hG with
    | leaf _ hstop =>
      exfalso
      rcases hstop with h | h | h
      · omega
      · omega
      · exact h _ _ _ _ hbest.1
    | @branch _ l r Ll' Lr' i' j' hp' f' _ _ _ hbest' hsp hGl hGr =>
      obtain ⟨rfl, rfl, rfl, rfl⟩ := best_unique hwf hbest hbest'
      refine List.rel_append (er r Lr' ?_ ?_ ?_ hGr) (el l Ll' ?_ ?_ ?_ hGl)
      · rw [hsp.right_depth, hdep]
      · rw [hsp.right_conds, hcond]
      · rw [hsp.right_curves, hcur]; exact p2
      · rw [hsp.left_depth, hdep]
      · rw [hsp.left_conds, hcond]
      · rw [hsp.left_curves, hcur]; exact p1

/-- the leaves hold, from some number of samples on, the curves of the samples in the regions of the tree of the distribution -/
theorem population_leaves {predict : Predict ℝ} {sel : Selection ℝ} {selected : List (Hp ℝ)} {g : Nat} (h : PdpSetting space predict sel selected g grid mu sd)
    {notSplittable : Option (Selection ℝ)} {ns : List (Hp ℝ)} (hns : notSplittableHps notSplittable space = .ok ns) (hX : IsRandomSample P X)
    (hsd : Measurable fun x : Fin space.length → ℝ => sd (List.ofFn x))
    (hi : ∀ t ∈ grid, Integrable (fun x : Fin space.length → ℝ => (sd (atPoint space selected t (List.ofFn x)) ^ 2) ^ 2) (P.map (X 0))) (hmp : 1 ≤ minPoints)
    {depth : Int} (hdep : 0 < depth) {R : List ((List ℝ → Bool) × List (Cond ℝ))}
    (hT : PopulationTree (P.map (X 0)) grid (fun t r => sd (atPoint space selected t r) ^ 2) space (possibleSplits space selected ns) N depth (fun _ => true) [] 0 R) :
    ∃ idx, (∀ t ∈ grid, ∀ x : Fin space.length → ℝ, assignRow idx t (List.ofFn x) = atPoint space selected t (List.ofFn x)) ∧
      (∀ q ∈ R, MeasurableSet (passing (F := space.length) q.1) ∧ 0 < (P.map (X 0)).real (passing q.1)) ∧
      ∀ᵐ ω ∂P, ∀ᶠ n in atTop, ∃ p leaves, dtInit space predict sel (firstSamples X n ω) g N minPoints notSplittable = .ok p ∧ p.cfg.selected = selected ∧
        p.possible = possibleSplits space selected ns ∧ RootOf space mu sd (firstSamples X n ω) g N minPoints p idx grid ∧ (dtPartition p depth).2 = .ok leaves ∧
        List.Forall₂ (fun q m => RegionShape grid.length space.length m ∧ m.conds = q.2 ∧
          curves m = ((firstSamples X n ω).filter q.1).map (curveAt idx grid mu sd)) R leaves := by
  have hprob : IsProbabilityMeasure (P.map (X 0)) := Measure.isProbabilityMeasure_map (hX.meas 0).aemeasurable
  have hg : 1 ≤ g := Nat.one_le_iff_ne_zero.2 h.grid_pos
  obtain ⟨grid', hgr, hgl, hfull⟩ := C40_grid (K := ℝ) (List.length_pos_iff.2 h.ne) g
  rw [h.grid_eq] at hgr
  obtain rfl := Except.ok.inj hgr
  have hvc : ValidCfg (⟨space, selected, [], 0, g, g ^ selected.length, false, predict⟩ : IceCfg ℝ) := ⟨h.wf, h.mem, h.distinct, h.ne, by simp, rfl, rfl⟩
  obtain ⟨idx, hidx, -, -⟩ := hvc.idx
  have hrow : ∀ t ∈ grid, ∀ x : Fin space.length → ℝ, assignRow idx t (List.ofFn x) = atPoint space selected t (List.ofFn x) := fun t ht x =>
    assignRow_atPoint hvc hidx (by simp) ((hfull.2 t).1 ht).1
  have hv : ∀ t ∈ grid, ∀ x : Fin space.length → ℝ, sd (assignRow idx t (List.ofFn x)) ^ 2 = sd (atPoint space selected t (List.ofFn x)) ^ 2 := by
    intro t ht x
    rw [hrow t ht]
  have hm : ∀ t ∈ grid, Measurable fun x : Fin space.length → ℝ => sd (atPoint space selected t (List.ofFn x)) ^ 2 := by
    intro t _
    obtain ⟨φ, h1, h2⟩ := atPoint_map space selected t
    simp only [h2]
    exact (hsd.comp h1).pow_const 2
  have hgne : grid ≠ [] := by
    rintro rfl
    have : 0 < g ^ selected.length := Nat.pow_pos hg
    simp at hgl
    omega
  have hfirst : ∀ n ≥ 1, ∀ ω, ∃ p, dtInit space predict sel (firstSamples X n ω) g N minPoints notSplittable = .ok p ∧ p.cfg.selected = selected ∧
      p.possible = possibleSplits space selected ns ∧ RootOf space mu sd (firstSamples X n ω) g N minPoints p idx grid := by
    intro n hn ω
    have hne : firstSamples X n ω ≠ [] := by rw [firstSamples, Ne, List.map_eq_nil_iff, List.range_eq_nil]; omega
    obtain ⟨p, q1, q2, q3, q4, q5, q6, q7, q8⟩ := dtInit_rows h.wf h.rowWise h.sel_eq h.mem h.distinct h.ne (firstSamples_width X n ω) hne hg N minPoints hns hidx h.grid_eq
    obtain ⟨idx', grid', hroot⟩ := rootOf h.wf h.rowWise (firstSamples_width X n ω) hne hg q1 (by rw [q3]; exact h.mem) (by rw [q3]; exact h.distinct) (by rw [q3]; exact h.ne)
    have e1 := hroot.idx_eq
    have e2 := hroot.grid_eq
    rw [q3, hidx] at e1
    rw [q3, h.grid_eq] at e2
    obtain rfl := Except.ok.inj e1
    obtain rfl := Except.ok.inj e2
    exact ⟨p, q1, q3, q4, hroot⟩
  have hfree : ∀ hp ∈ possibleSplits space selected ns, ∀ f, IsFeature space hp f → f ∉ idx := by
    obtain ⟨ω⟩ : Nonempty Ω := nonempty_of_isProbabilityMeasure P
    obtain ⟨p, -, -, h3, h4⟩ := hfirst 1 le_rfl ω
    rw [← h3]
    exact h4.free
  have htrue : passing (F := space.length) (fun _ => true) = Set.univ := by
    ext x
    simp [passing]
  obtain ⟨hpos, hcore⟩ := population_core (minPoints := minPoints) (mu := mu) h.wf hX hgne hfree hmp hv hm hi hT (by rw [htrue]; exact MeasurableSet.univ)
    (by rw [htrue]; simp)
  refine ⟨idx, hrow, hpos, ?_⟩
  filter_upwards [hcore] with ω hcore
  filter_upwards [hcore, eventually_ge_atTop 1] with n hcore hn1
  obtain ⟨p, q1, q3, q4, hroot⟩ := hfirst n hn1 ω
  obtain ⟨L, g1, -, g3, -⟩ := partition_eq hroot.valid hdep
  rw [hroot.space_eq, hroot.numSplits_eq, hroot.minPoints_eq, q4, ← hroot.grid_len] at g3
  refine ⟨p, L, q1, q3, q4, hroot, by rw [g1], ?_⟩
  refine forall₂_mem (hcore p.root L hroot.valid.depth hroot.valid.conds (by rw [hroot.curves_eq]; simp) g3) fun q m hq hm hc => ?_
  exact ⟨g3.shapes m hm, hc⟩

/-- **C186** With enough random samples the tree is the tree of their distribution. Let the samples be drawn independently from one distribution, and let `R` be the
tree of this distribution - in every region the split that minimises the expected losses, provided that there is only one such split, up to splits that are almost
surely the same and come later. Then almost surely, from some number of samples on, the leaves of the tree have exactly the conditions of the leaves of `R`, in this
order, and hold exactly the curves of the samples in these regions; the share of the samples in them and the losses per sample are as near as one likes to the
probabilities and losses of the regions. -/
theorem C186_tree {predict : Predict ℝ} {sel : Selection ℝ} {selected : List (Hp ℝ)} {g : Nat} (h : PdpSetting space predict sel selected g grid mu sd)
    {notSplittable : Option (Selection ℝ)} {ns : List (Hp ℝ)} (hns : notSplittableHps notSplittable space = .ok ns) (hX : IsRandomSample P X)
    (hsd : Measurable fun x : Fin space.length → ℝ => sd (List.ofFn x))
    (hi : ∀ t ∈ grid, Integrable (fun x : Fin space.length → ℝ => (sd (atPoint space selected t (List.ofFn x)) ^ 2) ^ 2) (P.map (X 0))) (hmp : 1 ≤ minPoints)
    {depth : Int} (hdep : 0 < depth) {R : List ((List ℝ → Bool) × List (Cond ℝ))}
    (hT : PopulationTree (P.map (X 0)) grid (fun t r => sd (atPoint space selected t r) ^ 2) space (possibleSplits space selected ns) N depth (fun _ => true) [] 0 R) :
    ∀ᵐ ω ∂P, ∀ ε > 0, ∃ n₀, ∀ n ≥ n₀, ∃ p leaves,
      dtInit space predict sel (firstSamples X n ω) g N minPoints notSplittable = .ok p ∧ (dtPartition p depth).2 = .ok leaves ∧
      List.Forall₂ (fun q m => m.conds = q.2 ∧ List.Forall₂ (IsCurveOf space selected (g ^ selected.length)) ((firstSamples X n ω).filter q.1) m.x ∧
        |(m.x.length : ℝ) / n - (P.map (X 0)).real (passing q.1)| ≤ ε ∧
        |regionLoss m.v / n - populationLoss (P.map (X 0)) grid (fun t r => sd (atPoint space selected t r) ^ 2) q.1| ≤ ε) R leaves := by
  have hprob : IsProbabilityMeasure (P.map (X 0)) := Measure.isProbabilityMeasure_map (hX.meas 0).aemeasurable
  obtain ⟨idx, hrow, hpos, hcore⟩ := population_leaves h hns hX hsd hi hmp hdep hT
  have hv : ∀ t ∈ grid, ∀ x : Fin space.length → ℝ, sd (assignRow idx t (List.ofFn x)) ^ 2 = sd (atPoint space selected t (List.ofFn x)) ^ 2 := by
    intro t ht x
    rw [hrow t ht]
  have hm : ∀ t ∈ grid, Measurable fun x : Fin space.length → ℝ => sd (atPoint space selected t (List.ofFn x)) ^ 2 := by
    intro t _
    obtain ⟨φ, h1, h2⟩ := atPoint_map space selected t
    simp only [h2]
    exact (hsd.comp h1).pow_const 2
  have hlim : ∀ᵐ ω ∂P, ∀ a : Fin R.length,
      Tendsto (fun n : ℕ => (((firstSamples X n ω).filter R[a].1).length : ℝ) / n) atTop (𝓝 ((P.map (X 0)).real (passing R[a].1))) ∧
      Tendsto (fun n : ℕ => curveLoss grid.length (((firstSamples X n ω).filter R[a].1).map (curveAt idx grid mu sd)) / n) atTop
        (𝓝 (populationLoss (P.map (X 0)) grid (fun t r => sd (atPoint space selected t r) ^ 2) R[a].1)) := by
    refine ae_all_iff.2 fun a => ?_
    obtain ⟨h1, h2⟩ := hpos _ (List.getElem_mem a.2)
    exact (region_share hX h1).and (region_loss hX h1 h2 hv hm hi)
  filter_upwards [hcore, hlim] with ω hcore hlim ε hε
  have hnear : ∀ᶠ n : ℕ in atTop, ∀ a : Fin R.length,
      |(((firstSamples X n ω).filter R[a].1).length : ℝ) / n - (P.map (X 0)).real (passing R[a].1)| < ε ∧
      |curveLoss grid.length (((firstSamples X n ω).filter R[a].1).map (curveAt idx grid mu sd)) / n -
        populationLoss (P.map (X 0)) grid (fun t r => sd (atPoint space selected t r) ^ 2) R[a].1| < ε := by
    rw [eventually_all]
    intro a
    exact (Metric.tendsto_nhds.1 (hlim a).1 ε hε).and (Metric.tendsto_nhds.1 (hlim a).2 ε hε)
  obtain ⟨n₀, hn₀⟩ := eventually_atTop.1 (hcore.and hnear)
  refine ⟨n₀, fun n hn => ?_⟩
  obtain ⟨⟨p, L, q1, q3, -, hroot, q5, hleaves⟩, hnear⟩ := hn₀ n hn
  refine ⟨p, L, q1, q5, ?_⟩
  refine forall₂_mem hleaves fun q m hq _ hc => ?_
  obtain ⟨hshape, hc⟩ := hc
  obtain ⟨a, ha, rfl⟩ := List.mem_iff_getElem.1 hq
  obtain ⟨b1, b2⟩ := hnear ⟨a, ha⟩
  have hlen : m.x.length = ((firstSamples X n ω).filter R[a].1).length := by
    rw [← hshape.map_x, hc.2]
    simp
  refine ⟨hc.1, ?_, ?_, ?_⟩
  · have hshape' := hshape
    rw [hroot.grid_len] at hshape'
    have := hroot.rows hshape' hc.2
    rw [q3] at this
    exact this
  · rw [hlen]
    exact b1.le
  · rw [regionLoss_curves hshape, hc.2]
    exact b2.le

end tree

/-! ### example: a surrogate with two standard deviations, one for each half of the second hyperparameter -/

section half
variable {a b : ℝ}

noncomputable def halfSd (a b : ℝ) (r : List ℝ) : ℝ := if r.getD 1 0 ≤ 1 / 2 then a else b

theorem halfSetting : PdpSetting stSpace (fun rows => .ok (rows.map fun _ => 0, rows.map (halfSd a b))) (.many [.name "x1"]) [⟨"x1", .float (-5) 5 false⟩] 3
    ([0, 1 / 2, 1].map fun v => [v]) (fun _ => 0) (halfSd a b) := { stSetting with rowWise := fun _ _ _ => rfl }

theorem half_ofFn (x : Fin stSpace.length → ℝ) : List.ofFn x = [x ⟨0, by simp [stSpace]⟩, x ⟨1, by simp [stSpace]⟩] := rfl

theorem half_value (t : ℝ) (x : Fin stSpace.length → ℝ) :
    halfSd a b (atPoint stSpace [⟨"x1", .float (-5) 5 false⟩] [t] (List.ofFn x)) ^ 2 = if x ⟨1, by simp [stSpace]⟩ ≤ 1 / 2 then a ^ 2 else b ^ 2 := by
  rw [half_ofFn]
  simp only [atPoint, stSpace, halfSd]
  simp

theorem half_possible : possibleSplits stSpace [⟨"x1", .float (-5) 5 false⟩] [] = [⟨"x2", .float (-5) 5 false⟩] := by simp [possibleSplits, stSpace]

theorem half_feature {hp : Hp ℝ} (h : hp = ⟨"x2", .float (-5) 5 false⟩) {f : Nat} : IsFeature stSpace hp f ↔ f = 1 := by
  subst h
  constructor
  · rintro ⟨x, h1, h2⟩
    rcases f with _ | _ | f
    · simp [stSpace] at h1
      subst h1
      simp at h2
    · rfl
    · simp [stSpace] at h1
  · rintro rfl
    exact ⟨⟨"x2", .float (-5) 5 false⟩, rfl, rfl⟩

noncomputable def halfMeasure : Measure (Fin stSpace.length → ℝ) := (uniformSamples stSpace.length).map fun ω => ω 0

instance : IsProbabilityMeasure halfMeasure := Measure.isProbabilityMeasure_map (measurable_pi_apply 0).aemeasurable

/-- probabilities of intervals -/
theorem half_interval {a b : ℝ} (h0 : 0 ≤ a) (hab : a < b) (h1 : b ≤ 1) :
    0 < halfMeasure {x | a < x ⟨1, by simp [stSpace]⟩ ∧ x ⟨1, by simp [stSpace]⟩ ≤ b} := by
  have hm : Measurable fun ω : ℕ → Fin stSpace.length → ℝ => ω 0 ⟨1, by simp [stSpace]⟩ := (measurable_pi_apply _).comp (measurable_pi_apply 0)
  have hs : MeasurableSet {x : Fin stSpace.length → ℝ | a < x ⟨1, by simp [stSpace]⟩ ∧ x ⟨1, by simp [stSpace]⟩ ≤ b} :=
    (measurable_pi_apply (⟨1, by simp [stSpace]⟩ : Fin stSpace.length)) measurableSet_Ioc
  rw [halfMeasure, Measure.map_apply (measurable_pi_apply 0) hs]
  have e : (fun ω : ℕ → Fin stSpace.length → ℝ => ω 0) ⁻¹' {x | a < x ⟨1, by simp [stSpace]⟩ ∧ x ⟨1, by simp [stSpace]⟩ ≤ b}
      = (fun ω : ℕ → Fin stSpace.length → ℝ => ω 0 ⟨1, by simp [stSpace]⟩) ⁻¹' Set.Ioc a b := rfl
  rw [e, ← Measure.map_apply hm measurableSet_Ioc, (uniformSamples_spec stSpace.length).2, Measure.restrict_apply measurableSet_Ioc]
  have : Set.Ioc a b ∩ Set.Icc 0 1 = Set.Ioc a b := by
    refine Set.inter_eq_left.2 fun x hx => ⟨h0.trans hx.1.le, hx.2.trans h1⟩
  rw [this, Real.volume_Ioc]
  simpa using hab

theorem half_measurable : Measurable fun x : Fin stSpace.length → ℝ => halfSd a b (List.ofFn x) := by
  have : (fun x : Fin stSpace.length → ℝ => halfSd a b (List.ofFn x)) = fun x => if x ⟨1, by simp [stSpace]⟩ ≤ 1 / 2 then a else b := by
    funext x
    rw [half_ofFn]
    simp [halfSd]
  rw [this]
  exact Measurable.ite (measurableSet_le (measurable_pi_apply _) measurable_const) measurable_const measurable_const

noncomputable def halfV (a b : ℝ) (t r : List ℝ) : ℝ := halfSd a b (atPoint stSpace [⟨"x1", .float (-5) 5 false⟩] t r) ^ 2

noncomputable def halfGrid : List (List ℝ) := [0, 1 / 2, 1].map fun v => [v]

theorem half_term {t : List ℝ} (ht : t ∈ halfGrid) (x : Fin stSpace.length → ℝ) : halfV a b t (List.ofFn x) = if x ⟨1, by simp [stSpace]⟩ ≤ 1 / 2 then a ^ 2 else b ^ 2 := by
  obtain ⟨v, -, rfl⟩ := List.mem_map.1 ht
  exact half_value v x

theorem half_bounded {t : List ℝ} (ht : t ∈ halfGrid) (m : ℝ) : Integrable (fun x : Fin stSpace.length → ℝ => (halfV a b t (List.ofFn x) - m) ^ 2) halfMeasure := by
  have hm : Measurable fun x : Fin stSpace.length → ℝ => (halfV a b t (List.ofFn x) - m) ^ 2 := by
    simp only [half_term ht]
    exact ((Measurable.ite (measurableSet_le (measurable_pi_apply _) measurable_const) measurable_const measurable_const).sub_const m).pow_const 2
  refine Integrable.of_bound hm.aestronglyMeasurable ((a ^ 2 - m) ^ 2 + (b ^ 2 - m) ^ 2) (ae_of_all _ fun x => ?_)
  rw [half_term ht, Real.norm_eq_abs, abs_of_nonneg (sq_nonneg _)]
  split <;> nlinarith [sq_nonneg (a ^ 2 - m), sq_nonneg (b ^ 2 - m)]

/-- a region on which the variance is constant has no loss -/
theorem half_zero {A : List ℝ → Bool} {c : ℝ} (h0 : 0 < halfMeasure.real (passing A)) (hA : MeasurableSet (passing (F := stSpace.length) A))
    (h : ∀ x ∈ passing (F := stSpace.length) A, (if x ⟨1, by simp [stSpace]⟩ ≤ 1 / 2 then a ^ 2 else b ^ 2) = c) : populationLoss halfMeasure halfGrid (halfV a b) A = 0 := by
  refine List.sum_eq_zero fun y hy => ?_
  obtain ⟨t, ht, rfl⟩ := List.mem_map.1 hy
  have e : ∫ x in passing A, halfV a b t (List.ofFn x) ∂halfMeasure = c * halfMeasure.real (passing A) := by
    rw [setIntegral_congr_fun hA fun x hx => (half_term ht x).trans (h x hx)]
    simp [mul_comm]
  rw [e, mul_div_cancel_right₀ _ h0.ne', setIntegral_congr_fun (g := fun _ => 0) hA fun x hx => by simp only [half_term ht x, h x hx]; ring]
  simp

/-- a region with both variances has a loss -/
theorem half_positive (hab : a ^ 2 ≠ b ^ 2) {A : List ℝ → Bool} (h0 : 0 < halfMeasure {x | A (List.ofFn x) = true ∧ x ⟨1, by simp [stSpace]⟩ ≤ 1 / 2})
    (h1 : 0 < halfMeasure {x | A (List.ofFn x) = true ∧ 1 / 2 < x ⟨1, by simp [stSpace]⟩}) : 0 < populationLoss halfMeasure halfGrid (halfV a b) A := by
  have key : ∀ t ∈ halfGrid, ∀ m : ℝ, 0 < ∫ x in passing A, (halfV a b t (List.ofFn x) - m) ^ 2 ∂halfMeasure := by
    intro t ht m
    rw [setIntegral_pos_iff_support_of_nonneg_ae (ae_of_all _ fun x => sq_nonneg _) (half_bounded ht m).integrableOn]
    by_cases hm : m = a ^ 2
    · refine lt_of_lt_of_le h1 (measure_mono fun x hx => ⟨?_, hx.1⟩)
      rw [Function.mem_support, half_term ht, if_neg (not_le.2 hx.2), hm]
      exact pow_ne_zero 2 (sub_ne_zero.2 hab.symm)
    · refine lt_of_lt_of_le h0 (measure_mono fun x hx => ⟨?_, hx.1⟩)
      rw [Function.mem_support, half_term ht, if_pos hx.2]
      exact pow_ne_zero 2 (sub_ne_zero.2 (Ne.symm hm))
  unfold populationLoss
  have : halfGrid = [[0], [1 / 2], [1]] := rfl
  rw [this]
  simp only [List.map_cons, List.map_nil, List.sum_cons, List.sum_nil]
  have k1 := key [0] (by rw [this]; simp)
  have k2 := key [1 / 2] (by rw [this]; simp)
  have k3 := key [1] (by rw [this]; simp)
  have := k1 ((∫ x in passing A, halfV a b [0] (List.ofFn x) ∂halfMeasure) / halfMeasure.real (passing (F := stSpace.length) A))
  have := k2 ((∫ x in passing A, halfV a b [1 / 2] (List.ofFn x) ∂halfMeasure) / halfMeasure.real (passing (F := stSpace.length) A))
  have := k3 ((∫ x in passing A, halfV a b [1] (List.ofFn x) ∂halfMeasure) / halfMeasure.real (passing (F := stSpace.length) A))
  linarith

theorem half_loss_nonneg (A : List ℝ → Bool) : 0 ≤ populationLoss halfMeasure halfGrid (halfV a b) A := by
  refine List.sum_nonneg fun y hy => ?_
  obtain ⟨t, ht, rfl⟩ := List.mem_map.1 hy
  exact integral_nonneg fun x => sq_nonneg _

/-- its tree splits in the middle -/
theorem half_tree (hab : a ^ 2 ≠ b ^ 2) : PopulationTree halfMeasure halfGrid (halfV a b) stSpace (possibleSplits stSpace [⟨"x1", .float (-5) 5 false⟩] []) 3 1 (fun _ => true) [] 0
    [(testAbove (fun _ => true) 1 (threshold 3 2), [⟨⟨"x2", .float (-5) 5 false⟩, .flt (threshold 3 2), some false⟩]),
     (testBelow (fun _ => true) 1 (threshold 3 2), [⟨⟨"x2", .float (-5) 5 false⟩, .flt (threshold 3 2), some true⟩])] := by
  have htr : passing (F := stSpace.length) (fun _ => true) = Set.univ := by ext x; simp [passing]
  have hmeas := fun f t => passing_measurable_below (F := stSpace.length) (A := fun _ => true) (by rw [htr]; exact MeasurableSet.univ) f t
  have hb : ∀ t : ℝ, passing (F := stSpace.length) (testBelow (fun _ => true) 1 t) = {x | x ⟨1, by simp [stSpace]⟩ ≤ t} := by
    intro t; ext x; simp [passing, testBelow, half_ofFn]
  have ha : ∀ t : ℝ, passing (F := stSpace.length) (testAbove (fun _ => true) 1 t) = {x | t < x ⟨1, by simp [stSpace]⟩} := by
    intro t; ext x; simp [passing, testAbove, half_ofFn]
  have ht : (threshold 3 2 : ℝ) = 1 / 2 := by norm_num [threshold]
  have hpos : ∀ S : Set (Fin stSpace.length → ℝ), 0 < halfMeasure S → 0 < halfMeasure.real S := fun S h => ENNReal.toReal_pos h.ne' (measure_ne_top _ _)
  have b0 : 0 < halfMeasure.real (passing (testBelow (fun _ => true) 1 (threshold 3 2))) := by
    rw [hb, ht]
    exact hpos _ (lt_of_lt_of_le (half_interval (a := 0) (b := 1 / 2) le_rfl (by norm_num) (by norm_num)) (measure_mono fun x hx => hx.2))
  have a0 : 0 < halfMeasure.real (passing (testAbove (fun _ => true) 1 (threshold 3 2))) := by
    rw [ha, ht]
    exact hpos _ (lt_of_lt_of_le (half_interval (a := 1 / 2) (b := 1) (by norm_num) (by norm_num) le_rfl) (measure_mono fun x hx => hx.1))
  have hcost : populationCost halfMeasure halfGrid (halfV a b) 3 (fun _ => true) 1 2 = 0 := by
    unfold populationCost
    rw [half_zero (c := a ^ 2) b0 (hmeas _ _).1 fun x hx => ?_, half_zero (c := b ^ 2) a0 (hmeas _ _).2 fun x hx => ?_, add_zero]
    · rw [ha, ht] at hx
      exact if_neg (not_le.2 hx)
    · rw [hb, ht] at hx
      exact if_pos hx
  refine .branch (k := 0) (i := 0) (j := 2) (hp := ⟨"x2", .float (-5) 5 false⟩) (f := 1) (by norm_num) ⟨⟨by rw [half_possible]; rfl, (half_feature rfl).2 rfl, by norm_num, by norm_num, b0, a0⟩, ?_⟩
    (.leaf (.inl (by norm_num))) (.leaf (.inl (by norm_num)))
  intro i' j' hp' f' hc
  have hpi := hc.hp_at
  rw [half_possible] at hpi
  have hi0 : i' = 0 := by
    have := (List.getElem?_eq_some_iff.1 hpi).1
    simp at this
    exact this
  subst hi0
  have hpe : hp' = ⟨"x2", .float (-5) 5 false⟩ := by simpa using hpi.symm
  obtain rfl := (half_feature hpe).1 hc.feature
  have hj := hc.le
  have hj1 := hc.one_le
  rw [hcost]
  obtain rfl | rfl | rfl : j' = 1 ∨ j' = 2 ∨ j' = 3 := by omega
  · left
    refine add_pos_of_nonneg_of_pos (half_loss_nonneg _) (half_positive hab ?_ ?_)
    · refine lt_of_lt_of_le (half_interval (a := 1 / 4) (b := 1 / 2) (by norm_num) (by norm_num) (by norm_num)) (measure_mono fun x hx => ⟨?_, hx.2⟩)
      have : (1 / 4 : ℝ) < x ⟨1, by simp [stSpace]⟩ := hx.1
      simp only [testAbove, half_ofFn, threshold]
      simp
      norm_num at this ⊢
      exact this
    · refine lt_of_lt_of_le (half_interval (a := 1 / 2) (b := 1) (by norm_num) (by norm_num) le_rfl) (measure_mono fun x hx => ⟨?_, hx.1⟩)
      have : (1 / 2 : ℝ) < x ⟨1, by simp [stSpace]⟩ := hx.1
      simp only [testAbove, half_ofFn, threshold]
      simp
      norm_num at this ⊢
      linarith
  · right
    exact ⟨by simp, .inr ⟨rfl, le_rfl⟩⟩
  · left
    refine add_pos_of_pos_of_nonneg (half_positive hab ?_ ?_) (half_loss_nonneg _)
    · refine lt_of_lt_of_le (half_interval (a := 0) (b := 1 / 2) (by norm_num) (by norm_num) (by norm_num)) (measure_mono fun x hx => ⟨?_, hx.2⟩)
      have : x ⟨1, by simp [stSpace]⟩ ≤ (1 / 2 : ℝ) := hx.2
      simp only [testBelow, half_ofFn, threshold]
      simp
      norm_num at this ⊢
      linarith
    · refine lt_of_lt_of_le (half_interval (a := 1 / 2) (b := 3 / 4) (by norm_num) (by norm_num) (by norm_num)) (measure_mono fun x hx => ⟨?_, hx.1⟩)
      have : x ⟨1, by simp [stSpace]⟩ ≤ (3 / 4 : ℝ) := hx.2
      simp only [testBelow, half_ofFn, threshold]
      simp
      norm_num at this ⊢
      exact this

end half

/-- if the surrogate is sure in the lower half and unsure in the upper one, then, almost surely and with enough uniform samples, the tree splits there: the upper leaf is the first one -/
example : ∀ᵐ ω ∂(uniformSamples stSpace.length), ∃ n₀, ∀ n ≥ n₀, ∃ p upper lower,
    dtInit stSpace (fun rows => .ok (rows.map fun _ => 0, rows.map (halfSd 0 1))) (.many [.name "x1"]) (firstSamples (fun i ω => ω i) n ω) 3 3 10 none = .ok p ∧
    (dtPartition p 1).2 = .ok [upper, lower] ∧ upper.conds = [⟨⟨"x2", .float (-5) 5 false⟩, .flt (threshold 3 2), some false⟩] ∧
    lower.conds = [⟨⟨"x2", .float (-5) 5 false⟩, .flt (threshold 3 2), some true⟩] := by
  have h := C186_tree (minPoints := 10) (notSplittable := none) (ns := []) halfSetting rfl (uniformSamples_spec stSpace.length).1 half_measurable
    (fun t ht => by
      have := half_bounded (a := 0) (b := 1) (t := t) ht 0
      simpa only [sub_zero, halfV, halfMeasure] using this) (by norm_num) (by norm_num) (half_tree (a := 0) (b := 1) (by norm_num))
  filter_upwards [h] with ω h
  obtain ⟨n₀, h⟩ := h 1 one_pos
  refine ⟨n₀, fun n hn => ?_⟩
  obtain ⟨p, leaves, h1, h2, h3⟩ := h n hn
  cases h3 with
  | @cons _ a _ as e1 h4 =>
    cases h4 with
    | @cons _ b _ bs e2 h5 =>
      cases h5
      exact ⟨p, a, b, h1, h2, e1.1, e2.1⟩

end PyPDP
