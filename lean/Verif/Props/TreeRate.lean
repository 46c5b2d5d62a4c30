/-
C188: how fast the tree becomes the tree of the distribution.
-/
import Verif.Props.PopulationTree
import Verif.Props.Enough

namespace PyPDP
open Spec MeasureTheory ProbabilityTheory Filter Topology

/-! ### ways in which averages of samples tend to expectations -/

section laws
variable {Ω : Type} [MeasurableSpace Ω] {F : Nat}

/-- Along the filter `l` of numbers of samples and outcomes, the numbers of samples grow, no sample lies in a set without probability, and the averages over the samples
of the functions in `Q`, set to 0 outside of a region, tend to their expectations. -/
structure SampleLaw (P : Measure Ω) (X : ℕ → Ω → Fin F → ℝ) (Q : (List ℝ → ℝ) → Prop) (l : Filter (ℕ × Ω)) : Prop where
  large : Tendsto Prod.fst l atTop
  null : ∀ S : Set (Fin F → ℝ), P.map (X 0) S = 0 → ∀ᶠ i in l, ∀ k, X k i.2 ∉ S
  law : ∀ A : List ℝ → Bool, MeasurableSet (passing (F := F) A) → ∀ q, Q q → Tendsto (fun i : ℕ × Ω => (((firstSamples X i.1 i.2).filter A).map q).sum / i.1) l
    (𝓝 (∫ x in passing A, q (List.ofFn x) ∂(P.map (X 0))))

variable {P : Measure Ω} [IsProbabilityMeasure P] {X : ℕ → Ω → Fin F → ℝ} {Q : (List ℝ → ℝ) → Prop} {l : Filter (ℕ × Ω)}

omit [IsProbabilityMeasure P] in
theorem SampleLaw.share (h : SampleLaw P X Q l) (h1 : Q fun _ => 1) {A : List ℝ → Bool} (hA : MeasurableSet (passing (F := F) A)) :
    Tendsto (fun i : ℕ × Ω => (((firstSamples X i.1 i.2).filter A).length : ℝ) / i.1) l (𝓝 ((P.map (X 0)).real (passing A))) := by
  have := h.law A hA _ h1
  simpa using this

omit [IsProbabilityMeasure P] in
theorem SampleLaw.loss (h : SampleLaw P X Q l) (h1 : Q fun _ => 1) [IsProbabilityMeasure (P.map (X 0))] {A : List ℝ → Bool} (hA : MeasurableSet (passing (F := F) A))
    (h0 : 0 < (P.map (X 0)).real (passing A))
    {idx : List Nat} {grid : List (List ℝ)} {mu sd : List ℝ → ℝ} {v : List ℝ → List ℝ → ℝ}
    (hv : ∀ t ∈ grid, ∀ i ω, sd (assignRow idx t (List.ofFn (X i ω))) ^ 2 = v t (List.ofFn (X i ω)))
    (hm : ∀ t ∈ grid, Measurable fun x : Fin F → ℝ => v t (List.ofFn x))
    (hi : ∀ t ∈ grid, Integrable (fun x : Fin F → ℝ => v t (List.ofFn x) ^ 2) (P.map (X 0)))
    (hq1 : ∀ t ∈ grid, Q (v t)) (hq2 : ∀ t ∈ grid, Q fun r => v t r ^ 2) :
    Tendsto (fun i : ℕ × Ω => curveLoss grid.length (((firstSamples X i.1 i.2).filter A).map (curveAt idx grid mu sd)) / i.1) l
      (𝓝 (populationLoss (P.map (X 0)) grid v A)) := by
  have hone : ∀ t ∈ grid, Tendsto (fun i : ℕ × Ω => ((((firstSamples X i.1 i.2).filter A).map fun r => v t r ^ 2).sum -
      (((firstSamples X i.1 i.2).filter A).map fun r => v t r).sum ^ 2 / ((firstSamples X i.1 i.2).filter A).length) / i.1) l
      (𝓝 (∫ x in passing A, (v t (List.ofFn x) - (∫ x in passing A, v t (List.ofFn x) ∂(P.map (X 0))) / (P.map (X 0)).real (passing (F := F) A)) ^ 2 ∂(P.map (X 0)))) := by
    intro t ht
    rw [integral_about_mean h0 (hm t ht) (hi t ht)]
    refine ((h.law A hA _ (hq2 t ht)).sub (((h.law A hA _ (hq1 t ht)).pow 2).div (h.share h1 hA) h0.ne')).congr' ?_
    filter_upwards [h.large.eventually (eventually_gt_atTop 0)] with n hn
    have hn : (n.1 : ℝ) ≠ 0 := by exact_mod_cast hn.ne'
    simp only [Pi.div_apply]
    rcases eq_or_ne (((firstSamples X n.1 n.2).filter A).length : ℝ) 0 with h | h
    · rw [h]
      simp
    · field_simp
  have hs := tendsto_finsetSum Finset.univ fun (p : Fin grid.length) _ => hone grid[p] (List.getElem_mem _)
  unfold populationLoss
  have e1 : ∀ φ : List ℝ → ℝ, (grid.map φ).sum = ∑ p : Fin grid.length, φ grid[p] := by
    intro φ
    rw [← List.sum_ofFn]
    congr 1
    refine List.ext_getElem (by simp) fun i h1 h2 => by simp
  rw [e1]
  refine hs.congr fun n => ?_
  rw [curveLoss_samples (v := v) _ fun t ht r hr => ?_, e1, Finset.sum_div]
  obtain ⟨i, rfl⟩ := mem_firstSamples (List.mem_of_mem_filter hr)
  exact hv t ht _ _

end laws

/-! ### the tree -/

section tree
variable {Ω : Type} [MeasurableSpace Ω] {P : Measure Ω} [IsProbabilityMeasure P] {space : ConfigSpace ℝ} {X : ℕ → Ω → Fin space.length → ℝ}
  {idx : List Nat} {grid : List (List ℝ)} {mu sd : List ℝ → ℝ} {v : List ℝ → List ℝ → ℝ} {possible : List (Hp ℝ)} {N minPoints : Nat}
  {Q : (List ℝ → ℝ) → Prop} {l : Filter (ℕ × Ω)}

theorem law_core (hwf : space.WF) (hX : IsRandomSample P X) (hl : SampleLaw P X Q l) (h1 : Q fun _ => 1) (hg : grid ≠ [])
    (hfree : ∀ hp ∈ possible, ∀ f, IsFeature space hp f → f ∉ idx)
    (hmp : 1 ≤ minPoints)
    (hv : ∀ t ∈ grid, ∀ i ω, sd (assignRow idx t (List.ofFn (X i ω))) ^ 2 = v t (List.ofFn (X i ω)))
    (hm : ∀ t ∈ grid, Measurable fun x : Fin space.length → ℝ => v t (List.ofFn x))
    (hi : ∀ t ∈ grid, Integrable (fun x : Fin space.length → ℝ => v t (List.ofFn x) ^ 2) (P.map (X 0)))
    (hq1 : ∀ t ∈ grid, Q (v t)) (hq2 : ∀ t ∈ grid, Q fun r => v t r ^ 2)
    {depth : Int} {A : List ℝ → Bool} {conds : List (Cond ℝ)} {k : Nat} {R : List ((List ℝ → Bool) × List (Cond ℝ))}
    (hT : PopulationTree (P.map (X 0)) grid v space possible N depth A conds k R) :
    MeasurableSet (passing (F := space.length) A) → 0 < (P.map (X 0)).real (passing A) →
    ∀ᶠ a in l, ∀ (m : Node ℝ) (L : List (Node ℝ)), m.depth = k → m.conds = conds →
      curves m = ((firstSamples X a.1 a.2).filter A).map (curveAt idx grid mu sd) → Greedy space possible N minPoints grid.length depth m L →
      List.Forall₂ (fun p m' => m'.conds = p.2 ∧ curves m' = ((firstSamples X a.1 a.2).filter p.1).map (curveAt idx grid mu sd)) R L := by
  have hprob : IsProbabilityMeasure (P.map (X 0)) := Measure.isProbabilityMeasure_map (hX.meas 0).aemeasurable
  have hflt : ∀ {hp : Hp ℝ} {f : Nat}, IsFeature space hp f → f < space.length := by
    rintro hp f ⟨x, hx, -⟩
    exact (List.getElem?_eq_some_iff.1 hx).1
  have hnull : ∀ {A : List ℝ → Bool}, MeasurableSet (passing (F := space.length) A) → ∀ᶠ a in l, ∀ i j hp f,
      IsCandidate space possible N minPoints (((firstSamples X a.1 a.2).filter A).map (curveAt idx grid mu sd)) i j hp f →
      IsPopulationCandidate (P.map (X 0)) space possible N A i j hp f := by
    intro A hA
    have hz : ∀ B : List ℝ → Bool, ∀ᶠ a in l, ¬ 0 < (P.map (X 0)).real (passing B) → (firstSamples X a.1 a.2).filter B = [] := by
      intro B
      by_cases hB : 0 < (P.map (X 0)).real (passing B)
      · exact Eventually.of_forall fun ω h => absurd hB h
      · have h0 : P.map (X 0) (passing B) = 0 := by
          have := le_antisymm (not_lt.1 hB) measureReal_nonneg
          exact (measureReal_eq_zero_iff).1 this
        filter_upwards [hl.null _ h0] with a h _
        rw [List.filter_eq_nil_iff]
        intro r hr
        obtain ⟨i, rfl⟩ := mem_firstSamples hr
        exact h i
    have hall : ∀ᶠ a in l, ∀ f ∈ Finset.range space.length, ∀ j ∈ Finset.range (N + 1),
        (¬ 0 < (P.map (X 0)).real (passing (testBelow A f (threshold N j))) → (firstSamples X a.1 a.2).filter (testBelow A f (threshold N j)) = []) ∧
        (¬ 0 < (P.map (X 0)).real (passing (testAbove A f (threshold N j))) → (firstSamples X a.1 a.2).filter (testAbove A f (threshold N j)) = []) := by
      rw [eventually_all_finset]
      intro f _
      rw [eventually_all_finset]
      exact fun j _ => (hz _).and (hz _)
    filter_upwards [hall] with a h i j hp f hc
    have h := h f (Finset.mem_range.2 (hflt hc.feature)) j (Finset.mem_range.2 (by have := hc.le; omega))
    obtain ⟨e1, e2⟩ := parts_filter (mu := mu) (sd := sd) hg (hfree hp (List.mem_of_getElem? hc.hp_at) f hc.feature) (threshold N j) (firstSamples X a.1 a.2) A
    have s1 := hc.left_size
    have s2 := hc.right_size
    rw [e1, List.length_map] at s1
    rw [e2, List.length_map] at s2
    refine ⟨hc.hp_at, hc.feature, hc.one_le, hc.le, ?_, ?_⟩
    · by_contra hn
      rw [h.1 hn, List.length_nil] at s1
      omega
    · by_contra hn
      rw [h.2 hn, List.length_nil] at s2
      omega
  induction hT with
  | @leaf A conds k hstop =>
    intro hA h0
    filter_upwards [hnull hA] with a h m L hd hc hcur hG
    cases hG with
    | leaf _ _ => exact .cons ⟨hc, hcur⟩ .nil
    | branch _ h1 _ h3 _ _ _ =>
      exfalso
      rcases hstop with hstop | hstop
      · omega
      · have := h3.1
        rw [hcur] at this
        exact hstop _ _ _ _ (h _ _ _ _ this)
  | @branch A conds k i j hp f Ll Lr hk hb _ _ ihl ihr =>
    intro hA h0
    have hmeas := fun f j => passing_measurable_below hA f (threshold N j)
    have hl2 := ihl (hmeas f j).1 hb.cand.left_pos
    have hr2 := ihr (hmeas f j).2 hb.cand.right_pos
    have hc : ∀ f' j' : ℕ, 0 < (P.map (X 0)).real (passing (testBelow A f' (threshold N j'))) → 0 < (P.map (X 0)).real (passing (testAbove A f' (threshold N j'))) →
        f' ∉ idx → Tendsto (fun a : ℕ × Ω => splitCost grid.length N (((firstSamples X a.1 a.2).filter A).map (curveAt idx grid mu sd)) f' j' / a.1) l
          (𝓝 (populationCost (P.map (X 0)) grid v N A f' j')) := by
      intro f' j' p1 p2 hf
      refine ((hl.loss (mu := mu) h1 (hmeas f' j').1 p1 hv hm hi hq1 hq2).add (hl.loss (mu := mu) h1 (hmeas f' j').2 p2 hv hm hi hq1 hq2)).congr fun n => ?_
      obtain ⟨e1, e2⟩ := parts_filter (mu := mu) (sd := sd) hg hf (threshold N j') (firstSamples X n.1 n.2) A
      rw [splitCost, e1, e2]
      ring
    have hsame : ∀ᶠ a in l, ∀ f' ∈ Finset.range space.length, ∀ j' ∈ Finset.range (N + 1),
        P.map (X 0) {x | A (List.ofFn x) = true ∧ ¬ ((List.ofFn x).getD f' 0 ≤ threshold N j' ↔ (List.ofFn x).getD f 0 ≤ threshold N j)} = 0 →
        ∀ i, A (List.ofFn (X i a.2)) = true → ((List.ofFn (X i a.2)).getD f' 0 ≤ threshold N j' ↔ (List.ofFn (X i a.2)).getD f 0 ≤ threshold N j) := by
      rw [eventually_all_finset]
      intro f' _
      rw [eventually_all_finset]
      intro j' _
      by_cases h1 : P.map (X 0) {x | A (List.ofFn x) = true ∧ ¬ ((List.ofFn x).getD f' 0 ≤ threshold N j' ↔ (List.ofFn x).getD f 0 ≤ threshold N j)} = 0
      · filter_upwards [hl.null _ h1] with a h _ i hAi
        by_contra hc
        exact h i ⟨hAi, hc⟩
      · exact Eventually.of_forall fun ω h => absurd h h1
    have hmemp := List.mem_of_getElem? hb.cand.hp_at
    have hfi := hfree hp hmemp f hb.cand.feature
    have hmany : ∀ {B : List ℝ → Bool} {b : ℝ}, 0 < b → Tendsto (fun a : ℕ × Ω => (((firstSamples X a.1 a.2).filter B).length : ℝ) / a.1) l (𝓝 b) →
        ∀ᶠ a in l, minPoints ≤ ((firstSamples X a.1 a.2).filter B).length := by
      intro B b hb0 ht
      have h1 : Tendsto (fun a : ℕ × Ω => (((firstSamples X a.1 a.2).filter B).length : ℝ) / a.1 * a.1) l atTop :=
        ht.pos_mul_atTop hb0 (tendsto_natCast_atTop_atTop.comp hl.large)
      filter_upwards [h1.eventually_ge_atTop (minPoints : ℝ), hl.large.eventually (eventually_gt_atTop 0)] with a h2 h3
      rw [div_mul_cancel₀ _ (by exact_mod_cast h3.ne')] at h2
      exact_mod_cast h2
    have hless : ∀ᶠ a in l, ∀ f' ∈ Finset.range space.length, ∀ j' ∈ Finset.range (N + 1), f' ∉ idx →
        0 < (P.map (X 0)).real (passing (testBelow A f' (threshold N j'))) → 0 < (P.map (X 0)).real (passing (testAbove A f' (threshold N j'))) →
        populationCost (P.map (X 0)) grid v N A f j < populationCost (P.map (X 0)) grid v N A f' j' →
        splitCost grid.length N (((firstSamples X a.1 a.2).filter A).map (curveAt idx grid mu sd)) f j <
          splitCost grid.length N (((firstSamples X a.1 a.2).filter A).map (curveAt idx grid mu sd)) f' j' := by
      rw [eventually_all_finset]
      intro f' _
      rw [eventually_all_finset]
      intro j' _
      by_cases hf' : f' ∈ idx
      · exact Eventually.of_forall fun n h => absurd hf' h
      by_cases h1 : 0 < (P.map (X 0)).real (passing (testBelow A f' (threshold N j')))
      swap
      · exact Eventually.of_forall fun n _ h => absurd h h1
      by_cases h2 : 0 < (P.map (X 0)).real (passing (testAbove A f' (threshold N j')))
      swap
      · exact Eventually.of_forall fun n _ _ h => absurd h h2
      by_cases h3 : populationCost (P.map (X 0)) grid v N A f j < populationCost (P.map (X 0)) grid v N A f' j'
      swap
      · exact Eventually.of_forall fun n _ _ _ h => absurd h h3
      filter_upwards [(hc f j hb.cand.left_pos hb.cand.right_pos hfi).eventually_lt (hc f' j' h1 h2 hf') h3, hl.large.eventually (eventually_gt_atTop 0)] with n h4 h5 _ _ _ _
      exact (div_lt_div_iff_of_pos_right (by exact_mod_cast h5)).1 h4
    filter_upwards [hl2, hr2, hnull hA, hsame, hless, hmany hb.cand.left_pos (hl.share h1 (hmeas f j).1), hmany hb.cand.right_pos (hl.share h1 (hmeas f j).2)]
      with a el er hn hs hless m1 m2 m L hdep hcond hcur hG
    obtain ⟨p1, p2⟩ := parts_filter (mu := mu) (sd := sd) hg hfi (threshold N j) (firstSamples X a.1 a.2) A
    have hbest : IsBestCandidate space possible N minPoints grid.length (curves m) i j hp f := by
      rw [hcur]
      refine ⟨⟨hb.cand.hp_at, hb.cand.feature, hb.cand.one_le, hb.cand.le, by rw [p1, List.length_map]; exact m1, by rw [p2, List.length_map]; exact m2⟩, ?_⟩
      intro i' j' hp' f' hcand
      have hpc := hn i' j' hp' f' hcand
      have hfr := Finset.mem_range.2 (hflt hcand.feature)
      have hjr : j' ∈ Finset.range (N + 1) := Finset.mem_range.2 (by have := hcand.le; omega)
      rcases hb.best i' j' hp' f' hpc with h | ⟨h, hord⟩
      · have := hless f' hfr j' hjr (hfree hp' (List.mem_of_getElem? hcand.hp_at) f' hcand.feature)
          hpc.left_pos hpc.right_pos h
        exact ⟨this.le, fun e => absurd e this.ne⟩
      · have : splitCost grid.length N (((firstSamples X a.1 a.2).filter A).map (curveAt idx grid mu sd)) f' j' =
            splitCost grid.length N (((firstSamples X a.1 a.2).filter A).map (curveAt idx grid mu sd)) f j := by
          apply same_sides
          intro c hcm
          obtain ⟨r, hr, rfl⟩ := List.mem_map.1 hcm
          obtain ⟨hr1, hr2⟩ := List.mem_filter.1 hr
          obtain ⟨b, rfl⟩ := mem_firstSamples hr1
          rw [featureOf_curveAt hg (hfree hp' (List.mem_of_getElem? hcand.hp_at) f' hcand.feature), featureOf_curveAt hg hfi]
          exact hs f' hfr j' hjr h b hr2
        exact ⟨this.ge, fun _ => hord⟩
    have hlen : 2 ≤ (curves m).length := by
      rw [← near_parts_length f (threshold N j) (curves m), hcur, p1, p2, List.length_map, List.length_map]
      omega
    cases hG with
    | leaf _ hstop =>
      exfalso
      rcases hstop with h | h | h
      · omega
      · omega
      · exact h _ _ _ _ hbest.1
    | @branch _ l r Ll' Lr' i' j' hp' f' _ _ _ hbest' hsp hGl hGr =>
      obtain ⟨rfl, rfl, rfl, rfl⟩ := best_unique hwf hbest hbest'
      refine List.rel_append (er r Lr' ?_ ?_ ?_ hGr) (el l Ll' ?_ ?_ ?_ hGl)
      · rw [hsp.right_depth, hdep]
      · rw [hsp.right_conds, hcond]
      · rw [hsp.right_curves, hcur]; exact p2
      · rw [hsp.left_depth, hdep]
      · rw [hsp.left_conds, hcond]
      · rw [hsp.left_curves, hcur]; exact p1

/-- what holds along the filter holds of the whole tree: the leaves are those of the tree of the distribution, and shares and losses are near those of its regions -/
theorem law_tree {predict : Predict ℝ} {sel : Selection ℝ} {selected : List (Hp ℝ)} {g : Nat} (h : PdpSetting space predict sel selected g grid mu sd)
    {notSplittable : Option (Selection ℝ)} {ns : List (Hp ℝ)} (hns : notSplittableHps notSplittable space = .ok ns) (hX : IsRandomSample P X)
    (hl : SampleLaw P X Q l) (h1 : Q fun _ => 1)
    (hsd : Measurable fun x : Fin space.length → ℝ => sd (List.ofFn x))
    (hi : ∀ t ∈ grid, Integrable (fun x : Fin space.length → ℝ => (sd (atPoint space selected t (List.ofFn x)) ^ 2) ^ 2) (P.map (X 0)))
    (hq1 : ∀ t ∈ grid, Q fun r => sd (atPoint space selected t r) ^ 2) (hq2 : ∀ t ∈ grid, Q fun r => (sd (atPoint space selected t r) ^ 2) ^ 2) (hmp : 1 ≤ minPoints)
    {depth : Int} (hdep : 0 < depth) {R : List ((List ℝ → Bool) × List (Cond ℝ))}
    (hT : PopulationTree (P.map (X 0)) grid (fun t r => sd (atPoint space selected t r) ^ 2) space (possibleSplits space selected ns) N depth (fun _ => true) [] 0 R)
    {ε : ℝ} (hε : 0 < ε) :
    ∀ᶠ a in l, ∃ p leaves,
      dtInit space predict sel (firstSamples X a.1 a.2) g N minPoints notSplittable = .ok p ∧ (dtPartition p depth).2 = .ok leaves ∧
      List.Forall₂ (fun q m => m.conds = q.2 ∧ List.Forall₂ (IsCurveOf space selected (g ^ selected.length)) ((firstSamples X a.1 a.2).filter q.1) m.x ∧
        |(m.x.length : ℝ) / a.1 - (P.map (X 0)).real (passing q.1)| ≤ ε ∧
        |regionLoss m.v / a.1 - populationLoss (P.map (X 0)) grid (fun t r => sd (atPoint space selected t r) ^ 2) q.1| ≤ ε) R leaves := by
  have hprob : IsProbabilityMeasure (P.map (X 0)) := Measure.isProbabilityMeasure_map (hX.meas 0).aemeasurable
  have hg : 1 ≤ g := Nat.one_le_iff_ne_zero.2 h.grid_pos
  obtain ⟨-, -, hpos, -⟩ := population_leaves (minPoints := minPoints) h hns hX hsd hi hmp hdep hT
  obtain ⟨grid', hgr, hgl, hfull⟩ := C40_grid (K := ℝ) (List.length_pos_iff.2 h.ne) g
  rw [h.grid_eq] at hgr
  obtain rfl := Except.ok.inj hgr
  have hvc : ValidCfg (⟨space, selected, [], 0, g, g ^ selected.length, false, predict⟩ : IceCfg ℝ) := ⟨h.wf, h.mem, h.distinct, h.ne, by simp, rfl, rfl⟩
  obtain ⟨idx, hidx, -, -⟩ := hvc.idx
  have hrow : ∀ t ∈ grid, ∀ x : Fin space.length → ℝ, assignRow idx t (List.ofFn x) = atPoint space selected t (List.ofFn x) := fun t ht x =>
    assignRow_atPoint hvc hidx (by simp) ((hfull.2 t).1 ht).1
  have hv : ∀ t ∈ grid, ∀ x : Fin space.length → ℝ, sd (assignRow idx t (List.ofFn x)) ^ 2 = sd (atPoint space selected t (List.ofFn x)) ^ 2 := by
    intro t ht x
    rw [hrow t ht]
  have hm : ∀ t ∈ grid, Measurable fun x : Fin space.length → ℝ => sd (atPoint space selected t (List.ofFn x)) ^ 2 := by
    intro t _
    obtain ⟨φ, h1, h2⟩ := atPoint_map space selected t
    simp only [h2]
    exact (hsd.comp h1).pow_const 2
  have hgne : grid ≠ [] := by
    rintro rfl
    have : 0 < g ^ selected.length := Nat.pow_pos hg
    simp at hgl
    omega
  have hfirst : ∀ n ≥ 1, ∀ ω, ∃ p, dtInit space predict sel (firstSamples X n ω) g N minPoints notSplittable = .ok p ∧ p.cfg.selected = selected ∧
      p.possible = possibleSplits space selected ns ∧ RootOf space mu sd (firstSamples X n ω) g N minPoints p idx grid := by
    intro n hn ω
    have hne : firstSamples X n ω ≠ [] := by rw [firstSamples, Ne, List.map_eq_nil_iff, List.range_eq_nil]; omega
    obtain ⟨p, q1, q2, q3, q4, q5, q6, q7, q8⟩ := dtInit_rows h.wf h.rowWise h.sel_eq h.mem h.distinct h.ne (firstSamples_width X n ω) hne hg N minPoints hns hidx h.grid_eq
    obtain ⟨idx', grid', hroot⟩ := rootOf h.wf h.rowWise (firstSamples_width X n ω) hne hg q1 (by rw [q3]; exact h.mem) (by rw [q3]; exact h.distinct) (by rw [q3]; exact h.ne)
    have e1 := hroot.idx_eq
    have e2 := hroot.grid_eq
    rw [q3, hidx] at e1
    rw [q3, h.grid_eq] at e2
    obtain rfl := Except.ok.inj e1
    obtain rfl := Except.ok.inj e2
    exact ⟨p, q1, q3, q4, hroot⟩
  have hfree : ∀ hp ∈ possibleSplits space selected ns, ∀ f, IsFeature space hp f → f ∉ idx := by
    obtain ⟨ω⟩ : Nonempty Ω := nonempty_of_isProbabilityMeasure P
    obtain ⟨p, -, -, h3, h4⟩ := hfirst 1 le_rfl ω
    rw [← h3]
    exact h4.free
  have htrue : passing (F := space.length) (fun _ => true) = Set.univ := by
    ext x
    simp [passing]
  have hcore := law_core (minPoints := minPoints) (mu := mu) h.wf hX hl h1 hgne hfree hmp (fun t ht i ω => hv t ht _) hm hi hq1 hq2 hT (by rw [htrue]; exact MeasurableSet.univ)
    (by rw [htrue]; simp)
  have hnear : ∀ᶠ b in l, ∀ a : Fin R.length,
      |(((firstSamples X b.1 b.2).filter R[a].1).length : ℝ) / b.1 - (P.map (X 0)).real (passing R[a].1)| < ε ∧
      |curveLoss grid.length (((firstSamples X b.1 b.2).filter R[a].1).map (curveAt idx grid mu sd)) / b.1 -
        populationLoss (P.map (X 0)) grid (fun t r => sd (atPoint space selected t r) ^ 2) R[a].1| < ε := by
    rw [eventually_all]
    intro a
    obtain ⟨g1, g2⟩ := hpos _ (List.getElem_mem a.2)
    exact (Metric.tendsto_nhds.1 (hl.share h1 g1) ε hε).and (Metric.tendsto_nhds.1 (hl.loss (mu := mu) h1 g1 g2 (fun t ht i ω => hv t ht _) hm hi hq1 hq2) ε hε)
  filter_upwards [hcore, hnear, hl.large.eventually (eventually_ge_atTop 1)] with b hcore hnear hn1
  obtain ⟨p, q1, q3, q4, hroot⟩ := hfirst b.1 hn1 b.2
  obtain ⟨L, g1, -, g3, -⟩ := partition_eq hroot.valid hdep
  rw [hroot.space_eq, hroot.numSplits_eq, hroot.minPoints_eq, q4, ← hroot.grid_len] at g3
  refine ⟨p, L, q1, by rw [g1], ?_⟩
  refine forall₂_mem (hcore p.root L hroot.valid.depth hroot.valid.conds (by rw [hroot.curves_eq]; simp) g3) fun q m hq hm hc => ?_
  have hshape := g3.shapes m hm
  obtain ⟨a, ha, rfl⟩ := List.mem_iff_getElem.1 hq
  obtain ⟨b1, b2⟩ := hnear ⟨a, ha⟩
  have hlen : m.x.length = ((firstSamples X b.1 b.2).filter R[a].1).length := by
    rw [← hshape.map_x, hc.2]
    simp
  refine ⟨hc.1, ?_, ?_, ?_⟩
  · have hshape' := hshape
    rw [hroot.grid_len] at hshape'
    have := hroot.rows hshape' hc.2
    rw [q3] at this
    exact this
  · rw [hlen]
    exact b1.le
  · rw [regionLoss_curves hshape, hc.2]
    exact b2.le

end tree

/-! ### rates -/

section rates
variable {Ω : Type} [MeasurableSpace Ω] {space : ConfigSpace ℝ}

/-- The sets of numbers of samples and outcomes whose complements have, for every number of samples, at most a probability from `ρ`. -/
def tailFilter (P : Measure Ω) (ρ : Set (ℕ → ENNReal)) (hne : ρ.Nonempty) (hadd : ∀ a ∈ ρ, ∀ b ∈ ρ, ∃ c ∈ ρ, ∀ n, a n + b n ≤ c n) : Filter (ℕ × Ω) where
  sets := {U | ∃ r ∈ ρ, ∀ n, P {ω | (n, ω) ∉ U} ≤ r n}
  univ_sets := by
    obtain ⟨r, hr⟩ := hne
    exact ⟨r, hr, fun n => by simp⟩
  sets_of_superset := by
    rintro U V ⟨r, hr, h⟩ hUV
    exact ⟨r, hr, fun n => (measure_mono (t := {ω | (n, ω) ∉ U}) fun ω (hω : (n, ω) ∉ V) hU => hω (hUV hU)).trans (h n)⟩
  inter_sets := by
    rintro U V ⟨r, hr, h⟩ ⟨s, hs, h'⟩
    obtain ⟨c, hc, hle⟩ := hadd r hr s hs
    refine ⟨c, hc, fun n => le_trans ?_ (hle n)⟩
    refine le_trans (measure_mono (t := {ω | (n, ω) ∉ U} ∪ {ω | (n, ω) ∉ V}) fun ω hω => ?_) ((measure_union_le _ _).trans (add_le_add (h n) (h' n)))
    by_cases hU : (n, ω) ∈ U
    · exact .inr fun hV => hω ⟨hU, hV⟩
    · exact .inl hU

theorem mem_tail {P : Measure Ω} {ρ : Set (ℕ → ENNReal)} {hne : ρ.Nonempty} {hadd : ∀ a ∈ ρ, ∀ b ∈ ρ, ∃ c ∈ ρ, ∀ n, a n + b n ≤ c n} {φ : ℕ × Ω → Prop} :
    (∀ᶠ a in tailFilter P ρ hne hadd, φ a) ↔ ∃ r ∈ ρ, ∀ n, P {ω | ¬ φ (n, ω)} ≤ r n := Iff.rfl

/-- a filter of tails obeys the law of large numbers if deviations of the averages have small probabilities -/
theorem tail_law {P : Measure Ω} [IsProbabilityMeasure P] {X : ℕ → Ω → Fin space.length → ℝ} (hX : IsRandomSample P X) {ρ : Set (ℕ → ENNReal)} {hne : ρ.Nonempty}
    {hadd : ∀ a ∈ ρ, ∀ b ∈ ρ, ∃ c ∈ ρ, ∀ n, a n + b n ≤ c n} (hstart : ∀ k : ℕ, ∃ r ∈ ρ, ∀ n < k, 1 ≤ r n) {Q : (List ℝ → ℝ) → Prop}
    (hdev : ∀ A : List ℝ → Bool, MeasurableSet (passing (F := space.length) A) → ∀ q, Q q → ∀ ε > 0, ∃ r ∈ ρ, ∀ n ≥ 1,
      P {ω | ε ≤ |(∑ i ∈ Finset.range n, if A (List.ofFn (X i ω)) = true then q (List.ofFn (X i ω)) else 0) / n - ∫ x in passing A, q (List.ofFn x) ∂(P.map (X 0))|} ≤ r n) :
    SampleLaw P X Q (tailFilter P ρ hne hadd) where
  large := by
    refine tendsto_atTop.2 fun k => ?_
    obtain ⟨r, hr, h⟩ := hstart k
    refine mem_tail.2 ⟨r, hr, fun n => ?_⟩
    by_cases hn : k ≤ n
    · simp [hn]
    · exact prob_le_one.trans (h n (by omega))
  null := by
    intro S hS
    refine mem_tail.2 ⟨_, hne.some_mem, fun n => le_of_eq_of_le ?_ zero_le⟩
    exact ae_iff.1 (region_null hX hS)
  law := by
    intro A hA q hq
    refine Metric.tendsto_nhds.2 fun ε hε => ?_
    obtain ⟨r, hr, h⟩ := hdev A hA q hq ε hε
    obtain ⟨r0, hr0, h0⟩ := hstart 1
    obtain ⟨c, hc, hle⟩ := hadd r hr r0 hr0
    refine mem_tail.2 ⟨c, hc, fun n => le_trans ?_ (hle n)⟩
    rcases Nat.eq_zero_or_pos n with rfl | hn
    · exact prob_le_one.trans ((h0 0 one_pos).trans le_add_self)
    · refine le_trans (le_of_eq ?_) ((h n hn).trans le_self_add)
      congr 1
      ext ω
      simp only [Set.mem_ofPred_eq, not_lt, sum_filter_firstSamples, Real.dist_eq]

theorem atPoint_none (x : Fin space.length → ℝ) : atPoint space [] [] (List.ofFn x) = List.ofFn x := by
  unfold atPoint
  refine List.ext_getElem (by simp) fun i h1 h2 => by simp

variable {P : Measure Ω} [IsProbabilityMeasure P] {X : ℕ → Ω → Fin space.length → ℝ} {grid : List (List ℝ)} {mu sd : List ℝ → ℝ} {N minPoints : Nat}

omit [IsProbabilityMeasure P] in
/-- averages of functions in a region as averages of random numbers -/
theorem inside_values (hX : IsRandomSample P X) {A : List ℝ → Bool} (hA : MeasurableSet (passing (F := space.length) A)) {q : List ℝ → ℝ}
    (hq : Measurable fun x : Fin space.length → ℝ => q (List.ofFn x)) :
    (Measurable fun x : Fin space.length → ℝ => if A (List.ofFn x) = true then q (List.ofFn x) else 0) ∧
    ∫ ω, (if A (List.ofFn (X 0 ω)) = true then q (List.ofFn (X 0 ω)) else 0) ∂P = ∫ x in passing A, q (List.ofFn x) ∂(P.map (X 0)) := by
  have hmeas : Measurable fun x : Fin space.length → ℝ => if A (List.ofFn x) = true then q (List.ofFn x) else 0 := Measurable.ite hA hq measurable_const
  refine ⟨hmeas, ?_⟩
  have hind : (fun x : Fin space.length → ℝ => if A (List.ofFn x) = true then q (List.ofFn x) else 0) = (passing A).indicator fun x => q (List.ofFn x) := by
    funext x
    simp [Set.indicator_apply, passing]
  rw [← integral_indicator hA, ← hind, integral_map (hX.meas 0).aemeasurable hmeas.aestronglyMeasurable]

/-- probabilities that decrease exponentially, and those that decrease like `1 / n` -/
def expRates : Set (ℕ → ENNReal) := {r : ℕ → ENNReal | ∃ C c : ℝ, 0 ≤ C ∧ 0 < c ∧ r = fun n : ℕ => ENNReal.ofReal (C * Real.exp (-c * n))}
def inverseRates : Set (ℕ → ENNReal) := {r : ℕ → ENNReal | ∃ C : ℝ, 0 ≤ C ∧ r = fun n : ℕ => ENNReal.ofReal (C / (n + 1))}

theorem exp_rates : (∀ a ∈ expRates,
    ∀ b ∈ expRates,
    ∃ c ∈ expRates, ∀ n, a n + b n ≤ c n) ∧
    ∀ k : ℕ, ∃ r ∈ expRates, ∀ n < k, 1 ≤ r n := by
  constructor
  · rintro a ⟨C, c, hC, hc, rfl⟩ b ⟨D, d, hD, hd, rfl⟩
    refine ⟨_, ⟨C + D, min c d, by positivity, lt_min hc hd, rfl⟩, fun n => ?_⟩
    rw [← ENNReal.ofReal_add (by positivity) (by positivity)]
    refine ENNReal.ofReal_le_ofReal ?_
    rw [add_mul]
    have hn : (0 : ℝ) ≤ n := n.cast_nonneg
    refine add_le_add (mul_le_mul_of_nonneg_left (Real.exp_le_exp.2 ?_) hC) (mul_le_mul_of_nonneg_left (Real.exp_le_exp.2 ?_) hD)
    · nlinarith [min_le_left c d]
    · nlinarith [min_le_right c d]
  · intro k
    refine ⟨_, ⟨Real.exp k, 1, (Real.exp_pos _).le, one_pos, rfl⟩, fun n hn => ?_⟩
    rw [← Real.exp_add, ENNReal.one_le_ofReal]
    refine Real.one_le_exp ?_
    have : (n : ℝ) ≤ k := by exact_mod_cast hn.le
    linarith

theorem inverse_rates : (∀ a ∈ inverseRates,
    ∀ b ∈ inverseRates,
    ∃ c ∈ inverseRates, ∀ n, a n + b n ≤ c n) ∧
    ∀ k : ℕ, ∃ r ∈ inverseRates, ∀ n < k, 1 ≤ r n := by
  constructor
  · rintro a ⟨C, hC, rfl⟩ b ⟨D, hD, rfl⟩
    refine ⟨_, ⟨C + D, by positivity, rfl⟩, fun n => ?_⟩
    rw [← ENNReal.ofReal_add (by positivity) (by positivity), add_div]
  · intro k
    refine ⟨_, ⟨k, by positivity, rfl⟩, fun n hn => ?_⟩
    rw [ENNReal.one_le_ofReal, le_div_iff₀ (by positivity), one_mul]
    exact_mod_cast hn

/-- Hoeffding's inequality in a region -/
theorem exp_deviation (hX : IsRandomSample P X) (hind : iIndepFun X P) {A : List ℝ → Bool} (hA : MeasurableSet (passing (F := space.length) A)) {q : List ℝ → ℝ}
    (hq : Measurable fun x : Fin space.length → ℝ => q (List.ofFn x)) {B : ℝ} (hB : ∀ᵐ x ∂(P.map (X 0)), |q (List.ofFn x)| ≤ B) {ε : ℝ} (hε : 0 < ε) :
    ∃ r ∈ expRates, ∀ n ≥ 1,
      P {ω | ε ≤ |(∑ i ∈ Finset.range n, if A (List.ofFn (X i ω)) = true then q (List.ofFn (X i ω)) else 0) / n - ∫ x in passing A, q (List.ofFn x) ∂(P.map (X 0))|} ≤ r n := by
  obtain ⟨hm, hval⟩ := inside_values hX hA hq
  refine ⟨_, ⟨2, 2 * ε ^ 2 / (2 * (|B| + 1)) ^ 2, by norm_num, by positivity, rfl⟩, fun n hn => ?_⟩
  have hb : ∀ᵐ ω ∂P, -(|B| + 1) ≤ (fun r => if A r = true then q r else 0) (atPoint space [] [] (List.ofFn (X 0 ω))) ∧
      (fun r => if A r = true then q r else 0) (atPoint space [] [] (List.ofFn (X 0 ω))) ≤ |B| + 1 := by
    filter_upwards [ae_of_ae_map (hX.meas 0).aemeasurable hB] with ω h
    rw [atPoint_none, ← abs_le]
    have : 0 ≤ |B| := abs_nonneg B
    split
    · have := le_abs_self B
      linarith
    · simp
      linarith
  have := hX.deviation hind [] [] (q := fun r => if A r = true then q r else 0) hm (a := -(|B| + 1)) (b := |B| + 1) (by have := abs_nonneg B; linarith) hb hn hε.le
  simp only [atPoint_none, hval] at this
  rw [← ofReal_measureReal]
  refine ENNReal.ofReal_le_ofReal (this.trans (le_of_eq ?_))
  congr 2
  ring

/-- Chebyshev's inequality in a region -/
theorem inverse_deviation (hX : IsRandomSample P X) {A : List ℝ → Bool} (hA : MeasurableSet (passing (F := space.length) A)) {q : List ℝ → ℝ}
    (hq : Measurable fun x : Fin space.length → ℝ => q (List.ofFn x)) (hi : Integrable (fun x : Fin space.length → ℝ => q (List.ofFn x) ^ 2) (P.map (X 0))) {ε : ℝ} (hε : 0 < ε) :
    ∃ r ∈ inverseRates, ∀ n ≥ 1,
      P {ω | ε ≤ |(∑ i ∈ Finset.range n, if A (List.ofFn (X i ω)) = true then q (List.ofFn (X i ω)) else 0) / n - ∫ x in passing A, q (List.ofFn x) ∂(P.map (X 0))|} ≤ r n := by
  obtain ⟨hm, hval⟩ := inside_values hX hA hq
  obtain ⟨Y, hY⟩ : ∃ Y : ℕ → Ω → ℝ, Y = fun i ω => if A (List.ofFn (X i ω)) = true then q (List.ofFn (X i ω)) else 0 := ⟨_, rfl⟩
  have hid : ∀ i, IdentDistrib (Y i) (Y 0) P P := fun i => by
    subst hY
    exact (IdentDistrib.mk (hX.meas i).aemeasurable (hX.meas 0).aemeasurable (hX.ident i)).comp hm
  have hind2 : (fun x : Fin space.length → ℝ => (if A (List.ofFn x) = true then q (List.ofFn x) else 0) ^ 2) = (passing A).indicator fun x => q (List.ofFn x) ^ 2 := by
    funext x
    by_cases h : A (List.ofFn x) = true <;> simp [passing, h]
  have hL0 : MemLp (Y 0) 2 P := by
    subst hY
    refine (memLp_two_iff_integrable_sq (hm.comp (hX.meas 0)).aestronglyMeasurable).2 ?_
    have : Integrable (fun x : Fin space.length → ℝ => (if A (List.ofFn x) = true then q (List.ofFn x) else 0) ^ 2) (P.map (X 0)) := by
      rw [hind2]
      exact hi.indicator hA
    exact this.comp_measurable (hX.meas 0)
  have hL : ∀ i, MemLp (Y i) 2 P := fun i => (hid i).memLp_iff.2 hL0
  have hpair : Pairwise fun i j => IndepFun (Y i) (Y j) P := fun i j hij => by
    subst hY
    exact (hX.indep hij).comp hm hm
  have hmean : ∀ i, ∫ ω, Y i ω ∂P = ∫ x in passing A, q (List.ofFn x) ∂(P.map (X 0)) := fun i => by
    rw [(hid i).integral_eq, ← hval, hY]
  refine ⟨_, ⟨2 * variance (Y 0) P / ε ^ 2, by have := variance_nonneg (Y 0) P; positivity, rfl⟩, fun n hn => ?_⟩
  have hn0 : (0 : ℝ) < n := by exact_mod_cast hn
  have hvar : variance (∑ i ∈ Finset.range n, Y i) P = n * variance (Y 0) P := by
    rw [IndepFun.variance_sum (fun i _ => hL i) fun i _ j _ hij => hpair hij]
    simp [fun i => (hid i).variance_eq]
  have hcheb := meas_ge_le_variance_div_sq (μ := P) (X := ∑ i ∈ Finset.range n, Y i) (memLp_finsetSum' _ fun i _ => hL i) (c := n * ε) (by positivity)
  rw [hvar] at hcheb
  have hsum : ∫ ω, (∑ i ∈ Finset.range n, Y i) ω ∂P = n * ∫ x in passing A, q (List.ofFn x) ∂(P.map (X 0)) := by
    simp only [Finset.sum_apply]
    rw [integral_finsetSum _ fun i _ => (hL i).integrable (by norm_num)]
    simp [hmean]
  rw [hsum] at hcheb
  refine le_trans (measure_mono fun ω hω => ?_) (hcheb.trans (ENNReal.ofReal_le_ofReal ?_))
  · have hω : ε ≤ |(∑ i ∈ Finset.range n, Y i ω) / n - ∫ x in passing A, q (List.ofFn x) ∂(P.map (X 0))| := by
      rw [hY]
      exact hω
    change n * ε ≤ |(∑ i ∈ Finset.range n, Y i) ω - n * ∫ x in passing A, q (List.ofFn x) ∂(P.map (X 0))|
    rw [Finset.sum_apply]
    have e : (∑ i ∈ Finset.range n, Y i ω) - n * ∫ x in passing A, q (List.ofFn x) ∂(P.map (X 0)) =
        n * ((∑ i ∈ Finset.range n, Y i ω) / n - ∫ x in passing A, q (List.ofFn x) ∂(P.map (X 0))) := by field_simp
    rw [e, abs_mul, abs_of_pos hn0]
    exact mul_le_mul_of_nonneg_left hω hn0.le
  · have hv := variance_nonneg (Y 0) P
    have hn1 : (1 : ℝ) ≤ n := by exact_mod_cast hn
    rw [div_div, div_le_div_iff₀ (by positivity) (by positivity)]
    have : 0 ≤ variance (Y 0) P * ε ^ 2 * n := by positivity
    nlinarith

/-- **C188** How fast the tree becomes the tree of the distribution. If the samples are independent of each other and the standard deviations of the surrogate bounded, the
probability that the tree of `n` samples is not the tree of their distribution - other leaves, other conditions, other samples in a leaf, or a share or a loss per sample
that is further off than `ε` - decreases exponentially with `n`. -/
theorem C188_exponential {predict : Predict ℝ} {sel : Selection ℝ} {selected : List (Hp ℝ)} {g : Nat} (h : PdpSetting space predict sel selected g grid mu sd)
    {notSplittable : Option (Selection ℝ)} {ns : List (Hp ℝ)} (hns : notSplittableHps notSplittable space = .ok ns) (hX : IsRandomSample P X) (hind : iIndepFun X P)
    (hsd : Measurable fun x : Fin space.length → ℝ => sd (List.ofFn x)) {B : ℝ}
    (hB : ∀ t ∈ grid, ∀ᵐ x ∂(P.map (X 0)), |sd (atPoint space selected t (List.ofFn x))| ≤ B) (hmp : 1 ≤ minPoints)
    {depth : Int} (hdep : 0 < depth) {R : List ((List ℝ → Bool) × List (Cond ℝ))}
    (hT : PopulationTree (P.map (X 0)) grid (fun t r => sd (atPoint space selected t r) ^ 2) space (possibleSplits space selected ns) N depth (fun _ => true) [] 0 R)
    {ε : ℝ} (hε : 0 < ε) :
    ∃ C c : ℝ, 0 < c ∧ ∀ n : ℕ, P {ω | ¬ ∃ p leaves,
      dtInit space predict sel (firstSamples X n ω) g N minPoints notSplittable = .ok p ∧ (dtPartition p depth).2 = .ok leaves ∧
      List.Forall₂ (fun q m => m.conds = q.2 ∧ List.Forall₂ (IsCurveOf space selected (g ^ selected.length)) ((firstSamples X n ω).filter q.1) m.x ∧
        |(m.x.length : ℝ) / n - (P.map (X 0)).real (passing q.1)| ≤ ε ∧
        |regionLoss m.v / n - populationLoss (P.map (X 0)) grid (fun t r => sd (atPoint space selected t r) ^ 2) q.1| ≤ ε) R leaves} ≤
      ENNReal.ofReal (C * Real.exp (-c * n)) := by
  have hprob : IsProbabilityMeasure (P.map (X 0)) := Measure.isProbabilityMeasure_map (hX.meas 0).aemeasurable
  have hm : ∀ t ∈ grid, Measurable fun x : Fin space.length → ℝ => sd (atPoint space selected t (List.ofFn x)) ^ 2 := by
    intro t _
    obtain ⟨φ, h1, h2⟩ := atPoint_map space selected t
    simp only [h2]
    exact (hsd.comp h1).pow_const 2
  have hb2 : ∀ t ∈ grid, ∀ᵐ x ∂(P.map (X 0)), |sd (atPoint space selected t (List.ofFn x)) ^ 2| ≤ B ^ 2 := by
    intro t ht
    filter_upwards [hB t ht] with x hx
    rw [abs_pow]
    exact pow_le_pow_left₀ (abs_nonneg _) hx 2
  have hb4 : ∀ t ∈ grid, ∀ᵐ x ∂(P.map (X 0)), |(sd (atPoint space selected t (List.ofFn x)) ^ 2) ^ 2| ≤ (B ^ 2) ^ 2 := by
    intro t ht
    filter_upwards [hb2 t ht] with x hx
    rw [abs_pow]
    exact pow_le_pow_left₀ (abs_nonneg _) hx 2
  have hlaw : SampleLaw P X (fun q => (Measurable fun x : Fin space.length → ℝ => q (List.ofFn x)) ∧ ∃ B : ℝ, ∀ᵐ x ∂(P.map (X 0)), |q (List.ofFn x)| ≤ B)
      (tailFilter P expRates ⟨_, 0, 1, le_rfl, one_pos, rfl⟩ exp_rates.1) :=
    tail_law hX exp_rates.2 fun A hA q ⟨hq, B, hB⟩ ε hε => exp_deviation hX hind hA hq hB hε
  obtain ⟨r, ⟨C, c, -, hc, rfl⟩, hr⟩ := mem_tail.1 (law_tree (minPoints := minPoints) h hns hX hlaw ⟨measurable_const, 1, by simp⟩ hsd
    (fun t ht => Integrable.of_bound ((hm t ht).pow_const 2).aestronglyMeasurable _ (by simpa only [Real.norm_eq_abs] using hb4 t ht))
    (fun t ht => ⟨hm t ht, _, hb2 t ht⟩) (fun t ht => ⟨(hm t ht).pow_const 2, _, hb4 t ht⟩) hmp hdep hT hε)
  exact ⟨C, c, hc, hr⟩

/-- without these assumptions, and with variances whose fourth powers have an expectation, it decreases like `1 / n` -/
theorem C188_moments {predict : Predict ℝ} {sel : Selection ℝ} {selected : List (Hp ℝ)} {g : Nat} (h : PdpSetting space predict sel selected g grid mu sd)
    {notSplittable : Option (Selection ℝ)} {ns : List (Hp ℝ)} (hns : notSplittableHps notSplittable space = .ok ns) (hX : IsRandomSample P X)
    (hsd : Measurable fun x : Fin space.length → ℝ => sd (List.ofFn x))
    (hi : ∀ t ∈ grid, Integrable (fun x : Fin space.length → ℝ => (sd (atPoint space selected t (List.ofFn x)) ^ 2) ^ 4) (P.map (X 0))) (hmp : 1 ≤ minPoints)
    {depth : Int} (hdep : 0 < depth) {R : List ((List ℝ → Bool) × List (Cond ℝ))}
    (hT : PopulationTree (P.map (X 0)) grid (fun t r => sd (atPoint space selected t r) ^ 2) space (possibleSplits space selected ns) N depth (fun _ => true) [] 0 R)
    {ε : ℝ} (hε : 0 < ε) :
    ∃ C : ℝ, ∀ n : ℕ, 1 ≤ n → P {ω | ¬ ∃ p leaves,
      dtInit space predict sel (firstSamples X n ω) g N minPoints notSplittable = .ok p ∧ (dtPartition p depth).2 = .ok leaves ∧
      List.Forall₂ (fun q m => m.conds = q.2 ∧ List.Forall₂ (IsCurveOf space selected (g ^ selected.length)) ((firstSamples X n ω).filter q.1) m.x ∧
        |(m.x.length : ℝ) / n - (P.map (X 0)).real (passing q.1)| ≤ ε ∧
        |regionLoss m.v / n - populationLoss (P.map (X 0)) grid (fun t r => sd (atPoint space selected t r) ^ 2) q.1| ≤ ε) R leaves} ≤
      ENNReal.ofReal (C / n) := by
  have hprob : IsProbabilityMeasure (P.map (X 0)) := Measure.isProbabilityMeasure_map (hX.meas 0).aemeasurable
  have hm : ∀ t ∈ grid, Measurable fun x : Fin space.length → ℝ => sd (atPoint space selected t (List.ofFn x)) ^ 2 := by
    intro t _
    obtain ⟨φ, h1, h2⟩ := atPoint_map space selected t
    simp only [h2]
    exact (hsd.comp h1).pow_const 2
  have hi4 : ∀ t ∈ grid, Integrable (fun x : Fin space.length → ℝ => ((sd (atPoint space selected t (List.ofFn x)) ^ 2) ^ 2) ^ 2) (P.map (X 0)) := by
    intro t ht
    have := hi t ht
    simpa only [← pow_mul] using this
  have hi2 : ∀ t ∈ grid, Integrable (fun x : Fin space.length → ℝ => (sd (atPoint space selected t (List.ofFn x)) ^ 2) ^ 2) (P.map (X 0)) := fun t ht =>
    ((memLp_two_iff_integrable_sq ((hm t ht).pow_const 2).aestronglyMeasurable).2 (hi4 t ht)).integrable (by norm_num)
  have hlaw : SampleLaw P X (fun q => (Measurable fun x : Fin space.length → ℝ => q (List.ofFn x)) ∧ Integrable (fun x : Fin space.length → ℝ => q (List.ofFn x) ^ 2) (P.map (X 0)))
      (tailFilter P inverseRates ⟨_, 0, le_rfl, rfl⟩ inverse_rates.1) :=
    tail_law hX inverse_rates.2 fun A hA q ⟨hq, hi⟩ ε hε => inverse_deviation hX hA hq hi hε
  obtain ⟨r, ⟨C, hC, rfl⟩, hr⟩ := mem_tail.1 (law_tree (minPoints := minPoints) h hns hX hlaw ⟨measurable_const, integrable_const _⟩ hsd hi2
    (fun t ht => ⟨hm t ht, hi2 t ht⟩) (fun t ht => ⟨(hm t ht).pow_const 2, hi4 t ht⟩) hmp hdep hT hε)
  refine ⟨C, fun n hn => (hr n).trans (ENNReal.ofReal_le_ofReal ?_)⟩
  have : (0 : ℝ) < n := by exact_mod_cast hn
  exact div_le_div_of_nonneg_left hC this (by linarith)

end rates

/-- for the surrogate of two standard deviations the tree of `n` uniform samples splits in the middle, except with a probability that decreases exponentially -/
example : ∃ C c : ℝ, 0 < c ∧ ∀ n : ℕ, uniformSamples stSpace.length {ω | ¬ ∃ p upper lower,
    dtInit stSpace (fun rows => .ok (rows.map fun _ => 0, rows.map (halfSd 0 1))) (.many [.name "x1"]) (firstSamples (fun i ω => ω i) n ω) 3 3 10 none = .ok p ∧
    (dtPartition p 1).2 = .ok [upper, lower] ∧ upper.conds = [⟨⟨"x2", .float (-5) 5 false⟩, .flt (threshold 3 2), some false⟩] ∧
    lower.conds = [⟨⟨"x2", .float (-5) 5 false⟩, .flt (threshold 3 2), some true⟩]} ≤ ENNReal.ofReal (C * Real.exp (-c * n)) := by
  have hind : iIndepFun (fun (i : ℕ) (ω : ℕ → Fin stSpace.length → ℝ) => ω i) (uniformSamples stSpace.length) := by
    unfold uniformSamples
    exact iIndepFun_infinitePi (X := fun _ x => x) fun _ => measurable_id
  obtain ⟨C, c, hc, h⟩ := C188_exponential (minPoints := 10) (notSplittable := none) (ns := []) halfSetting rfl (uniformSamples_spec stSpace.length).1 hind half_measurable (B := 1)
    (fun t ht => ae_of_all _ fun x => by
      unfold halfSd
      split <;> simp) (by norm_num) (by norm_num) (half_tree (a := 0) (b := 1) (by norm_num)) one_pos
  refine ⟨C, c, hc, fun n => le_trans (measure_mono ?_) (h n)⟩
  rintro ω hω ⟨p, leaves, h1, h2, h3⟩
  apply hω
  cases h3 with
  | @cons _ a _ as e1 h4 =>
    cases h4 with
    | @cons _ b _ bs e2 h5 =>
      cases h5
      exact ⟨p, a, b, h1, h2, e1.1, e2.1⟩

end PyPDP
