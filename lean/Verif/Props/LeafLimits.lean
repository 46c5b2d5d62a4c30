/-
C187: what is reported for the leaves of a tree, with more and more random samples.
-/
import Verif.Props.PopulationTree
import Verif.Props.LikelihoodUnits

namespace PyPDP
open Spec MeasureTheory ProbabilityTheory Filter Topology

/-- the mean of `q` in the region with the test `A` -/
noncomputable def Spec.regionMean {F : Nat} (μ : Measure (Fin F → ℝ)) (A : List ℝ → Bool) (q : List ℝ → ℝ) : ℝ :=
  (∫ x in passing A, q (List.ofFn x) ∂μ) / μ.real (passing (F := F) A)

/-- The negative log-likelihood of a region under the distribution: the mean over the grid points of the Gaussian log loss of the true values, for the means and mean
variances in the region. -/
noncomputable def Spec.populationNll {F : Nat} (μ : Measure (Fin F → ℝ)) (grid : List (List ℝ)) (y v : List ℝ → List ℝ → ℝ) (truth : Nat → ℝ) (A : List ℝ → Bool) : ℝ :=
  (∑ i ∈ Finset.range grid.length, (Real.log (2 * Real.pi * regionMean μ A (v (grid.getD i []))) +
    (truth i - regionMean μ A (y (grid.getD i []))) ^ 2 / regionMean μ A (v (grid.getD i []))) / 2) / grid.length

section limits
variable {Ω : Type} [MeasurableSpace Ω] {P : Measure Ω} [IsProbabilityMeasure P] {space : ConfigSpace ℝ} {X : ℕ → Ω → Fin space.length → ℝ}
  {idx : List Nat} {grid : List (List ℝ)} {mu sd : List ℝ → ℝ} {N minPoints : Nat}

/-- the strong law for the mean in a region -/
theorem region_mean {F : Nat} {X : ℕ → Ω → Fin F → ℝ} (hX : IsRandomSample P X) {A : List ℝ → Bool} (hA : MeasurableSet (passing (F := F) A))
    (h0 : 0 < (P.map (X 0)).real (passing A)) {q : List ℝ → ℝ}
    (hq : Measurable fun x : Fin F → ℝ => q (List.ofFn x)) (hi : Integrable (fun x : Fin F → ℝ => q (List.ofFn x)) (P.map (X 0))) :
    ∀ᵐ ω ∂P, Tendsto (fun n : ℕ => (((firstSamples X n ω).filter A).map q).sum / ((firstSamples X n ω).filter A).length) atTop
      (𝓝 (regionMean (P.map (X 0)) A q)) := by
  filter_upwards [region_law hX hA hq hi, region_share hX hA] with ω h1 h2
  refine (h1.div h2 h0.ne').congr' ?_
  filter_upwards [eventually_ge_atTop 1] with n hn
  have : (n : ℝ) ≠ 0 := by positivity
  exact div_div_div_cancel_right₀ this _ _

theorem region_filled {F : Nat} {X : ℕ → Ω → Fin F → ℝ} (hX : IsRandomSample P X) {A : List ℝ → Bool} (hA : MeasurableSet (passing (F := F) A))
    (h0 : 0 < (P.map (X 0)).real (passing A)) : ∀ᵐ ω ∂P, ∀ᶠ n in atTop, (firstSamples X n ω).filter A ≠ [] := by
  filter_upwards [region_share hX hA] with ω h
  filter_upwards [h.eventually (lt_mem_nhds h0)] with n hn h
  rw [h] at hn
  simp at hn

omit [MeasurableSpace Ω] in
theorem curve_means {selected : List (Hp ℝ)} (hrow : ∀ t ∈ grid, ∀ x : Fin space.length → ℝ, assignRow idx t (List.ofFn x) = atPoint space selected t (List.ofFn x)) (A : List ℝ → Bool) (n : Nat)
    (ω : Ω) {i : Nat} (hi : i < grid.length) :
    meanY i (((firstSamples X n ω).filter A).map (curveAt idx grid mu sd)) =
      (((firstSamples X n ω).filter A).map fun r => mu (atPoint space selected (grid.getD i []) r)).sum / ((firstSamples X n ω).filter A).length ∧
    meanVar i (((firstSamples X n ω).filter A).map (curveAt idx grid mu sd)) =
      (((firstSamples X n ω).filter A).map fun r => sd (atPoint space selected (grid.getD i []) r) ^ 2).sum / ((firstSamples X n ω).filter A).length ∧
    (((firstSamples X n ω).filter A).map (curveAt idx grid mu sd)).map (fun c => Real.sqrt (c.2.2.getD i 0)) =
      ((firstSamples X n ω).filter A).map fun r => |sd (atPoint space selected (grid.getD i []) r)| := by
  have hr : ∀ r ∈ (firstSamples X n ω).filter A, assignRow idx (grid.getD i []) r = atPoint space selected (grid.getD i []) r := by
    intro r hr
    obtain ⟨k, rfl⟩ := mem_firstSamples (List.mem_of_mem_filter hr)
    exact hrow _ (getD_mem hi) _
  refine ⟨?_, ?_, ?_⟩
  · rw [meanY, List.length_map, List.map_map]
    congr 2
    refine List.map_congr_left fun r h => ?_
    rw [← hr r h]
    simp [curveAt, List.getElem?_eq_getElem hi]
  · rw [meanVar, List.length_map, List.map_map]
    congr 2
    refine List.map_congr_left fun r h => ?_
    rw [← hr r h]
    simp [curveAt, List.getElem?_eq_getElem hi]
  · rw [List.map_map]
    refine List.map_congr_left fun r h => ?_
    rw [← hr r h, ← Real.sqrt_sq_eq_abs]
    simp [curveAt, List.getElem?_eq_getElem hi]

omit [MeasurableSpace Ω] in
theorem sum_swap_curves {α : Type} (L : List α) (k : Nat) (f : α → Nat → ℝ) :
    (L.map fun c => ∑ i ∈ Finset.range k, f c i).sum = ∑ i ∈ Finset.range k, (L.map fun c => f c i).sum := by
  induction L with
  | nil => simp
  | cons a as ih => simp [ih, Finset.sum_add_distrib]

/-- means, mean variances and mean standard deviations in a region -/
theorem region_limits {selected : List (Hp ℝ)} (hX : IsRandomSample P X) (hrow : ∀ t ∈ grid, ∀ x : Fin space.length → ℝ, assignRow idx t (List.ofFn x) = atPoint space selected t (List.ofFn x))
    (hmu : Measurable fun x : Fin space.length → ℝ => mu (List.ofFn x)) (hsd : Measurable fun x : Fin space.length → ℝ => sd (List.ofFn x))
    (imu : ∀ t ∈ grid, Integrable (fun x : Fin space.length → ℝ => mu (atPoint space selected t (List.ofFn x))) (P.map (X 0)))
    (isd : ∀ t ∈ grid, Integrable (fun x : Fin space.length → ℝ => sd (atPoint space selected t (List.ofFn x)) ^ 2) (P.map (X 0)))
    {A : List ℝ → Bool} (hA : MeasurableSet (passing (F := space.length) A)) (h0 : 0 < (P.map (X 0)).real (passing A)) :
    ∀ᵐ ω ∂P, (∀ᶠ n in atTop, (firstSamples X n ω).filter A ≠ []) ∧
      (∀ i < grid.length, Tendsto (fun n => meanY i (((firstSamples X n ω).filter A).map (curveAt idx grid mu sd))) atTop
          (𝓝 (regionMean (P.map (X 0)) A fun r => mu (atPoint space selected (grid.getD i []) r))) ∧
        Tendsto (fun n => meanVar i (((firstSamples X n ω).filter A).map (curveAt idx grid mu sd))) atTop
          (𝓝 (regionMean (P.map (X 0)) A fun r => sd (atPoint space selected (grid.getD i []) r) ^ 2))) ∧
      Tendsto (fun n => ((((firstSamples X n ω).filter A).map (curveAt idx grid mu sd)).map fun c => ∑ i ∈ Finset.range grid.length, Real.sqrt (c.2.2.getD i 0)).sum /
          ((((firstSamples X n ω).filter A).map (curveAt idx grid mu sd)).length * grid.length)) atTop
        (𝓝 ((grid.map fun t => regionMean (P.map (X 0)) A fun r => |sd (atPoint space selected t r)|).sum / grid.length)) := by
  have hprob : IsProbabilityMeasure (P.map (X 0)) := Measure.isProbabilityMeasure_map (hX.meas 0).aemeasurable
  have m1 : ∀ t, Measurable fun x : Fin space.length → ℝ => mu (atPoint space selected t (List.ofFn x)) := by
    intro t
    obtain ⟨φ, h1, h2⟩ := atPoint_map space selected t
    simp only [h2]
    exact hmu.comp h1
  have m2 : ∀ t, Measurable fun x : Fin space.length → ℝ => sd (atPoint space selected t (List.ofFn x)) := by
    intro t
    obtain ⟨φ, h1, h2⟩ := atPoint_map space selected t
    simp only [h2]
    exact hsd.comp h1
  have isd1 : ∀ t ∈ grid, Integrable (fun x : Fin space.length → ℝ => |sd (atPoint space selected t (List.ofFn x))|) (P.map (X 0)) := fun t ht =>
    (((memLp_two_iff_integrable_sq (m2 t).aestronglyMeasurable).2 (isd t ht)).integrable (by norm_num)).abs
  have hall : ∀ᵐ ω ∂P, ∀ i : Fin grid.length,
      Tendsto (fun n : ℕ => (((firstSamples X n ω).filter A).map fun r => mu (atPoint space selected (grid.getD i []) r)).sum / ((firstSamples X n ω).filter A).length) atTop
        (𝓝 (regionMean (P.map (X 0)) A fun r => mu (atPoint space selected (grid.getD i []) r))) ∧
      Tendsto (fun n : ℕ => (((firstSamples X n ω).filter A).map fun r => sd (atPoint space selected (grid.getD i []) r) ^ 2).sum / ((firstSamples X n ω).filter A).length)
        atTop (𝓝 (regionMean (P.map (X 0)) A fun r => sd (atPoint space selected (grid.getD i []) r) ^ 2)) ∧
      Tendsto (fun n : ℕ => (((firstSamples X n ω).filter A).map fun r => |sd (atPoint space selected (grid.getD i []) r)|).sum / ((firstSamples X n ω).filter A).length)
        atTop (𝓝 (regionMean (P.map (X 0)) A fun r => |sd (atPoint space selected (grid.getD i []) r)|)) := by
    refine ae_all_iff.2 fun i => ?_
    have hg := getD_mem i.2 (z := []) (X := grid)
    exact (region_mean hX hA h0 (m1 _) (imu _ hg)).and ((region_mean hX hA h0 ((m2 _).pow_const 2) (isd _ hg)).and
      (region_mean hX hA h0 (measurable_abs.comp (m2 _)) (isd1 _ hg)))
  filter_upwards [hall, region_filled hX hA h0] with ω hall hf
  refine ⟨hf, fun i hi => ?_, ?_⟩
  · obtain ⟨a1, a2, -⟩ := hall ⟨i, hi⟩
    exact ⟨a1.congr fun n => (curve_means hrow A n ω hi).1.symm, a2.congr fun n => (curve_means hrow A n ω hi).2.1.symm⟩
  · have hsum : Tendsto (fun n : ℕ => (∑ i ∈ Finset.range grid.length,
        (((firstSamples X n ω).filter A).map fun r => |sd (atPoint space selected (grid.getD i []) r)|).sum / ((firstSamples X n ω).filter A).length) / grid.length) atTop
        (𝓝 ((∑ i ∈ Finset.range grid.length, regionMean (P.map (X 0)) A fun r => |sd (atPoint space selected (grid.getD i []) r)|) / grid.length)) :=
      (tendsto_finsetSum _ fun i hi => (hall ⟨i, Finset.mem_range.1 hi⟩).2.2).div_const _
    rw [sum_range_getD (f := fun t => regionMean (P.map (X 0)) A fun r => |sd (atPoint space selected t r)|)] at hsum
    refine hsum.congr fun n => ?_
    rw [sum_swap_curves, ← Finset.sum_div, div_div, List.length_map]
    congr 1
    refine Finset.sum_congr rfl fun i hi => ?_
    rw [(curve_means (mu := mu) hrow A n ω (Finset.mem_range.1 hi)).2.2]

omit [IsProbabilityMeasure P] in
theorem square_integrable [IsFiniteMeasure (P.map (X 0))] {selected : List (Hp ℝ)} (hsd : Measurable fun x : Fin space.length → ℝ => sd (List.ofFn x))
    (hi : ∀ t ∈ grid, Integrable (fun x : Fin space.length → ℝ => (sd (atPoint space selected t (List.ofFn x)) ^ 2) ^ 2) (P.map (X 0))) :
    ∀ t ∈ grid, Integrable (fun x : Fin space.length → ℝ => sd (atPoint space selected t (List.ofFn x)) ^ 2) (P.map (X 0)) := by
  intro t ht
  obtain ⟨φ, h1, h2⟩ := atPoint_map space selected t
  have hm : Measurable fun x : Fin space.length → ℝ => sd (atPoint space selected t (List.ofFn x)) ^ 2 := by
    simp only [h2]
    exact (hsd.comp h1).pow_const 2
  exact ((memLp_two_iff_integrable_sq hm.aestronglyMeasurable).2 (hi t ht)).integrable (by norm_num)

/-- **C187** With more and more random samples, what is reported for the leaves tends to what holds in their regions. In the situation of C186, almost surely, for
every `ε > 0` and from some number of samples on: the PDP of every leaf (its values and its variances) differs at every grid point by at most `ε` from the mean of the
predictions, resp. of the variances, over all points of the region; and its `mean_confidence` by at most `ε` from the mean standard deviation in the region. -/
theorem C187_leaves {predict : Predict ℝ} {sel : Selection ℝ} {selected : List (Hp ℝ)} {g : Nat} (h : PdpSetting space predict sel selected g grid mu sd)
    {notSplittable : Option (Selection ℝ)} {ns : List (Hp ℝ)} (hns : notSplittableHps notSplittable space = .ok ns) (hX : IsRandomSample P X)
    (hmu : Measurable fun x : Fin space.length → ℝ => mu (List.ofFn x)) (hsd : Measurable fun x : Fin space.length → ℝ => sd (List.ofFn x))
    (imu : ∀ t ∈ grid, Integrable (fun x : Fin space.length → ℝ => mu (atPoint space selected t (List.ofFn x))) (P.map (X 0)))
    (hi : ∀ t ∈ grid, Integrable (fun x : Fin space.length → ℝ => (sd (atPoint space selected t (List.ofFn x)) ^ 2) ^ 2) (P.map (X 0))) (hmp : 1 ≤ minPoints)
    {depth : Int} (hdep : 0 < depth) {R : List ((List ℝ → Bool) × List (Cond ℝ))}
    (hT : PopulationTree (P.map (X 0)) grid (fun t r => sd (atPoint space selected t r) ^ 2) space (possibleSplits space selected ns) N depth (fun _ => true) [] 0 R) :
    ∀ᵐ ω ∂P, ∀ ε > 0, ∃ n₀, ∀ n ≥ n₀, ∃ p leaves,
      dtInit space predict sel (firstSamples X n ω) g N minPoints notSplittable = .ok p ∧ (dtPartition p depth).2 = .ok leaves ∧
      List.Forall₂ (fun q m => m.conds = q.2 ∧ ∃ c mc, regionPdp space selected m = .ok c ∧ meanConfidence m = .ok mc ∧
        c.y.length = grid.length ∧ c.v.length = grid.length ∧
        (∀ (i : Nat) (t : List ℝ), grid[i]? = some t →
          |c.y.getD i 0 - regionMean (P.map (X 0)) q.1 fun r => mu (atPoint space selected t r)| ≤ ε ∧
          |c.v.getD i 0 - regionMean (P.map (X 0)) q.1 fun r => sd (atPoint space selected t r) ^ 2| ≤ ε) ∧
        |mc - (grid.map fun t => regionMean (P.map (X 0)) q.1 fun r => |sd (atPoint space selected t r)|).sum / grid.length| ≤ ε) R leaves := by
  have hprob : IsProbabilityMeasure (P.map (X 0)) := Measure.isProbabilityMeasure_map (hX.meas 0).aemeasurable
  obtain ⟨idx, hrow, hpos, hcore⟩ := population_leaves h hns hX hsd hi hmp hdep hT
  have isd := square_integrable hsd hi
  have hlim := ae_all_iff.2 fun a : Fin R.length => region_limits (mu := mu) hX hrow hmu hsd imu isd (hpos _ (List.getElem_mem a.2)).1 (hpos _ (List.getElem_mem a.2)).2
  filter_upwards [hcore, hlim] with ω hcore hlim ε hε
  have hnear : ∀ᶠ n : ℕ in atTop, ∀ a : Fin R.length, (firstSamples X n ω).filter R[a].1 ≠ [] ∧
      (∀ i : Fin grid.length, |meanY i (((firstSamples X n ω).filter R[a].1).map (curveAt idx grid mu sd)) -
          regionMean (P.map (X 0)) R[a].1 fun r => mu (atPoint space selected (grid.getD i []) r)| < ε ∧
        |meanVar i (((firstSamples X n ω).filter R[a].1).map (curveAt idx grid mu sd)) -
          regionMean (P.map (X 0)) R[a].1 fun r => sd (atPoint space selected (grid.getD i []) r) ^ 2| < ε) ∧
      |((((firstSamples X n ω).filter R[a].1).map (curveAt idx grid mu sd)).map fun c => ∑ i ∈ Finset.range grid.length, Real.sqrt (c.2.2.getD i 0)).sum /
          ((((firstSamples X n ω).filter R[a].1).map (curveAt idx grid mu sd)).length * grid.length) -
        (grid.map fun t => regionMean (P.map (X 0)) R[a].1 fun r => |sd (atPoint space selected t r)|).sum / grid.length| < ε := by
    rw [eventually_all]
    intro a
    obtain ⟨h1, h2, h3⟩ := hlim a
    refine h1.and (Eventually.and ?_ (Metric.tendsto_nhds.1 h3 ε hε))
    rw [eventually_all]
    intro i
    exact (Metric.tendsto_nhds.1 (h2 i i.2).1 ε hε).and (Metric.tendsto_nhds.1 (h2 i i.2).2 ε hε)
  obtain ⟨n₀, hn₀⟩ := eventually_atTop.1 (hcore.and hnear)
  refine ⟨n₀, fun n hn => ?_⟩
  obtain ⟨⟨p, L, q1, q3, -, hroot, q5, hleaves⟩, hnear⟩ := hn₀ n hn
  refine ⟨p, L, q1, q5, ?_⟩
  refine forall₂_mem hleaves fun q m hq _ hc => ?_
  obtain ⟨hshape, hcond, hcur⟩ := hc
  obtain ⟨a, ha, rfl⟩ := List.mem_iff_getElem.1 hq
  obtain ⟨b1, b2, b3⟩ := hnear ⟨a, ha⟩
  have hne : curves m ≠ [] := by
    rw [hcur]
    simpa using b1
  obtain ⟨c, c1, -, -, -, c5, c6, c7⟩ := regionPdp_sum space selected hshape hne
  have hlen : ((curves m).length : ℝ) ≠ 0 := by
    have := List.length_pos_iff.2 hne
    positivity
  refine ⟨hcond, c, _, c1, C82_mean_confidence hshape hne, c5.1, c6.1, fun i t ht => ?_, ?_⟩
  · obtain ⟨hil, rfl⟩ := List.getElem?_eq_some_iff.1 ht
    have hgd : grid.getD i [] = grid[i] := by simp [hil]
    obtain ⟨d1, d2, -⟩ := c7 i hil
    have e1 : c.y.getD i 0 = meanY i (curves m) := by rw [meanY, eq_div_iff hlen, mul_comm]; exact d1
    have e2 : c.v.getD i 0 = meanVar i (curves m) := by rw [meanVar, eq_div_iff hlen, mul_comm]; exact d2
    have := b2 ⟨i, hil⟩
    rw [hgd] at this
    rw [e1, e2, hcur]
    exact ⟨this.1.le, this.2.le⟩
  · rw [hcur]
    exact b3.le

/-- The true values of `negative_log_likelihood` on a grid: the exact partial dependence of `fn` at the natural value of the first selected hyperparameter. -/
structure Spec.GridTruth (inv : Hp ℝ → Val ℝ → ℝ) (space : ConfigSpace ℝ) (selected : List (Hp ℝ)) (grid : List (List ℝ)) (fn : TrueFn) (truth : Nat → ℝ) : Prop where
  intro ::
  out : ∃ (hp : Hp ℝ) (rest : List (Hp ℝ)) (l u : ℝ) (log : Bool) (pd : BlackboxFn ℝ), selected = hp :: rest ∧ Declares space hp.name l u log ∧
    fn.pdIntegral ((fn.space.filter fun h => decide (∀ s ∈ selected, s.name ≠ h.name)).map .hp) = .ok pd ∧
    ∀ (i : Nat) (t : List ℝ), grid[i]? = some t → pd.call inv [(hp.name, .num (interpolate l u log (t.getD 0 0)))] = .ok (truth i)

omit [MeasurableSpace Ω] in
theorem truth_of_leaf {predict : Predict ℝ} {sel : Selection ℝ} {selected : List (Hp ℝ)} {g : Nat} (h : PdpSetting space predict sel selected g grid mu sd)
    {inv : Hp ℝ → Val ℝ → ℝ} {fn : TrueFn} {truth : Nat → ℝ} (ht : GridTruth inv space selected grid fn truth)
    (hrow : ∀ t ∈ grid, ∀ x : Fin space.length → ℝ, assignRow idx t (List.ofFn x) = atPoint space selected t (List.ofFn x)) {n : Nat} {ω : Ω} {A : List ℝ → Bool} {m : Node ℝ}
    (hm : RegionShape grid.length space.length m) (hne : (firstSamples X n ω).filter A ≠ [])
    (hc : curves m = ((firstSamples X n ω).filter A).map (curveAt idx grid mu sd)) : IsTruth inv grid.length space selected m fn truth := by
  obtain ⟨hp, rest, l, u, log, pd, rfl, hdec, hpd, htr⟩ := ht.out
  obtain ⟨grid', hgr, -, hfull⟩ := C40_grid (K := ℝ) (List.length_pos_iff.2 h.ne) g
  rw [h.grid_eq] at hgr
  obtain rfl := Except.ok.inj hgr
  obtain ⟨f, hf⟩ := List.mem_iff_getElem?.1 (h.mem hp (by simp))
  refine ⟨hp, rest, l, u, log, f, pd, rfl, hdec, ⟨hp, hf, rfl⟩, hpd, fun i hi => ?_⟩
  obtain ⟨r, rs, hrs⟩ := List.exists_cons_of_ne_nil hne
  have hr : r ∈ (firstSamples X n ω).filter A := by rw [hrs]; simp
  obtain ⟨k, rfl⟩ := mem_firstSamples (List.mem_of_mem_filter hr)
  have hx : m.x[0]? = some (grid.map fun t => assignRow idx t (List.ofFn (X k ω))) := by
    rw [← hm.map_x, hc, hrs]
    rfl
  have hmem := List.getElem_mem hi
  obtain ⟨hlen, hval⟩ := (hfull.2 _).1 hmem
  obtain ⟨t, ts, hts⟩ : ∃ t ts, grid[i] = t :: ts := by
    cases hgi : grid[i] with
    | nil => rw [hgi] at hlen; simp at hlen
    | cons t ts => exact ⟨t, ts, rfl⟩
  obtain ⟨b, hb, hbt⟩ := hval t (by rw [hts]; simp)
  have ht01 : 0 ≤ t ∧ t ≤ 1 := by
    rw [hbt]
    split
    · norm_num
    · have : (1 : ℝ) < g := by
        have : 1 < g := by omega
        exact_mod_cast this
      have hb' : (b : ℝ) + 1 ≤ g := by exact_mod_cast hb
      exact ⟨by apply div_nonneg <;> [positivity; linarith], by rw [div_le_one (by linarith)]; linarith⟩
  refine ⟨t, ?_, ht01.1, ht01.2, ?_⟩
  · rw [at3, hx, Option.bind_some, List.getElem?_map, List.getElem?_eq_getElem hi, Option.map_some, Option.bind_some, hrow _ hmem,
      atPoint_selected h.distinct (by simp) hlen (j := 0) rfl ⟨hp, hf, rfl⟩, hts]
    rfl
  · have := htr i _ (List.getElem?_eq_getElem hi)
    rw [hts] at this
    exact this

/-- **C187** And so do `negative_log_likelihood` and `delta_nll`: if the mean variances in the regions and in the whole space are positive, then almost surely they are,
from some number of samples on, numbers that are within `ε` of the Gaussian log loss for means and mean variances in the region, and of its relative difference to the
one for the whole space (provided the latter is not 0). -/
theorem C187_likelihood {predict : Predict ℝ} {sel : Selection ℝ} {selected : List (Hp ℝ)} {g : Nat} (h : PdpSetting space predict sel selected g grid mu sd)
    {notSplittable : Option (Selection ℝ)} {ns : List (Hp ℝ)} (hns : notSplittableHps notSplittable space = .ok ns) (hX : IsRandomSample P X)
    (hmu : Measurable fun x : Fin space.length → ℝ => mu (List.ofFn x)) (hsd : Measurable fun x : Fin space.length → ℝ => sd (List.ofFn x))
    (imu : ∀ t ∈ grid, Integrable (fun x : Fin space.length → ℝ => mu (atPoint space selected t (List.ofFn x))) (P.map (X 0)))
    (hi : ∀ t ∈ grid, Integrable (fun x : Fin space.length → ℝ => (sd (atPoint space selected t (List.ofFn x)) ^ 2) ^ 2) (P.map (X 0))) (hmp : 1 ≤ minPoints)
    {depth : Int} (hdep : 0 < depth) {R : List ((List ℝ → Bool) × List (Cond ℝ))}
    (hT : PopulationTree (P.map (X 0)) grid (fun t r => sd (atPoint space selected t r) ^ 2) space (possibleSplits space selected ns) N depth (fun _ => true) [] 0 R)
    {inv : Hp ℝ → Val ℝ → ℝ} {fn : TrueFn} {truth : Nat → ℝ} (ht : GridTruth inv space selected grid fn truth)
    (hroot : ∀ t ∈ grid, 0 < regionMean (P.map (X 0)) (fun _ => true) fun r => sd (atPoint space selected t r) ^ 2)
    (hleaf : ∀ q ∈ R, ∀ t ∈ grid, 0 < regionMean (P.map (X 0)) q.1 fun r => sd (atPoint space selected t r) ^ 2) :
    ∀ᵐ ω ∂P, ∀ ε > 0, ∃ n₀, ∀ n ≥ n₀, ∃ p leaves,
      dtInit space predict sel (firstSamples X n ω) g N minPoints notSplittable = .ok p ∧ (dtPartition p depth).2 = .ok leaves ∧
      List.Forall₂ (fun q m => m.conds = q.2 ∧ ∃ a b, negativeLogLikelihood inv space selected m fn = .ok a ∧ negativeLogLikelihood inv space selected p.root fn = .ok b ∧
        |a - populationNll (P.map (X 0)) grid (fun t r => mu (atPoint space selected t r)) (fun t r => sd (atPoint space selected t r) ^ 2) truth q.1| ≤ ε ∧
        |b - populationNll (P.map (X 0)) grid (fun t r => mu (atPoint space selected t r)) (fun t r => sd (atPoint space selected t r) ^ 2) truth fun _ => true| ≤ ε ∧
        (populationNll (P.map (X 0)) grid (fun t r => mu (atPoint space selected t r)) (fun t r => sd (atPoint space selected t r) ^ 2) truth (fun _ => true) ≠ 0 →
          ∃ d, deltaNll inv space selected m p.root fn = .ok d ∧
            |d - ((populationNll (P.map (X 0)) grid (fun t r => mu (atPoint space selected t r)) (fun t r => sd (atPoint space selected t r) ^ 2) truth (fun _ => true) -
                populationNll (P.map (X 0)) grid (fun t r => mu (atPoint space selected t r)) (fun t r => sd (atPoint space selected t r) ^ 2) truth q.1) /
              |populationNll (P.map (X 0)) grid (fun t r => mu (atPoint space selected t r)) (fun t r => sd (atPoint space selected t r) ^ 2) truth fun _ => true|)| ≤ ε)) R leaves := by
  have hprob : IsProbabilityMeasure (P.map (X 0)) := Measure.isProbabilityMeasure_map (hX.meas 0).aemeasurable
  obtain ⟨idx, hrow, hpos, hcore⟩ := population_leaves h hns hX hsd hi hmp hdep hT
  have isd := square_integrable hsd hi
  obtain ⟨lim, hlimdef⟩ : ∃ lim : (List ℝ → Bool) → ℝ, lim = fun A =>
      populationNll (P.map (X 0)) grid (fun t r => mu (atPoint space selected t r)) (fun t r => sd (atPoint space selected t r) ^ 2) truth A := ⟨_, rfl⟩
  have hone : ∀ A : List ℝ → Bool, MeasurableSet (passing (F := space.length) A) → 0 < (P.map (X 0)).real (passing A) →
      (∀ t ∈ grid, 0 < regionMean (P.map (X 0)) A fun r => sd (atPoint space selected t r) ^ 2) →
      ∀ᵐ ω ∂P, ∃ a : ℕ → ℝ, Tendsto a atTop (𝓝 (lim A)) ∧ ∀ᶠ n in atTop, ∀ m : Node ℝ, RegionShape grid.length space.length m →
        curves m = ((firstSamples X n ω).filter A).map (curveAt idx grid mu sd) → negativeLogLikelihood inv space selected m fn = .ok (a n) := by
    intro A hA h0 hV
    filter_upwards [region_limits (mu := mu) hX hrow hmu hsd imu isd hA h0] with ω hω
    obtain ⟨h1, h2, -⟩ := hω
    refine ⟨fun n => (∑ i ∈ Finset.range grid.length, (Real.log (2 * Real.pi * meanVar i (((firstSamples X n ω).filter A).map (curveAt idx grid mu sd))) +
      (truth i - meanY i (((firstSamples X n ω).filter A).map (curveAt idx grid mu sd))) ^ 2 / meanVar i (((firstSamples X n ω).filter A).map (curveAt idx grid mu sd))) / 2) /
        grid.length, ?_, ?_⟩
    · rw [hlimdef]
      refine (tendsto_finsetSum _ fun i hi => ?_).div_const _
      have hi := Finset.mem_range.1 hi
      have hv := hV _ (getD_mem hi (z := []))
      obtain ⟨a1, a2⟩ := h2 i hi
      refine (Tendsto.add (Tendsto.log (a2.const_mul _) ?_) (((a1.const_sub _).pow 2).div a2 hv.ne')).div_const 2
      have := Real.pi_pos
      positivity
    · have hvpos : ∀ᶠ n in atTop, ∀ i : Fin grid.length, 0 < meanVar i (((firstSamples X n ω).filter A).map (curveAt idx grid mu sd)) := by
        rw [eventually_all]
        intro i
        exact (h2 i i.2).2.eventually (lt_mem_nhds (hV _ (getD_mem i.2 (z := []))))
      filter_upwards [h1, hvpos] with n h1 hvpos m hm hc
      have hne : curves m ≠ [] := by
        rw [hc]
        simpa using h1
      rw [C174_formula hm hne (fun i hi => by rw [hc]; exact hvpos ⟨i, hi⟩) (truth_of_leaf h ht hrow hm h1 hc), hc]
  have htrue : passing (F := space.length) (fun _ => true) = Set.univ := by
    ext x
    simp [passing]
  have hall := ae_all_iff.2 fun a : Fin R.length => hone R[a].1 (hpos _ (List.getElem_mem a.2)).1 (hpos _ (List.getElem_mem a.2)).2 (hleaf _ (List.getElem_mem a.2))
  filter_upwards [hcore, hall, hone (fun _ => true) (by rw [htrue]; exact MeasurableSet.univ) (by rw [htrue]; simp) hroot] with ω hcore hall hrt ε hε
  choose a ha using hall
  obtain ⟨b, hb, hbe⟩ := hrt
  have hnear : ∀ᶠ n : ℕ in atTop, ∀ k : Fin R.length, (∀ m : Node ℝ, RegionShape grid.length space.length m →
        curves m = ((firstSamples X n ω).filter R[k].1).map (curveAt idx grid mu sd) → negativeLogLikelihood inv space selected m fn = .ok (a k n)) ∧
      |a k n - lim R[k].1| < ε ∧ |b n - lim fun _ => true| < ε ∧
      (lim (fun _ => true) ≠ 0 → b n ≠ 0 ∧ |(b n - a k n) / |b n| - ((lim (fun _ => true) - lim R[k].1) / |lim fun _ => true|)| < ε) := by
    rw [eventually_all]
    intro k
    refine (ha k).2.and ((Metric.tendsto_nhds.1 (ha k).1 ε hε).and ((Metric.tendsto_nhds.1 hb ε hε).and ?_))
    by_cases h0 : lim (fun _ => true) = 0
    · exact Eventually.of_forall fun n h => absurd h0 h
    · have hd := (hb.sub (ha k).1).div hb.abs (abs_ne_zero.2 h0)
      filter_upwards [hb.eventually_ne h0, Metric.tendsto_nhds.1 hd ε hε] with n h1 h2 _
      exact ⟨h1, h2⟩
  obtain ⟨n₀, hn₀⟩ := eventually_atTop.1 ((hcore.and hnear).and hbe)
  refine ⟨n₀, fun n hn => ?_⟩
  obtain ⟨⟨⟨p, L, q1, q3, -, hr, q5, hleaves⟩, hnear⟩, hbe⟩ := hn₀ n hn
  refine ⟨p, L, q1, q5, ?_⟩
  have hrootNll : negativeLogLikelihood inv space selected p.root fn = .ok (b n) := by
    refine hbe p.root ?_ (by rw [hr.curves_eq]; simp)
    rw [hr.grid_len, ← hr.space_eq]
    exact hr.valid.shape
  refine forall₂_mem hleaves fun q m hq _ hc => ?_
  obtain ⟨hshape, hcond, hcur⟩ := hc
  obtain ⟨k, hk, rfl⟩ := List.mem_iff_getElem.1 hq
  obtain ⟨b1, b2, b3, b4⟩ := hnear ⟨k, hk⟩
  have hm := b1 m hshape hcur
  refine ⟨hcond, a ⟨k, hk⟩ n, b n, hm, hrootNll, ?_, ?_, fun h0 => ?_⟩
  · rw [hlimdef] at b2
    exact b2.le
  · rw [hlimdef] at b3
    exact b3.le
  · rw [hlimdef] at b4
    obtain ⟨b5, b6⟩ := b4 h0
    refine ⟨_, ?_, b6.le⟩
    rw [deltaNll, hm, hrootNll, Py.ok_bind, Py.ok_bind, calculateLogDelta, if_neg b5]

/-- **C187** And the region of the incumbent settles: for every configuration (with numbers for the splittable hyperparameters) there is one leaf of the tree of the
distribution whose conditions it satisfies, and almost surely, from some number of samples on, `get_incumbent_region` returns the region with exactly these conditions and
exactly the curves of the samples that satisfy them. -/
theorem C187_incumbent {predict : Predict ℝ} {sel : Selection ℝ} {selected : List (Hp ℝ)} {g : Nat} (h : PdpSetting space predict sel selected g grid mu sd)
    {notSplittable : Option (Selection ℝ)} {ns : List (Hp ℝ)} (hns : notSplittableHps notSplittable space = .ok ns) (hX : IsRandomSample P X)
    (hsd : Measurable fun x : Fin space.length → ℝ => sd (List.ofFn x))
    (hi : ∀ t ∈ grid, Integrable (fun x : Fin space.length → ℝ => (sd (atPoint space selected t (List.ofFn x)) ^ 2) ^ 2) (P.map (X 0))) (hmp : 1 ≤ minPoints)
    {depth : Int} (hdep : 0 < depth) {R : List ((List ℝ → Bool) × List (Cond ℝ))}
    (hT : PopulationTree (P.map (X 0)) grid (fun t r => sd (atPoint space selected t r) ^ 2) space (possibleSplits space selected ns) N depth (fun _ => true) [] 0 R)
    (hnum : ∀ hp ∈ possibleSplits space selected ns, hp.isNumerical = true) {cfg : Config ℝ}
    (hcfg : ∀ hp ∈ possibleSplits space selected ns, ∃ x, cfg.get? hp.name = some (.num x)) :
    ∃ q ∈ R, containsAll space q.2 cfg = .ok true ∧ ∀ᵐ ω ∂P, ∃ n₀, ∀ n ≥ n₀, ∃ p m,
      dtInit space predict sel (firstSamples X n ω) g N minPoints notSplittable = .ok p ∧ dtIncumbentRegion (dtPartition p depth).1 cfg = .ok (some m) ∧
      m.conds = q.2 ∧ List.Forall₂ (IsCurveOf space selected (g ^ selected.length)) ((firstSamples X n ω).filter q.1) m.x := by
  obtain ⟨idx, hrow, hpos, hcore⟩ := population_leaves (minPoints := minPoints) h hns hX hsd hi hmp hdep hT
  have hfind : ∀ (n : ℕ) (ω : Ω), (∃ p leaves, dtInit space predict sel (firstSamples X n ω) g N minPoints notSplittable = .ok p ∧ p.cfg.selected = selected ∧
        p.possible = possibleSplits space selected ns ∧ RootOf space mu sd (firstSamples X n ω) g N minPoints p idx grid ∧ (dtPartition p depth).2 = .ok leaves ∧
        List.Forall₂ (fun q m => RegionShape grid.length space.length m ∧ m.conds = q.2 ∧
          curves m = ((firstSamples X n ω).filter q.1).map (curveAt idx grid mu sd)) R leaves) →
      ∃ (k : Nat) (hk : k < R.length), (∀ (j : Nat) (hj : j < R.length), containsAll space R[j].2 cfg = .ok (decide (j = k))) ∧ ∃ p m,
        dtInit space predict sel (firstSamples X n ω) g N minPoints notSplittable = .ok p ∧ dtIncumbentRegion (dtPartition p depth).1 cfg = .ok (some m) ∧
        m.conds = R[k].2 ∧ List.Forall₂ (IsCurveOf space selected (g ^ selected.length)) ((firstSamples X n ω).filter R[k].1) m.x := by
    rintro n ω ⟨p, leaves, q1, q3, q4, hroot, q5, hleaves⟩
    obtain ⟨leaves', k, leaf, c1, c2, c3, c4⟩ := C57_exactly_one_leaf hroot.valid (by rw [q4]; exact hnum) hdep (cfg := cfg) (by rw [q4]; exact hcfg)
    rw [q5] at c1
    obtain rfl := Except.ok.inj c1
    obtain ⟨hl, hrel⟩ := List.forall₂_iff_get.1 hleaves
    obtain ⟨hkl, hke⟩ := List.getElem?_eq_some_iff.1 c2
    refine ⟨k, by omega, fun j hj => ?_, p, leaf, q1, c4, ?_, ?_⟩
    · rw [← c3 j leaves[j] (List.getElem?_eq_getElem (by omega)), hroot.space_eq]
      have := (hrel j hj (by omega)).2.1
      simp only [List.get_eq_getElem] at this
      rw [this]
    · have := (hrel k (by omega) hkl).2.1
      simp only [List.get_eq_getElem] at this
      rw [← hke, this]
    · obtain ⟨e1, -, e3⟩ := hrel k (by omega) hkl
      simp only [List.get_eq_getElem] at e1 e3
      rw [hroot.grid_len] at e1
      have := hroot.rows e1 e3
      rw [q3, hke] at this
      exact this
  obtain ⟨ω₀, hω₀⟩ := hcore.exists
  obtain ⟨n₁, hn₁⟩ := hω₀.exists
  obtain ⟨k, hk, hall, -⟩ := hfind n₁ ω₀ hn₁
  refine ⟨R[k], List.getElem_mem hk, by rw [hall k hk]; simp, ?_⟩
  filter_upwards [hcore] with ω hω
  obtain ⟨n₀, hn₀⟩ := eventually_atTop.1 hω
  refine ⟨n₀, fun n hn => ?_⟩
  obtain ⟨k', hk', hall', p, m, e⟩ := hfind n ω (hn₀ n hn)
  have : k = k' := by
    have h1 := hall k' hk'
    rw [hall' k' hk'] at h1
    have := Except.ok.inj h1
    simpa [eq_comm] using this
  subst this
  exact ⟨p, m, e⟩

end limits

/-! ### example: standard deviation 1 in the lower half of the second hyperparameter and 2 in the upper one -/

theorem half_regionMean {A : List ℝ → Bool} {c : ℝ} {q : List ℝ → ℝ} (h0 : 0 < halfMeasure.real (passing A)) (hA : MeasurableSet (passing (F := stSpace.length) A))
    (h : ∀ x ∈ passing (F := stSpace.length) A, q (List.ofFn x) = c) : regionMean halfMeasure A q = c := by
  unfold regionMean
  rw [setIntegral_congr_fun hA h]
  simp only [setIntegral_const, smul_eq_mul]
  rw [mul_comm, mul_div_cancel_right₀ _ h0.ne']

theorem half_leaves : ∀ q ∈ [(testAbove (fun _ => true) 1 (threshold 3 2), (2 : ℝ)), (testBelow (fun _ => true) 1 (threshold 3 2), 1)],
    MeasurableSet (passing (F := stSpace.length) q.1) ∧ 0 < halfMeasure.real (passing q.1) ∧
    ∀ t ∈ halfGrid, ∀ x ∈ passing (F := stSpace.length) q.1, halfV 1 2 t (List.ofFn x) = q.2 ^ 2 := by
  have htr : passing (F := stSpace.length) (fun _ => true) = Set.univ := by ext x; simp [passing]
  have hmeas := fun f t => passing_measurable_below (F := stSpace.length) (A := fun _ => true) (by rw [htr]; exact MeasurableSet.univ) f t
  have hb : ∀ t : ℝ, passing (F := stSpace.length) (testBelow (fun _ => true) 1 t) = {x | x ⟨1, by simp [stSpace]⟩ ≤ t} := by
    intro t; ext x; simp [passing, testBelow, half_ofFn]
  have ha : ∀ t : ℝ, passing (F := stSpace.length) (testAbove (fun _ => true) 1 t) = {x | t < x ⟨1, by simp [stSpace]⟩} := by
    intro t; ext x; simp [passing, testAbove, half_ofFn]
  have ht : (threshold 3 2 : ℝ) = 1 / 2 := by norm_num [threshold]
  have hpos : ∀ S : Set (Fin stSpace.length → ℝ), 0 < halfMeasure S → 0 < halfMeasure.real S := fun S h => ENNReal.toReal_pos h.ne' (measure_ne_top _ _)
  intro q hq
  rcases List.mem_cons.1 hq with rfl | hq
  · refine ⟨(hmeas _ _).2, ?_, fun t h x hx => ?_⟩
    · rw [ha, ht]
      exact hpos _ (lt_of_lt_of_le (half_interval (a := 1 / 2) (b := 1) (by norm_num) (by norm_num) le_rfl) (measure_mono fun x hx => hx.1))
    · rw [ha, ht] at hx
      rw [half_term h]
      exact if_neg (not_le.2 hx)
  · obtain rfl := List.mem_singleton.1 hq
    refine ⟨(hmeas _ _).1, ?_, fun t h x hx => ?_⟩
    · rw [hb, ht]
      exact hpos _ (lt_of_lt_of_le (half_interval (a := 0) (b := 1 / 2) le_rfl (by norm_num) (by norm_num)) (measure_mono fun x hx => hx.2))
    · rw [hb, ht] at hx
      rw [half_term h]
      exact if_pos hx

theorem half_fourth {t : List ℝ} (ht : t ∈ halfGrid) : Integrable (fun x : Fin stSpace.length → ℝ =>
    (halfSd 1 2 (atPoint stSpace [⟨"x1", .float (-5) 5 false⟩] t (List.ofFn x)) ^ 2) ^ 2) ((uniformSamples stSpace.length).map fun ω => ω 0) := by
  have := half_bounded (a := 1) (b := 2) (t := t) ht 0
  simpa only [sub_zero, halfV, halfMeasure] using this

/-- the mean confidence of the upper leaf tends to 2, that of the lower one to 1 -/
example : ∀ᵐ ω ∂(uniformSamples stSpace.length), ∀ ε > 0, ∃ n₀, ∀ n ≥ n₀, ∃ p upper lower a b,
    dtInit stSpace (fun rows => .ok (rows.map fun _ => 0, rows.map (halfSd 1 2))) (.many [.name "x1"]) (firstSamples (fun i ω => ω i) n ω) 3 3 10 none = .ok p ∧
    (dtPartition p 1).2 = .ok [upper, lower] ∧ meanConfidence upper = .ok a ∧ meanConfidence lower = .ok b ∧ |a - 2| ≤ ε ∧ |b - 1| ≤ ε := by
  have h := C187_leaves (minPoints := 10) (notSplittable := none) (ns := []) halfSetting rfl (uniformSamples_spec stSpace.length).1 measurable_const half_measurable
    (fun t _ => integrable_const _) (fun t ht => half_fourth ht) (by norm_num) (by norm_num) (half_tree (a := 1) (b := 2) (by norm_num))
  have hconf : ∀ q ∈ [(testAbove (fun _ => true) 1 (threshold 3 2), (2 : ℝ)), (testBelow (fun _ => true) 1 (threshold 3 2), 1)],
      (halfGrid.map fun t => regionMean halfMeasure q.1 fun r => |halfSd 1 2 (atPoint stSpace [⟨"x1", .float (-5) 5 false⟩] t r)|).sum / halfGrid.length = q.2 := by
    intro q hq
    obtain ⟨h1, h2, h3⟩ := half_leaves q hq
    have h0 : 0 ≤ q.2 := by
      rcases List.mem_cons.1 hq with rfl | hq
      · norm_num
      · obtain rfl := List.mem_singleton.1 hq
        norm_num
    have : ∀ t ∈ halfGrid, regionMean halfMeasure q.1 (fun r => |halfSd 1 2 (atPoint stSpace [⟨"x1", .float (-5) 5 false⟩] t r)|) = q.2 := fun t ht =>
      half_regionMean h2 h1 fun x hx => by
        rw [← abs_of_nonneg h0]
        exact (sq_eq_sq_iff_abs_eq_abs _ _).1 (h3 t ht x hx)
    rw [List.map_congr_left this]
    simp [halfGrid]
    ring
  filter_upwards [h] with ω h ε hε
  obtain ⟨n₀, h⟩ := h ε hε
  refine ⟨n₀, fun n hn => ?_⟩
  obtain ⟨p, leaves, h1, h2, h3⟩ := h n hn
  cases h3 with
  | @cons _ u _ _ e1 h4 =>
    cases h4 with
    | @cons _ l _ _ e2 h5 =>
      cases h5
      obtain ⟨-, -, a, -, a2, -, -, -, a3⟩ := e1
      obtain ⟨-, -, b, -, b2, -, -, -, b3⟩ := e2
      refine ⟨p, u, l, a, b, h1, h2, a2, b2, ?_, ?_⟩
      · have := hconf (testAbove (fun _ => true) 1 (threshold 3 2), 2) (by simp)
        dsimp only at this
        rw [← this]
        exact a3
      · have := hconf (testBelow (fun _ => true) 1 (threshold 3 2), 1) (by simp)
        dsimp only at this
        rw [← this]
        exact b3

/-- the configuration `x2 = 2` (threshold: 0) ends up in the upper leaf -/
example : ∀ᵐ ω ∂(uniformSamples stSpace.length), ∃ n₀, ∀ n ≥ n₀, ∃ p m,
    dtInit stSpace (fun rows => .ok (rows.map fun _ => 0, rows.map (halfSd 1 2))) (.many [.name "x1"]) (firstSamples (fun i ω => ω i) n ω) 3 3 10 none = .ok p ∧
    dtIncumbentRegion (dtPartition p 1).1 ⟨[0, 7 / 10], [("x1", .num (-5)), ("x2", .num 2)]⟩ = .ok (some m) ∧
    m.conds = [⟨⟨"x2", .float (-5) 5 false⟩, .flt (threshold 3 2), some false⟩] := by
  obtain ⟨q, hq, hc, h⟩ := C187_incumbent (minPoints := 10) (notSplittable := none) (ns := []) (mu := fun _ => 0) halfSetting rfl (uniformSamples_spec stSpace.length).1
    half_measurable (fun t ht => half_fourth ht) (by norm_num) (by norm_num) (half_tree (a := 1) (b := 2) (by norm_num))
    (cfg := ⟨[0, 7 / 10], [("x1", .num (-5)), ("x2", .num 2)]⟩) (by rw [half_possible]; simp [Hp.isNumerical, Hp.numerical?])
    (by rw [half_possible]; simp [Config.get?])
  have : q.2 = [⟨⟨"x2", .float (-5) 5 false⟩, .flt (threshold 3 2), some false⟩] := by
    rcases List.mem_cons.1 hq with rfl | hq
    · rfl
    · exfalso
      obtain rfl := List.mem_singleton.1 hq
      have hf : containsAll stSpace [⟨⟨"x2", .float (-5) 5 false⟩, .flt (threshold 3 2), some true⟩] ⟨[0, 7 / 10], [("x1", .num (-5)), ("x2", .num 2)]⟩ = .ok false := by
        have hu : unscaleFloat (threshold 3 2 : ℝ) stSpace "x2" = .ok 0 := by
          simp [unscaleFloat, stSpace, ConfigSpace.get, Hp.bounds, Hp.numerical?, threshold]
          norm_num
        simp [containsAll, isSatisfied, condValue, hu, Config.get?, compareFloat]
      rw [hf] at hc
      simp at hc
  filter_upwards [h] with ω h
  obtain ⟨n₀, h⟩ := h
  refine ⟨n₀, fun n hn => ?_⟩
  obtain ⟨p, m, h1, h2, h3, -⟩ := h n hn
  exact ⟨p, m, h1, h2, h3.trans this⟩

/-- a true function that is constantly 0 -/
noncomputable def zeroTruth : TrueFn := ⟨stSpace, fun _ => .ok ⟨[⟨"x1", .float (-5) 5 false⟩], fun _ => .ok 0⟩⟩

theorem zeroTruth_grid (inv : Hp ℝ → Val ℝ → ℝ) : GridTruth inv stSpace [⟨"x1", .float (-5) 5 false⟩] halfGrid zeroTruth fun _ => 0 := by
  refine ⟨⟨"x1", .float (-5) 5 false⟩, [], -5, 5, false, _, rfl, ⟨stSpace_wf, ⟨⟨"x1", .float (-5) 5 false⟩, by simp [stSpace], rfl, .inl rfl⟩, by norm_num, by simp⟩, rfl, ?_⟩
  intro i t ht
  have ht := List.mem_of_getElem? ht
  simp only [halfGrid, List.map_cons, List.map_nil, List.mem_cons, List.not_mem_nil, or_false] at ht
  rcases ht with rfl | rfl | rfl <;> rw [call_single rfl rfl (by norm_num [interpolate]) (by norm_num [interpolate])]

/-- the negative log-likelihood of the upper leaf tends to `log (8 π) / 2`, that of the lower one to `log (2 π) / 2` -/
example (inv : Hp ℝ → Val ℝ → ℝ) : ∀ᵐ ω ∂(uniformSamples stSpace.length), ∀ ε > 0, ∃ n₀, ∀ n ≥ n₀, ∃ p upper lower a b,
    dtInit stSpace (fun rows => .ok (rows.map fun _ => 0, rows.map (halfSd 1 2))) (.many [.name "x1"]) (firstSamples (fun i ω => ω i) n ω) 3 3 10 none = .ok p ∧
    (dtPartition p 1).2 = .ok [upper, lower] ∧ negativeLogLikelihood inv stSpace [⟨"x1", .float (-5) 5 false⟩] upper zeroTruth = .ok a ∧
    negativeLogLikelihood inv stSpace [⟨"x1", .float (-5) 5 false⟩] lower zeroTruth = .ok b ∧
    |a - Real.log (8 * Real.pi) / 2| ≤ ε ∧ |b - Real.log (2 * Real.pi) / 2| ≤ ε := by
  have hmean : ∀ q ∈ [(testAbove (fun _ => true) 1 (threshold 3 2), (2 : ℝ)), (testBelow (fun _ => true) 1 (threshold 3 2), 1)], ∀ t ∈ halfGrid,
      regionMean halfMeasure q.1 (fun r => halfSd 1 2 (atPoint stSpace [⟨"x1", .float (-5) 5 false⟩] t r) ^ 2) = q.2 ^ 2 ∧
      regionMean halfMeasure q.1 (fun _ => 0) = 0 := by
    intro q hq t ht
    obtain ⟨h1, h2, h3⟩ := half_leaves q hq
    exact ⟨half_regionMean h2 h1 fun x hx => h3 t ht x hx, half_regionMean h2 h1 fun x hx => rfl⟩
  have hnll : ∀ q ∈ [(testAbove (fun _ => true) 1 (threshold 3 2), (2 : ℝ)), (testBelow (fun _ => true) 1 (threshold 3 2), 1)],
      populationNll halfMeasure halfGrid (fun t r => 0) (fun t r => halfSd 1 2 (atPoint stSpace [⟨"x1", .float (-5) 5 false⟩] t r) ^ 2) (fun _ => 0) q.1 =
        Real.log (2 * Real.pi * q.2 ^ 2) / 2 := by
    intro q hq
    unfold populationNll
    have : ∀ i ∈ Finset.range halfGrid.length, (Real.log (2 * Real.pi * regionMean halfMeasure q.1 fun r => halfSd 1 2 (atPoint stSpace [⟨"x1", .float (-5) 5 false⟩] (halfGrid.getD i []) r) ^ 2) +
        (0 - regionMean halfMeasure q.1 fun _ => 0) ^ 2 / regionMean halfMeasure q.1 fun r => halfSd 1 2 (atPoint stSpace [⟨"x1", .float (-5) 5 false⟩] (halfGrid.getD i []) r) ^ 2) / 2 =
        Real.log (2 * Real.pi * q.2 ^ 2) / 2 := by
      intro i hi
      obtain ⟨e1, e2⟩ := hmean q hq _ (getD_mem (Finset.mem_range.1 hi) (z := []))
      rw [e1, e2]
      simp
    rw [Finset.sum_congr rfl this]
    simp [halfGrid]
  have hroot : ∀ t ∈ halfGrid, 0 < regionMean halfMeasure (fun _ => true) fun r => halfSd 1 2 (atPoint stSpace [⟨"x1", .float (-5) 5 false⟩] t r) ^ 2 := by
    intro t ht
    have htr : passing (F := stSpace.length) (fun _ => true) = Set.univ := by ext x; simp [passing]
    unfold regionMean
    rw [htr, setIntegral_univ]
    refine div_pos ?_ (by simp)
    have h1 : ∫ _, (1 : ℝ) ∂halfMeasure ≤ ∫ x, halfSd 1 2 (atPoint stSpace [⟨"x1", .float (-5) 5 false⟩] t (List.ofFn x)) ^ 2 ∂halfMeasure := by
      refine integral_mono (integrable_const _) ?_ fun x => ?_
      · have hm : Measurable fun x : Fin stSpace.length → ℝ => halfV 1 2 t (List.ofFn x) := by
          simp only [half_term ht]
          exact Measurable.ite (measurableSet_le (measurable_pi_apply _) measurable_const) measurable_const measurable_const
        refine Integrable.of_bound hm.aestronglyMeasurable 4 (ae_of_all _ fun x => ?_)
        have := half_term (a := 1) (b := 2) ht x
        unfold halfV at this
        rw [this, Real.norm_eq_abs]
        split <;> norm_num
      · have := half_term (a := 1) (b := 2) ht x
        unfold halfV at this
        dsimp only
        rw [this]
        split <;> norm_num
    simp only [integral_const, probReal_univ, smul_eq_mul, mul_one] at h1
    linarith
  have h := C187_likelihood (minPoints := 10) (notSplittable := none) (ns := []) (inv := inv) halfSetting rfl (uniformSamples_spec stSpace.length).1 measurable_const half_measurable
    (fun t _ => integrable_const _) (fun t ht => half_fourth ht) (by norm_num) (by norm_num) (half_tree (a := 1) (b := 2) (by norm_num)) (zeroTruth_grid inv) hroot (by
      intro q hq t ht
      rcases List.mem_cons.1 hq with rfl | hq
      · exact lt_of_lt_of_eq (by norm_num) (hmean (testAbove (fun _ => true) 1 (threshold 3 2), 2) (by simp) t ht).1.symm
      · obtain rfl := List.mem_singleton.1 hq
        exact lt_of_lt_of_eq (by norm_num) (hmean (testBelow (fun _ => true) 1 (threshold 3 2), 1) (by simp) t ht).1.symm)
  filter_upwards [h] with ω h ε hε
  obtain ⟨n₀, h⟩ := h ε hε
  refine ⟨n₀, fun n hn => ?_⟩
  obtain ⟨p, leaves, h1, h2, h3⟩ := h n hn
  cases h3 with
  | @cons _ u _ _ e1 h4 =>
    cases h4 with
    | @cons _ l _ _ e2 h5 =>
      cases h5
      obtain ⟨-, a, -, a1, -, a2, -⟩ := e1
      obtain ⟨-, b, -, b1, -, b2, -⟩ := e2
      refine ⟨p, u, l, a, b, h1, h2, a1, b1, ?_, ?_⟩
      · have := hnll (testAbove (fun _ => true) 1 (threshold 3 2), 2) (by simp)
        rw [show 2 * Real.pi * (2 : ℝ) ^ 2 = 8 * Real.pi by ring] at this
        rw [← this]
        exact a2
      · have := hnll (testBelow (fun _ => true) 1 (threshold 3 2), 1) (by simp)
        rw [show 2 * Real.pi * (1 : ℝ) ^ 2 = 2 * Real.pi by ring] at this
        rw [← this]
        exact b2

end PyPDP
