/-
C128: the PDP of random samples estimates the partial dependence function.
-/
import Verif.Props.Additive
import Mathlib.Probability.StrongLaw

namespace PyPDP
open Spec MeasureTheory ProbabilityTheory Filter Topology
variable {Ω : Type} [MeasurableSpace Ω]

/-- the first `n` of the random vectors, as the array of samples -/
def Spec.firstSamples {F : Nat} (X : ℕ → Ω → Fin F → ℝ) (n : Nat) (ω : Ω) : List (List ℝ) := (List.range n).map fun i => List.ofFn (X i ω)

/-- `atPoint` is a measurable map of vectors -/
theorem atPoint_map (space : ConfigSpace ℝ) (selected : List (Hp ℝ)) (t : List ℝ) :
    ∃ φ : (Fin space.length → ℝ) → (Fin space.length → ℝ), Measurable φ ∧ ∀ x, atPoint space selected t (List.ofFn x) = List.ofFn (φ x) := by
  refine ⟨fun x f => match selected.findIdx? (fun s => s.name == (space[f]).name) with
    | some j => t.getD j 0
    | none => x f, ?_, ?_⟩
  · refine measurable_pi_lambda _ fun f => ?_
    cases selected.findIdx? (fun s => s.name == (space[f]).name) with
    | none => exact measurable_pi_apply f
    | some j => exact measurable_const
  · intro x
    refine List.ext_getElem (by simp [atPoint]) fun i h1 h2 => ?_
    simp [atPoint]
    rfl

/-- Independent random vectors with one common distribution. -/
structure Spec.IsRandomSample (P : Measure Ω) {F : Nat} (X : ℕ → Ω → Fin F → ℝ) : Prop where
  meas : ∀ i, Measurable (X i)
  indep : Pairwise fun i j => IndepFun (X i) (X j) P
  ident : ∀ i, P.map (X i) = P.map (X 0)

theorem Spec.IsRandomSample.values {P : Measure Ω} {space : ConfigSpace ℝ} {X : ℕ → Ω → Fin space.length → ℝ} (hX : IsRandomSample P X)
    (selected : List (Hp ℝ)) (t : List ℝ) {q : List ℝ → ℝ} (hq : Measurable fun x : Fin space.length → ℝ => q (List.ofFn x)) :
    (∀ i, Measurable fun ω => q (atPoint space selected t (List.ofFn (X i ω)))) ∧
    (Pairwise fun i j => IndepFun (fun ω => q (atPoint space selected t (List.ofFn (X i ω)))) (fun ω => q (atPoint space selected t (List.ofFn (X j ω)))) P) ∧
    ∀ i, IdentDistrib (fun ω => q (atPoint space selected t (List.ofFn (X i ω)))) (fun ω => q (atPoint space selected t (List.ofFn (X 0 ω)))) P P := by
  obtain ⟨φ, hφ, h⟩ := atPoint_map space selected t
  simp only [h]
  refine ⟨fun i => (hq.comp hφ).comp (hX.meas i), fun i j hij => (hX.indep hij).comp (hq.comp hφ) (hq.comp hφ), fun i => ?_⟩
  have := IdentDistrib.comp (f := X i) (g := X 0) (μ := P) (ν := P) ⟨(hX.meas i).aemeasurable, (hX.meas 0).aemeasurable, hX.ident i⟩ (hq.comp hφ)
  exact this

/-- the strong law of large numbers at all grid points -/
theorem Spec.IsRandomSample.law {P : Measure Ω} {space : ConfigSpace ℝ} {X : ℕ → Ω → Fin space.length → ℝ} (hX : IsRandomSample P X)
    {selected : List (Hp ℝ)} {grid : List (List ℝ)} {q : List ℝ → ℝ} (hq : Measurable fun x : Fin space.length → ℝ => q (List.ofFn x))
    (hi : ∀ t ∈ grid, Integrable (fun ω => q (atPoint space selected t (List.ofFn (X 0 ω)))) P) :
    ∀ᵐ ω ∂P, ∀ t ∈ grid, Tendsto (fun n : ℕ => (∑ i ∈ Finset.range n, q (atPoint space selected t (List.ofFn (X i ω)))) / n) atTop
      (𝓝 (∫ ω', q (atPoint space selected t (List.ofFn (X 0 ω'))) ∂P)) := by
  have : ∀ᵐ ω ∂P, ∀ p : Fin grid.length, Tendsto (fun n : ℕ => (∑ i ∈ Finset.range n, q (atPoint space selected grid[p] (List.ofFn (X i ω)))) / n) atTop
      (𝓝 (∫ ω', q (atPoint space selected grid[p] (List.ofFn (X 0 ω'))) ∂P)) := by
    rw [ae_all_iff]
    intro p
    obtain ⟨_, h2, h3⟩ := hX.values selected grid[p] hq
    exact strong_law_ae_real _ (hi _ (List.getElem_mem _)) h2 h3
  filter_upwards [this] with ω hω t ht
  obtain ⟨i, hi, rfl⟩ := List.mem_iff_getElem.1 ht
  exact hω ⟨i, hi⟩

/-- What a PDP of a surrogate with mean `mu` and standard deviation `sd` needs. -/
structure Spec.PdpSetting (space : ConfigSpace ℝ) (predict : Predict ℝ) (sel : Selection ℝ) (selected : List (Hp ℝ)) (g : Nat)
    (grid : List (List ℝ)) (mu sd : List ℝ → ℝ) : Prop where
  wf : space.WF
  sel_eq : convertHyperparameters sel space = .ok selected
  mem : ∀ hp ∈ selected, hp ∈ space
  ne : selected ≠ []
  distinct : (selected.map Hp.name).Nodup
  rowWise : RowWise space.length predict mu sd
  grid_pos : g ≠ 0
  grid_eq : gridPoints selected.length g = .ok grid

omit [MeasurableSpace Ω] in
/-- the arrays of the PDP of the first `n` random samples -/
theorem pdp_first {space : ConfigSpace ℝ} {predict : Predict ℝ} {sel : Selection ℝ} {selected : List (Hp ℝ)} {g : Nat} {grid : List (List ℝ)}
    {mu sd : List ℝ → ℝ} (h : PdpSetting space predict sel selected g grid mu sd) (X : ℕ → Ω → Fin space.length → ℝ) {n : Nat} (hn : 1 ≤ n) (ω : Ω) :
    yPdp space predict sel (firstSamples X n ω) g
      = .ok (grid.map fun t => (∑ i ∈ Finset.range n, mu (atPoint space selected t (List.ofFn (X i ω)))) / n) ∧
    vPdp space predict sel (firstSamples X n ω) g
      = .ok (grid.map fun t => (∑ i ∈ Finset.range n, sd (atPoint space selected t (List.ofFn (X i ω))) ^ 2) / n) := by
  have h1 := pdp_values h.wf h.sel_eq h.mem h.ne h.distinct h.rowWise (samples := firstSamples X n ω)
    (by rw [firstSamples, Ne, List.map_eq_nil_iff, List.range_eq_nil]; omega)
    (by intro r hr; obtain ⟨i, _, rfl⟩ := List.mem_map.1 hr; simp) h.grid_pos h.grid_eq
  rw [h1.1, h1.2]
  have hs : ∀ q : List ℝ → ℝ, ((firstSamples X n ω).map q).sum = ∑ i ∈ Finset.range n, q (List.ofFn (X i ω)) := by
    intro q
    rw [firstSamples, List.map_map, Finset.sum_range, ← List.sum_ofFn, List.ofFn_eq_map, ← List.map_coe_finRange_eq_range, List.map_map]
    rfl
  have hl : ((firstSamples X n ω).length : ℝ) = n := by simp [firstSamples]
  constructor
  · congr 1
    refine List.map_congr_left fun t _ => ?_
    rw [hl, hs fun r => mu (atPoint space selected t r)]
  · congr 1
    refine List.map_congr_left fun t _ => ?_
    rw [hl, hs fun r => sd (atPoint space selected t r) ^ 2]

/-! ### C128 -/

/-- **C128** consistent: if the samples are drawn independently from one distribution, then almost surely the values (and the variances) of the PDP of the first `n`
samples converge, at every grid point, to the expected mean (variance) of the surrogate at a random configuration whose selected hyperparameters are
set to the grid point. -/
theorem C128_consistent {P : Measure Ω} {space : ConfigSpace ℝ} {predict : Predict ℝ} {sel : Selection ℝ} {selected : List (Hp ℝ)} {g : Nat}
    {grid : List (List ℝ)} {mu sd : List ℝ → ℝ} (h : PdpSetting space predict sel selected g grid mu sd)
    {X : ℕ → Ω → Fin space.length → ℝ} (hX : IsRandomSample P X)
    (hmu : Measurable fun x : Fin space.length → ℝ => mu (List.ofFn x)) (hsd : Measurable fun x : Fin space.length → ℝ => sd (List.ofFn x))
    (imu : ∀ t ∈ grid, Integrable (fun ω => mu (atPoint space selected t (List.ofFn (X 0 ω)))) P)
    (isd : ∀ t ∈ grid, Integrable (fun ω => sd (atPoint space selected t (List.ofFn (X 0 ω))) ^ 2) P) :
    ∀ᵐ ω ∂P, ∃ y v : ℕ → List ℝ,
      (∀ n, 1 ≤ n → yPdp space predict sel (firstSamples X n ω) g = .ok (y n) ∧ vPdp space predict sel (firstSamples X n ω) g = .ok (v n) ∧
        (y n).length = grid.length ∧ (v n).length = grid.length) ∧
      ∀ (p : Nat) (t : List ℝ), grid[p]? = some t →
        Tendsto (fun n => (y n).getD p 0) atTop (𝓝 (∫ ω', mu (atPoint space selected t (List.ofFn (X 0 ω'))) ∂P)) ∧
        Tendsto (fun n => (v n).getD p 0) atTop (𝓝 (∫ ω', sd (atPoint space selected t (List.ofFn (X 0 ω'))) ^ 2 ∂P)) := by
  filter_upwards [hX.law (selected := selected) hmu imu, hX.law (selected := selected) (q := fun r => sd r ^ 2) (hsd.pow_const 2) isd] with ω h1 h2
  refine ⟨_, _, fun n hn => ⟨(pdp_first h X hn ω).1, (pdp_first h X hn ω).2, by simp, by simp⟩, ?_⟩
  intro p t ht
  have hm := List.mem_of_getElem? ht
  have hget : ∀ f : List ℝ → ℝ, (grid.map f).getD p 0 = f t := by
    intro f; rw [List.getD_eq_getElem?_getD, List.getElem?_map, ht]; rfl
  simp only [hget]
  exact ⟨h1 t hm, h2 t hm⟩

/-- **C128** unbiased: for every number of samples, the expected value of the PDP at a grid point is that limit, and its variance is that of the surrogate's mean there
divided by the number of samples. -/
theorem C128_unbiased {P : Measure Ω} [IsProbabilityMeasure P] {space : ConfigSpace ℝ} {predict : Predict ℝ} {sel : Selection ℝ} {selected : List (Hp ℝ)} {g : Nat}
    {grid : List (List ℝ)} {mu sd : List ℝ → ℝ} (h : PdpSetting space predict sel selected g grid mu sd)
    {X : ℕ → Ω → Fin space.length → ℝ} (hX : IsRandomSample P X)
    (hmu : Measurable fun x : Fin space.length → ℝ => mu (List.ofFn x)) {n : Nat} (hn : 1 ≤ n) :
    ∃ y : Ω → List ℝ, (∀ ω, yPdp space predict sel (firstSamples X n ω) g = .ok (y ω) ∧ (y ω).length = grid.length) ∧
      ∀ (p : Nat) (t : List ℝ), grid[p]? = some t →
        (Integrable (fun ω => mu (atPoint space selected t (List.ofFn (X 0 ω)))) P →
          ∫ ω, (y ω).getD p 0 ∂P = ∫ ω, mu (atPoint space selected t (List.ofFn (X 0 ω))) ∂P) ∧
        (MemLp (fun ω => mu (atPoint space selected t (List.ofFn (X 0 ω)))) 2 P →
          variance (fun ω => (y ω).getD p 0) P = variance (fun ω => mu (atPoint space selected t (List.ofFn (X 0 ω)))) P / n) := by
  refine ⟨_, fun ω => ⟨(pdp_first h X hn ω).1, by simp⟩, ?_⟩
  intro p t ht
  have hget : ∀ f : List ℝ → ℝ, (grid.map f).getD p 0 = f t := by
    intro f; rw [List.getD_eq_getElem?_getD, List.getElem?_map, ht]; rfl
  have hn0 : (n : ℝ) ≠ 0 := by positivity
  obtain ⟨h1, h2, h3⟩ := hX.values selected t hmu
  simp only [hget]
  constructor
  · intro hi
    rw [integral_div, integral_finsetSum _ fun i _ => (h3 i).integrable_iff.2 hi]
    have : ∀ i ∈ Finset.range n, ∫ ω, mu (atPoint space selected t (List.ofFn (X i ω))) ∂P = ∫ ω, mu (atPoint space selected t (List.ofFn (X 0 ω))) ∂P :=
      fun i _ => (h3 i).integral_eq
    rw [Finset.sum_congr rfl this, Finset.sum_const, Finset.card_range, nsmul_eq_mul]
    field_simp
  · intro hi
    have hv := IndepFun.variance_sum (μ := P) (s := Finset.range n) (X := fun i ω => mu (atPoint space selected t (List.ofFn (X i ω))))
      (fun i _ => (h3 i).memLp_iff.2 hi) (fun i _ j _ hij => h2 hij)
    have : ∀ i ∈ Finset.range n, variance (fun ω => mu (atPoint space selected t (List.ofFn (X i ω)))) P
        = variance (fun ω => mu (atPoint space selected t (List.ofFn (X 0 ω)))) P := fun i _ => (h3 i).variance_eq
    rw [Finset.sum_congr rfl this, Finset.sum_const, Finset.card_range, nsmul_eq_mul] at hv
    have hsum : (fun ω => (∑ i ∈ Finset.range n, mu (atPoint space selected t (List.ofFn (X i ω)))) / (n : ℝ))
        = fun ω => (∑ i ∈ Finset.range n, fun ω => mu (atPoint space selected t (List.ofFn (X i ω)))) ω * (n : ℝ)⁻¹ := by
      funext ω; rw [Finset.sum_apply, div_eq_mul_inv]
    rw [hsum, variance_mul_const, hv]
    field_simp

end PyPDP
