/-
C33: the estimate inside `maximum_mean_discrepancy` is unbiased.
-/
import Verif.Props.MMD
import Verif.Props.PdpConsistency
import Mathlib.MeasureTheory.Integral.Prod

namespace PyPDP
open Spec MeasureTheory ProbabilityTheory

variable {Ω : Type} [MeasurableSpace Ω]

/-- squared maximum mean discrepancy of two distributions of points, for a kernel `k` -/
noncomputable def Spec.mmdOf {d : Nat} (k : List ℝ → List ℝ → ℝ) (μ ν : Measure (Fin d → ℝ)) : ℝ :=
  (∫ x, ∫ x', k (List.ofFn x) (List.ofFn x') ∂μ ∂μ) + (∫ y, ∫ y', k (List.ofFn y) (List.ofFn y') ∂ν ∂ν)
    - 2 * ∫ x, ∫ y, k (List.ofFn x) (List.ofFn y) ∂ν ∂μ

theorem rbf_ofFn {d : Nat} (l : ℝ) (x y : Fin d → ℝ) :
    rbfKernel d l (List.ofFn x) (List.ofFn y) = Real.exp (-(Real.sqrt (∑ i, (x i - y i) ^ 2)) ^ 2 / (2 * l ^ 2)) := by
  unfold rbfKernel euclid
  have e : ∑ i ∈ Finset.range d, ((List.ofFn x).getD i 0 - (List.ofFn y).getD i 0) ^ 2 = ∑ i : Fin d, (x i - y i) ^ 2 := by
    rw [← Fin.sum_univ_eq_sum_range (fun i => ((List.ofFn x).getD i 0 - (List.ofFn y).getD i 0) ^ 2)]
    exact Finset.sum_congr rfl fun i _ => by simp
  rw [e]

theorem rbf_measurable {d : Nat} (l : ℝ) : Measurable fun p : (Fin d → ℝ) × (Fin d → ℝ) => rbfKernel d l (List.ofFn p.1) (List.ofFn p.2) := by
  simp only [rbf_ofFn]
  fun_prop

theorem rbf_bounds {d : Nat} (l : ℝ) (a b : List ℝ) : 0 ≤ rbfKernel d l a b ∧ rbfKernel d l a b ≤ 1 := by
  unfold rbfKernel
  refine ⟨(Real.exp_pos _).le, Real.exp_le_one_iff.2 ?_⟩
  have : 0 ≤ (euclid d a b) ^ 2 / (2 * l ^ 2) := by positivity
  have e : -(euclid d a b) ^ 2 / (2 * l ^ 2) = -((euclid d a b) ^ 2 / (2 * l ^ 2)) := by ring
  linarith

variable {P : Measure Ω} [IsProbabilityMeasure P] {d : Nat}

theorem kernel_expectation {X Y : Ω → Fin d → ℝ} (hX : Measurable X) (hY : Measurable Y) (hi : IndepFun X Y P) (l : ℝ) :
    Integrable (fun ω => rbfKernel d l (List.ofFn (X ω)) (List.ofFn (Y ω))) P ∧
    ∫ ω, rbfKernel d l (List.ofFn (X ω)) (List.ofFn (Y ω)) ∂P =
      ∫ x, ∫ y, rbfKernel d l (List.ofFn x) (List.ofFn y) ∂(P.map Y) ∂(P.map X) := by
  have : IsProbabilityMeasure (P.map X) := Measure.isProbabilityMeasure_map hX.aemeasurable
  have : IsProbabilityMeasure (P.map Y) := Measure.isProbabilityMeasure_map hY.aemeasurable
  have hmap := (indepFun_iff_map_prod_eq_prod_map_map hX.aemeasurable hY.aemeasurable).1 hi
  have hk := rbf_measurable (d := d) l
  have hint : ∀ μ : Measure ((Fin d → ℝ) × (Fin d → ℝ)), IsProbabilityMeasure μ →
      Integrable (fun p : (Fin d → ℝ) × (Fin d → ℝ) => rbfKernel d l (List.ofFn p.1) (List.ofFn p.2)) μ := by
    intro μ _
    refine Integrable.of_bound hk.aestronglyMeasurable 1 (.of_forall fun p => ?_)
    rw [Real.norm_eq_abs, abs_of_nonneg (rbf_bounds l _ _).1]
    exact (rbf_bounds l _ _).2
  constructor
  · have := hint (P.map fun ω => (X ω, Y ω)) (Measure.isProbabilityMeasure_map (hX.prodMk hY).aemeasurable)
    exact this.comp_measurable (hX.prodMk hY)
  · rw [← integral_prod _ (hint _ inferInstance), ← hmap, integral_map (hX.prodMk hY).aemeasurable hk.aestronglyMeasurable]

/-- **C33** The quantity whose root `maximum_mean_discrepancy` takes is, for a given length scale, an unbiased estimate of the squared maximum mean discrepancy of the
distribution of the samples and that of the reference points: its expected value is that discrepancy for all numbers of points from 2 on. -/
theorem C33_unbiased {X Y : ℕ → Ω → Fin d → ℝ} (hX : IsRandomSample P X) (hY : IsRandomSample P Y)
    (hXY : ∀ i j, IndepFun (X i) (Y j) P) {n m : Nat} (hn : 2 ≤ n) (hm : 2 ≤ m) (l : ℝ) :
    ∫ ω, mmdSquared (rbfKernel d l) (firstSamples X n ω) (firstSamples Y m ω) ∂P = mmdOf (rbfKernel d l) (P.map (X 0)) (P.map (Y 0)) := by
  have hw : ∀ {X : ℕ → Ω → Fin d → ℝ}, IsRandomSample P X → ∀ {n : Nat}, 2 ≤ n →
      Integrable (fun ω => meanWithin (rbfKernel d l) (firstSamples X n ω)) P ∧
      ∫ ω, meanWithin (rbfKernel d l) (firstSamples X n ω) ∂P =
        ∫ x, ∫ x', rbfKernel d l (List.ofFn x) (List.ofFn x') ∂(P.map (X 0)) ∂(P.map (X 0)) := by
    intro X hX n hn
    have e : ∀ ω, meanWithin (rbfKernel d l) (firstSamples X n ω) =
        (∑ i ∈ Finset.range n, ∑ j ∈ (Finset.range n).erase i, rbfKernel d l (List.ofFn (X i ω)) (List.ofFn (X j ω))) / (n * (n - 1)) := by
      intro ω
      have hl : (firstSamples X n ω).length = n := by simp [firstSamples]
      rw [meanWithin, hl]
      congr 1
      refine Finset.sum_congr rfl fun i hi => Finset.sum_congr rfl fun j hj => ?_
      have hi := Finset.mem_range.1 hi
      have hj := Finset.mem_range.1 (Finset.mem_of_mem_erase hj)
      simp [firstSamples, hi, hj]
    have hk : ∀ i j, i ≠ j → _ := fun i j hij => kernel_expectation (hX.meas i) (hX.meas j) (hX.indep hij) l
    simp only [e]
    have hint : ∀ i ∈ Finset.range n, Integrable (fun ω => ∑ j ∈ (Finset.range n).erase i, rbfKernel d l (List.ofFn (X i ω)) (List.ofFn (X j ω))) P :=
      fun i _ => integrable_finsetSum _ fun j hj => (hk i j (Finset.ne_of_mem_erase hj).symm).1
    refine ⟨(integrable_finsetSum _ hint).div_const _, ?_⟩
    rw [integral_div, integral_finsetSum _ hint]
    have e2 : ∀ i ∈ Finset.range n, ∫ ω, ∑ j ∈ (Finset.range n).erase i, rbfKernel d l (List.ofFn (X i ω)) (List.ofFn (X j ω)) ∂P =
        (n - 1 : ℝ) * ∫ x, ∫ x', rbfKernel d l (List.ofFn x) (List.ofFn x') ∂(P.map (X 0)) ∂(P.map (X 0)) := by
      intro i hi
      rw [integral_finsetSum _ fun j hj => (hk i j (Finset.ne_of_mem_erase hj).symm).1]
      rw [Finset.sum_congr rfl fun j hj => by rw [(hk i j (Finset.ne_of_mem_erase hj).symm).2, hX.ident i, hX.ident j], Finset.sum_const,
        Finset.card_erase_of_mem hi, Finset.card_range, nsmul_eq_mul, Nat.cast_sub (by omega)]
      simp
    rw [Finset.sum_congr rfl e2, Finset.sum_const, Finset.card_range, nsmul_eq_mul]
    have h1 : (n : ℝ) ≠ 0 := by positivity
    have h2 : (n : ℝ) - 1 ≠ 0 := by
      have : (2 : ℝ) ≤ n := by exact_mod_cast hn
      linarith
    field_simp
  have hc : Integrable (fun ω => meanCross (rbfKernel d l) (firstSamples X n ω) (firstSamples Y m ω)) P ∧
      ∫ ω, meanCross (rbfKernel d l) (firstSamples X n ω) (firstSamples Y m ω) ∂P =
        ∫ x, ∫ y, rbfKernel d l (List.ofFn x) (List.ofFn y) ∂(P.map (Y 0)) ∂(P.map (X 0)) := by
    have e : ∀ ω, meanCross (rbfKernel d l) (firstSamples X n ω) (firstSamples Y m ω) =
        (∑ i ∈ Finset.range n, ∑ j ∈ Finset.range m, rbfKernel d l (List.ofFn (X i ω)) (List.ofFn (Y j ω))) / (n * m) := by
      intro ω
      have hl : (firstSamples X n ω).length = n := by simp [firstSamples]
      have hl' : (firstSamples Y m ω).length = m := by simp [firstSamples]
      rw [meanCross, hl, hl']
      congr 1
      refine Finset.sum_congr rfl fun i hi => Finset.sum_congr rfl fun j hj => ?_
      have hi := Finset.mem_range.1 hi
      have hj := Finset.mem_range.1 hj
      simp [firstSamples, hi, hj]
    have hk : ∀ i j, _ := fun i j => kernel_expectation (hX.meas i) (hY.meas j) (hXY i j) l
    simp only [e]
    have hint : ∀ i ∈ Finset.range n, Integrable (fun ω => ∑ j ∈ Finset.range m, rbfKernel d l (List.ofFn (X i ω)) (List.ofFn (Y j ω))) P :=
      fun i _ => integrable_finsetSum _ fun j _ => (hk i j).1
    refine ⟨(integrable_finsetSum _ hint).div_const _, ?_⟩
    rw [integral_div, integral_finsetSum _ hint]
    have e2 : ∀ i ∈ Finset.range n, ∫ ω, ∑ j ∈ Finset.range m, rbfKernel d l (List.ofFn (X i ω)) (List.ofFn (Y j ω)) ∂P =
        (m : ℝ) * ∫ x, ∫ y, rbfKernel d l (List.ofFn x) (List.ofFn y) ∂(P.map (Y 0)) ∂(P.map (X 0)) := by
      intro i _
      rw [integral_finsetSum _ fun j _ => (hk i j).1]
      rw [Finset.sum_congr rfl fun j _ => by rw [(hk i j).2, hX.ident i, hY.ident j], Finset.sum_const, Finset.card_range, nsmul_eq_mul]
    rw [Finset.sum_congr rfl e2, Finset.sum_const, Finset.card_range, nsmul_eq_mul]
    have h1 : (n : ℝ) ≠ 0 := by positivity
    have h2 : (m : ℝ) ≠ 0 := by positivity
    field_simp
  unfold mmdSquared mmdOf
  have hadd : Integrable (fun ω => meanWithin (rbfKernel d l) (firstSamples X n ω) + meanWithin (rbfKernel d l) (firstSamples Y m ω)) P :=
    (hw hX hn).1.add (hw hY hm).1
  rw [integral_sub hadd (hc.1.const_mul 2), integral_add (hw hX hn).1 (hw hY hm).1, integral_const_mul,
    (hw hX hn).2, (hw hY hm).2, hc.2]

/-- samples that are always `0`, reference points that are always `1` (one hyperparameter), length scale 1: `1 + 1 - 2 exp (-1/2)` -/
example : mmdOf (rbfKernel 1 1) (Measure.dirac fun _ : Fin 1 => (0 : ℝ)) (Measure.dirac fun _ : Fin 1 => (1 : ℝ)) = 2 - 2 * Real.exp (-(1 / 2)) := by
  unfold mmdOf
  simp [rbfKernel, euclid]
  norm_num

end PyPDP
