/-
C126: how the acquisition functions reward uncertainty.
-/
import Verif.Props.Acquisition

namespace PyPDP
open MeasureTheory ProbabilityTheory Set

/-- the standardised improvement lies above each of its tangents -/
theorem improvement_tangent (z w : ℝ) : z * normCdf z + normPdf z + (w - z) * normCdf z ≤ w * normCdf w + normPdf w := by
  rcases le_total z w with h | h
  · exact improvement_slope h
  · have hi : ∀ a : ℝ, Integrable (fun t : ℝ => max (a - t) 0) (gaussianReal 0 1) := fun a => by
      simpa using integrable_pos_part 0 1 a
    have e : (w - z) * normCdf z = ∫ t, (Iic z).indicator (fun _ => w - z) t ∂gaussianReal 0 1 := by
      rw [integral_indicator measurableSet_Iic, setIntegral_const, normCdf_eq, smul_eq_mul, mul_comm]
    rw [← integral_std_pos_part, ← integral_std_pos_part, e, ← integral_add (hi z)
      ((integrable_const _).indicator measurableSet_Iic)]
    refine integral_mono ((hi z).add ((integrable_const _).indicator measurableSet_Iic)) (hi w) fun t => ?_
    by_cases ht : t ∈ Iic z
    · rw [indicator_of_mem ht]
      rw [mem_Iic] at ht
      rw [max_eq_left (by linarith)]
      exact le_max_of_le_left (by linarith)
    · rw [indicator_of_notMem ht, add_zero]
      rw [mem_Iic, not_le] at ht
      rw [max_eq_right (by linarith)]
      exact le_max_right _ _

theorem normPdf_pos (z : ℝ) : 0 < normPdf z := gaussianPDFReal_pos 0 1 z (by norm_num)

theorem normCdf_strict {z w : ℝ} (h : z < w) : normCdf z < normCdf w := by
  have := C37_strict true 0 0 (sigma := 1) (by norm_num) (m := -w) (m' := -z) (by simpa using h)
  simpa [piValue] using this

/-- the normal distribution is symmetric -/
theorem normCdf_zero : normCdf 0 = 1 / 2 := by
  have h1 : normCdf 0 = (gaussianReal 0 1).real (Iic 0) := normCdf_eq 0
  have h2 := C37_maximise 0 0 0 (sigma := 1) (by norm_num)
  have e1 : (⟨(1 : ℝ) ^ 2, sq_nonneg 1⟩ : NNReal) = 1 := by ext; norm_num
  rw [e1] at h2
  simp only [piValue, one_ne_zero, if_false, Bool.false_eq_true, sub_zero, zero_div, add_zero] at h2
  have h3 : (gaussianReal 0 1).real (Ici 0) = (gaussianReal 0 1).real (Ioi 0) := by
    have : NullSingletonClass (gaussianReal 0 1) := nullSingletonClass_gaussianReal (by norm_num)
    rw [measureReal_def, measureReal_def, measure_congr Ioi_ae_eq_Ici.symm]
  have h4 : (gaussianReal 0 1).real (Iic 0) + (gaussianReal 0 1).real (Ioi 0) = 1 := by
    have := measureReal_add_measureReal_compl (μ := gaussianReal 0 1) (s := Iic (0 : ℝ)) measurableSet_Iic
    rw [compl_Iic] at this
    rw [this]; simp
  have h5 : normCdf 0 = (gaussianReal 0 1).real (Ici 0) := h2
  linarith

/-- **C126** Expected improvement: of two candidates with the same predicted mean the more uncertain one has the strictly larger value. -/
theorem C126_ei (eta eps mean : ℝ) {sigma sigma' : ℝ} (h0 : 0 ≤ sigma) (h : sigma < sigma') :
    eiValue eta eps mean sigma < eiValue eta eps mean sigma' := by
  have h1 : 0 < sigma' := lt_of_le_of_lt h0 h
  rcases h0.eq_or_lt with rfl | h0
  · rw [C36_zero_sigma]
    exact C36_positive eta eps mean h1
  · rw [eiValue, eiValue, if_neg h0.ne', if_neg h1.ne']
    dsimp only
    obtain ⟨a, ha⟩ : ∃ a, a = eta - mean - eps := ⟨_, rfl⟩
    rw [← ha]
    obtain ⟨z, hz⟩ : ∃ z, z = a / sigma := ⟨_, rfl⟩
    have haz : a = sigma * z := by rw [hz]; field_simp
    have ht := improvement_tangent z (a / sigma')
    have hp := normPdf_pos z
    have hw : sigma' * (a / sigma') = a := by field_simp
    rw [← hz]
    have hm := mul_le_mul_of_nonneg_left ht h1.le
    have : sigma' * (z * normCdf z + normPdf z + (a / sigma' - z) * normCdf z) = sigma' * normPdf z + a * normCdf z := by
      rw [show sigma' * (z * normCdf z + normPdf z + (a / sigma' - z) * normCdf z) = sigma' * normPdf z + (sigma' * (a / sigma')) * normCdf z by ring, hw]
    rw [this] at hm
    have : sigma * (z * normCdf z + normPdf z) = a * normCdf z + sigma * normPdf z := by rw [haz]; ring
    rw [this]
    nlinarith

/-- **C126** Expected improvement lies between the improvement of the predicted mean and that plus `sigma / √(2π)`. -/
theorem C126_ei_bounds (eta eps mean : ℝ) {sigma : ℝ} (hs : 0 < sigma) :
    max (eta - mean - eps) 0 ≤ eiValue eta eps mean sigma ∧ eiValue eta eps mean sigma ≤ max (eta - mean - eps) 0 + sigma / √(2 * Real.pi) := by
  have hpos := C36_positive eta eps mean hs
  refine ⟨max_le ?_ hpos.le, ?_⟩
  · rw [eiValue, if_neg hs.ne']
    dsimp only
    obtain ⟨z, hz⟩ : ∃ z, z = (eta - mean - eps) / sigma := ⟨_, rfl⟩
    have : eta - mean - eps = sigma * z := by rw [hz]; field_simp
    rw [this, mul_div_cancel_left₀ _ hs.ne']
    refine mul_le_mul_of_nonneg_left ?_ hs.le
    rw [← integral_std_pos_part]
    have hi : Integrable (fun t : ℝ => max (z - t) 0) (gaussianReal 0 1) := by simpa using integrable_pos_part 0 1 z
    have h2 : ∫ t, (z - t) ∂gaussianReal 0 1 = z := by
      rw [integral_sub (integrable_const _) integrable_id_std, integral_const]
      simp
    conv_lhs => rw [← h2]
    exact integral_mono ((integrable_const _).sub integrable_id_std) hi fun t => le_max_left _ _
  · rw [eiValue, if_neg hs.ne']
    dsimp only
    obtain ⟨z, hz⟩ : ∃ z, z = (eta - mean - eps) / sigma := ⟨_, rfl⟩
    have : eta - mean - eps = sigma * z := by rw [hz]; field_simp
    rw [this, mul_div_cancel_left₀ _ hs.ne']
    have hpdf : normPdf 0 = 1 / √(2 * Real.pi) := by simp [normPdf, gaussianPDFReal]
    have h1 := improvement_tangent z 0
    have h2 := normCdf_le_one z
    have h3 := normCdf_pos z
    have h4 : z * normCdf z + normPdf z ≤ max z 0 + normPdf 0 := by
      have : z * normCdf z ≤ max z 0 := by
        rcases le_total 0 z with h | h
        · rw [max_eq_left h]; nlinarith
        · rw [max_eq_right h]; nlinarith
      linarith
    calc sigma * (z * normCdf z + normPdf z) ≤ sigma * (max z 0 + normPdf 0) := mul_le_mul_of_nonneg_left h4 hs.le
      _ = max (sigma * z) 0 + sigma / √(2 * Real.pi) := by
        rw [mul_add, mul_max_of_nonneg _ _ hs.le, mul_zero, hpdf]; ring

/-- how far the predicted mean is ahead of the value to be reached -/
def lead (minimize : Bool) (eta eps mean : ℝ) : ℝ := if minimize then eta - eps - mean else mean - (eta + eps)

theorem piValue_lead (minimize : Bool) (eta eps mean : ℝ) {sigma : ℝ} (hs : sigma ≠ 0) :
    piValue minimize eta eps mean sigma = normCdf (lead minimize eta eps mean / sigma) := by
  cases minimize
  · simp only [piValue, if_neg hs, lead, Bool.false_eq_true, if_false]; congr 2; ring
  · simp only [piValue, if_neg hs, lead, if_true]; congr 2; ring

/-- **C126** Probability of improvement: uncertainty raises it when the predicted mean does not reach the required value, lowers it
when the mean is ahead of it, and does not matter in between. The value is below, above or equal to one half, respectively. -/
theorem C126_pi (minimize : Bool) (eta eps mean : ℝ) {sigma sigma' : ℝ} (h0 : 0 < sigma) (h : sigma < sigma') :
    ((if minimize then eta - eps < mean else mean < eta + eps) →
      piValue minimize eta eps mean sigma < piValue minimize eta eps mean sigma' ∧ piValue minimize eta eps mean sigma' < 1 / 2) ∧
    ((if minimize then mean < eta - eps else eta + eps < mean) →
      piValue minimize eta eps mean sigma' < piValue minimize eta eps mean sigma ∧ 1 / 2 < piValue minimize eta eps mean sigma') ∧
    ((if minimize then mean = eta - eps else mean = eta + eps) → piValue minimize eta eps mean sigma = 1 / 2) := by
  have h1 : 0 < sigma' := h0.trans h
  rw [piValue_lead _ _ _ _ h0.ne', piValue_lead _ _ _ _ h1.ne', ← normCdf_zero]
  have k1 : (if minimize then eta - eps < mean else mean < eta + eps) ↔ lead minimize eta eps mean < 0 := by
    cases minimize <;> simp [lead]
  have k2 : (if minimize then mean < eta - eps else eta + eps < mean) ↔ 0 < lead minimize eta eps mean := by
    cases minimize <;> simp [lead]
  have k3 : (if minimize then mean = eta - eps else mean = eta + eps) ↔ lead minimize eta eps mean = 0 := by
    cases minimize <;> simp only [lead, Bool.false_eq_true, if_false, if_true] <;> constructor <;> intro h <;> linarith
  rw [k1, k2, k3]
  obtain ⟨l, hl⟩ : ∃ l, l = lead minimize eta eps mean := ⟨_, rfl⟩
  rw [← hl]
  refine ⟨fun hn => ⟨normCdf_strict ?_, normCdf_strict (div_neg_of_neg_of_pos hn h1)⟩,
    fun hp => ⟨normCdf_strict (div_lt_div_of_pos_left hp h0 h), normCdf_strict (div_pos hp h1)⟩, fun hz => by rw [hz, zero_div]⟩
  rw [div_lt_div_iff₀ h0 h1]
  nlinarith

/-- **C126** The confidence bound grows with the uncertainty exactly for positive `tau`. -/
theorem C126_lcb (minimize : Bool) (tau mean : ℝ) {sigma sigma' : ℝ} (h : sigma < sigma') :
    lcbValue minimize tau mean sigma < lcbValue minimize tau mean sigma' ↔ 0 < tau := by
  have : lcbValue minimize tau mean sigma < lcbValue minimize tau mean sigma' ↔ tau * sigma < tau * sigma' := by
    cases minimize <;> simp [lcbValue]
  rw [this]
  constructor
  · intro h'; by_contra hc; nlinarith
  · intro h'; nlinarith

/-! ### examples -/

example : eiValue 1 0 2 1 < eiValue 1 0 2 3 := C126_ei 1 0 2 (by norm_num) (by norm_num)

/-- a candidate behind the incumbent gains by uncertainty, one ahead of it loses -/
example : piValue true 1 0 2 1 < piValue true 1 0 2 3 ∧ piValue true 1 0 0 3 < piValue true 1 0 0 1 :=
  ⟨((C126_pi true 1 0 2 (sigma := 1) (sigma' := 3) (by norm_num) (by norm_num)).1 (by norm_num)).1,
    ((C126_pi true 1 0 0 (sigma := 1) (sigma' := 3) (by norm_num) (by norm_num)).2.1 (by norm_num)).1⟩

end PyPDP
