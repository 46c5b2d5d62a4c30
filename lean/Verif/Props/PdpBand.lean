/-
C172: what the variance of a PDP means.
-/
import Mathlib.Algebra.Order.Chebyshev
import Mathlib.Probability.Distributions.Gaussian.Real
import Verif.Props.PdpConsistency
import Verif.Spec.PdpBand

namespace PyPDP
open Spec MeasureTheory ProbabilityTheory
variable {Ω : Type} [MeasurableSpace Ω]

theorem sum_map_fin {α : Type} (l : List α) (f : α → ℝ) : (l.map f).sum = ∑ i : Fin l.length, f (l.get i) := by
  rw [← List.sum_ofFn]
  congr 1
  apply List.ext_getElem <;> simp

/-- the average of random variables -/
theorem average_moments {P : Measure Ω} [IsProbabilityMeasure P] {ι : Type} [Fintype ι] [Nonempty ι] {F : ι → Ω → ℝ} {m s : ι → ℝ}
    (hF : ∀ i, MemLp (F i) 2 P) (hm : ∀ i, ∫ ω, F i ω ∂P = m i) (hs : ∀ i, variance (F i) P = s i) :
    ∫ ω, (∑ i, F i ω) / (Fintype.card ι : ℝ) ∂P = (∑ i, m i) / Fintype.card ι ∧
    variance (fun ω => (∑ i, F i ω) / (Fintype.card ι : ℝ)) P ≤ (∑ i, s i) / Fintype.card ι ∧
    ((∀ i j, i ≠ j → covariance (F i) (F j) P = 0) → variance (fun ω => (∑ i, F i ω) / (Fintype.card ι : ℝ)) P = (∑ i, s i) / Fintype.card ι / Fintype.card ι) ∧
    ((∃ D : Ω → ℝ, ∀ i, ∀ᵐ ω ∂P, F i ω = m i + D ω) → variance (fun ω => (∑ i, F i ω) / (Fintype.card ι : ℝ)) P = (∑ i, s i) / Fintype.card ι) := by
  have hn : (0 : ℝ) < Fintype.card ι := by exact_mod_cast Fintype.card_pos
  have hint : ∀ i, Integrable (F i) P := fun i => (hF i).integrable (by norm_num)
  have hmean : ∫ ω, (∑ i, F i ω) / (Fintype.card ι : ℝ) ∂P = (∑ i, m i) / Fintype.card ι := by
    rw [integral_div, integral_finsetSum _ fun i _ => hint i]
    simp only [hm]
  have hsum : MemLp (fun ω => ∑ i, F i ω) 2 P := memLp_finsetSum _ fun i _ => hF i
  have havg : MemLp (fun ω => (∑ i, F i ω) / (Fintype.card ι : ℝ)) 2 P := by
    simpa only [div_eq_mul_inv] using hsum.mul_const (Fintype.card ι : ℝ)⁻¹
  have hvar : ∀ i, ∫ ω, (F i ω - m i) ^ 2 ∂P = s i := fun i => by
    rw [← hs i, variance_eq_integral (hF i).aemeasurable, hm i]
  have hdev : ∀ i, Integrable (fun ω => (F i ω - m i) ^ 2) P := fun i => ((hF i).sub (memLp_const (m i))).integrable_sq
  refine ⟨hmean, ?_, ?_, ?_⟩
  · rw [variance_eq_integral havg.aemeasurable, hmean]
    have hle : ∫ ω, ((∑ i, F i ω) / (Fintype.card ι : ℝ) - (∑ i, m i) / Fintype.card ι) ^ 2 ∂P ≤ ∫ ω, (∑ i, (F i ω - m i) ^ 2) / (Fintype.card ι : ℝ) ∂P := by
      refine integral_mono ?_ ?_ fun ω => ?_
      · exact (havg.sub (memLp_const _)).integrable_sq
      · exact (integrable_finsetSum _ fun i _ => hdev i).div_const _
      · have h := sq_sum_le_card_mul_sum_sq (s := (Finset.univ : Finset ι)) (f := fun i => F i ω - m i)
        rw [Finset.card_univ] at h
        have e : (∑ i, F i ω) / (Fintype.card ι : ℝ) - (∑ i, m i) / Fintype.card ι = (∑ i, (F i ω - m i)) / Fintype.card ι := by
          rw [Finset.sum_sub_distrib, sub_div]
        simp only [e]
        rw [div_pow, div_le_div_iff₀ (by positivity) hn]
        nlinarith [h, hn]
    refine hle.trans (le_of_eq ?_)
    rw [integral_div, integral_finsetSum _ fun i _ => hdev i]
    simp only [hvar]
  · intro hcov
    have h1 : variance (fun ω => ∑ i, F i ω) P = ∑ i, s i := by
      have := variance_sum' (μ := P) (s := (Finset.univ : Finset ι)) (X := F) fun i _ => hF i
      have e : (∑ i, F i) = fun ω => ∑ i, F i ω := by funext ω; simp
      rw [e] at this
      rw [this]
      refine Finset.sum_congr rfl fun i _ => ?_
      rw [Finset.sum_eq_single i (fun j _ hj => hcov i j hj.symm) (by simp), covariance_self (hF i).aemeasurable, hs i]
    have e : (fun ω => (∑ i, F i ω) / (Fintype.card ι : ℝ)) = fun ω => (∑ i, F i ω) * (Fintype.card ι : ℝ)⁻¹ := by
      funext ω; rw [div_eq_mul_inv]
    rw [e, variance_mul_const, h1]
    field_simp
  · rintro ⟨D, hD⟩
    have hsame : ∀ i, s i = ∫ ω, D ω ^ 2 ∂P := fun i => by
      rw [← hvar i]
      refine integral_congr_ae ?_
      filter_upwards [hD i] with ω h
      rw [h]; ring
    rw [variance_eq_integral havg.aemeasurable, hmean]
    have : ∫ ω, ((∑ i, F i ω) / (Fintype.card ι : ℝ) - (∑ i, m i) / Fintype.card ι) ^ 2 ∂P = ∫ ω, D ω ^ 2 ∂P := by
      refine integral_congr_ae ?_
      filter_upwards [ae_all_iff.2 hD] with ω h
      simp only [h, Finset.sum_add_distrib, Finset.sum_const, Finset.card_univ, nsmul_eq_mul]
      field_simp
      ring
    rw [this, Finset.sum_congr rfl fun i _ => hsame i, Finset.sum_const, Finset.card_univ, nsmul_eq_mul]
    field_simp

/-- **C172** What the variance of a PDP means. Let the surrogate's predictions be mean and standard deviation of an unknown function at every vector. Then at every grid
point `y_pdp` is the expected partial dependence of that function over the samples, and the variance of this partial dependence is at most `y_variances`, however the
values of the function depend on each other. It is `y_variances` if the deviations at the samples are all the same, and `y_variances / n` if they are uncorrelated.
At least `1 - 1 / k²` of the probability lies within `k` standard deviations. -/
theorem C172_band {P : Measure Ω} [IsProbabilityMeasure P] {space : ConfigSpace ℝ} {predict : Predict ℝ} {sel : Selection ℝ} {selected : List (Hp ℝ)}
    {samples : List (List ℝ)} {g : Nat} {grid : List (List ℝ)} (h : DependenceInput space sel selected samples g grid) {mu sd : List ℝ → ℝ}
    (hp : RowWise space.length predict mu sd) {F : List ℝ → Ω → ℝ} (hF : Predicted P space.length F mu sd) :
    ∃ y v, yPdp space predict sel samples g = .ok y ∧ vPdp space predict sel samples g = .ok v ∧ y.length = grid.length ∧ v.length = grid.length ∧
      ∀ (p : Nat) (t : List ℝ), grid[p]? = some t →
        ∫ ω, trueDependence space selected samples F t ω ∂P = y.getD p 0 ∧
        variance (trueDependence space selected samples F t) P ≤ v.getD p 0 ∧
        ((∃ D : Ω → ℝ, ∀ r ∈ samples, ∀ᵐ ω ∂P, F (atPoint space selected t r) ω = mu (atPoint space selected t r) + D ω) →
          variance (trueDependence space selected samples F t) P = v.getD p 0) ∧
        (samples.Pairwise (fun r r' => covariance (F (atPoint space selected t r)) (F (atPoint space selected t r')) P = 0) →
          variance (trueDependence space selected samples F t) P = v.getD p 0 / samples.length) ∧
        ∀ k : ℝ, 0 < k → 0 < v.getD p 0 →
          P.real {ω | k * √(v.getD p 0) ≤ |trueDependence space selected samples F t ω - y.getD p 0|} ≤ 1 / k ^ 2 := by
  obtain ⟨hy, hv⟩ := pdp_values h.wf h.sel_eq h.mem h.ne h.distinct hp h.samples_ne h.rows h.grid_pos h.grid_eq
  refine ⟨_, _, hy, hv, by simp, by simp, fun p t ht => ?_⟩
  have hget : ∀ f : List ℝ → ℝ, (grid.map f).getD p 0 = f t := by
    intro f; rw [List.getD_eq_getElem?_getD, List.getElem?_map, ht]; rfl
  simp only [hget]
  have : Nonempty (Fin samples.length) := ⟨⟨0, List.length_pos_iff.2 h.samples_ne⟩⟩
  have hrow : ∀ i : Fin samples.length, (atPoint space selected t (samples.get i)).length = space.length := fun i => atPoint_length (h.rows _ (List.get_mem _ _))
  obtain ⟨a1, a2, a3, a4⟩ := average_moments (P := P) (F := fun i : Fin samples.length => F (atPoint space selected t (samples.get i)))
    (m := fun i => mu (atPoint space selected t (samples.get i))) (s := fun i => sd (atPoint space selected t (samples.get i)) ^ 2)
    (fun i => (hF _ (hrow i)).1) (fun i => (hF _ (hrow i)).2.1) (fun i => (hF _ (hrow i)).2.2)
  have hT : trueDependence space selected samples F t = fun ω => (∑ i : Fin samples.length, F (atPoint space selected t (samples.get i)) ω) / (Fintype.card (Fin samples.length) : ℝ) := by
    funext ω
    unfold trueDependence
    rw [sum_map_fin, Fintype.card_fin]
  have hmem : MemLp (trueDependence space selected samples F t) 2 P := by
    rw [hT]
    simpa only [div_eq_mul_inv] using (memLp_finsetSum Finset.univ fun i _ => (hF _ (hrow i)).1).mul_const (Fintype.card (Fin samples.length) : ℝ)⁻¹
  rw [sum_map_fin, sum_map_fin]
  simp only [Fintype.card_fin] at a1 a2 a3 a4 hT
  refine ⟨by rw [hT]; exact a1, by rw [hT]; exact a2, ?_, ?_, ?_⟩
  · rintro ⟨D, hD⟩
    rw [hT]
    exact a4 ⟨D, fun i => hD _ (List.get_mem _ _)⟩
  · intro hcov
    rw [hT]
    refine a3 fun i j hij => ?_
    have key := List.pairwise_iff_get.1 hcov
    rcases lt_or_gt_of_ne hij with hlt | hlt
    · exact key i j hlt
    · rw [covariance_comm]; exact key j i hlt
  · intro k hk hpos
    obtain ⟨V, hV⟩ : ∃ V, V = (∑ i : Fin samples.length, sd (atPoint space selected t (samples.get i)) ^ 2) / (samples.length : ℝ) := ⟨_, rfl⟩
    rw [← hV] at hpos ⊢ a2
    have hc : 0 < k * √V := mul_pos hk (Real.sqrt_pos.2 hpos)
    have hmean : ∫ ω, trueDependence space selected samples F t ω ∂P = (∑ i : Fin samples.length, mu (atPoint space selected t (samples.get i))) / (samples.length : ℝ) := by
      rw [hT]; exact a1
    have hch := meas_ge_le_variance_div_sq hmem hc
    rw [hmean] at hch
    have hle : variance (trueDependence space selected samples F t) P / (k * √V) ^ 2 ≤ 1 / k ^ 2 := by
      rw [hT, mul_pow, Real.sq_sqrt hpos.le, div_le_div_iff₀ (by positivity) (by positivity)]
      nlinarith [mul_le_mul_of_nonneg_right a2 (sq_nonneg k)]
    exact ENNReal.toReal_le_of_le_ofReal (by positivity) (hch.trans (ENNReal.ofReal_le_ofReal hle))

/-- **C172** Every surrogate is the mean and standard deviation of some random function: one whose deviations all have the same standard normal factor. Where the standard
deviation is the same at all vectors this is the case in which the variance of the partial dependence is `y_variances`. -/
theorem C172_exists (d : Nat) (mu sd : List ℝ → ℝ) :
    ∃ F : List ℝ → ℝ → ℝ, Predicted (gaussianReal 0 1) d F mu sd ∧ ∀ r x, F r x = mu r + sd r * x := by
  refine ⟨fun r x => mu r + sd r * x, fun r _ => ?_, fun _ _ => rfl⟩
  have hid : MemLp (fun x : ℝ => x) 2 (gaussianReal 0 1) := memLp_id_gaussianReal 2
  have hmul : MemLp (fun x : ℝ => sd r * x) 2 (gaussianReal 0 1) := hid.const_mul (sd r)
  refine ⟨(memLp_const (mu r)).add hmul, ?_, ?_⟩
  · rw [integral_add (integrable_const _) (hmul.integrable (by norm_num)), integral_const_mul]
    have : ∫ x, x ∂(gaussianReal 0 1) = 0 := integral_id_gaussianReal
    rw [this]
    simp
  · have h1 : variance (fun x : ℝ => mu r + sd r * x) (gaussianReal 0 1) = variance (fun x : ℝ => sd r * x) (gaussianReal 0 1) :=
      variance_const_add hmul.aestronglyMeasurable _
    rw [h1, variance_const_mul]
    have : variance (fun x : ℝ => x) (gaussianReal 0 1) = 1 := variance_fun_id_gaussianReal
    rw [this, mul_one]

/-- A surrogate with standard deviation 3 everywhere over two samples: for the random function of `C172_exists` the variance of the partial dependence is 9, as reported. -/
example {space : ConfigSpace ℝ} {predict : Predict ℝ} {sel : Selection ℝ} {selected : List (Hp ℝ)} {samples : List (List ℝ)} {g : Nat} {grid : List (List ℝ)}
    (h : DependenceInput space sel selected samples g grid) {mu : List ℝ → ℝ} (hp : RowWise space.length predict mu fun _ => 3) :
    ∃ (F : List ℝ → ℝ → ℝ) (v : List ℝ), vPdp space predict sel samples g = .ok v ∧
      ∀ (p : Nat) (t : List ℝ), grid[p]? = some t → variance (trueDependence space selected samples F t) (gaussianReal 0 1) = v.getD p 0 := by
  obtain ⟨F, hF, hform⟩ := C172_exists space.length mu fun _ => 3
  obtain ⟨y, v, hy, hv, _, _, hall⟩ := C172_band h hp hF
  exact ⟨F, v, hv, fun p t ht => (hall p t ht).2.2.1 ⟨fun x => 3 * x, fun r _ => Filter.Eventually.of_forall fun x => hform _ x⟩⟩

end PyPDP
