/-
The Matérn kernel with ν = 3/2 is strictly positive definite: only the zero combination of different points has norm 0.

In the mixture of `Verif.Lemmas.Matern` the quadratic forms of `e^{-√(s + v)}` would all have to vanish. As a function of `v`, the diagonal terms `e^{-√v}` have a vertical tangent at 0, the
others a finite slope.
-/
import Verif.Lemmas.Matern
import Mathlib.MeasureTheory.Measure.OpenPos
import Mathlib.MeasureTheory.Measure.Lebesgue.Basic

namespace PyPDP.Matern
open Matrix MeasureTheory Filter Set

variable {n : Nat}

theorem exp_sqrt_slope {s v : ℝ} (hs : 0 < s) (hv : 0 ≤ v) : |Real.exp (-√(s + v)) - Real.exp (-√s)| ≤ v / √s := by
  have hr : 0 < √s := Real.sqrt_pos.2 hs
  have hmono : √s ≤ √(s + v) := Real.sqrt_le_sqrt (by linarith)
  have hle : Real.exp (-√(s + v)) ≤ Real.exp (-√s) := Real.exp_le_exp.2 (by linarith)
  rw [abs_sub_comm, abs_of_nonneg (by linarith)]
  have h1 : Real.exp (-√s) ≤ 1 := Real.exp_le_one_iff.2 (by linarith)
  have h2 : Real.exp (-√(s + v)) = Real.exp (-√s) * Real.exp (-(√(s + v) - √s)) := by rw [← Real.exp_add]; congr 1; ring
  have h3 := Real.add_one_le_exp (-(√(s + v) - √s))
  have h4 : √(s + v) - √s ≤ v / √s := by
    rw [le_div_iff₀ hr]
    have e1 := Real.mul_self_sqrt (show 0 ≤ s + v by linarith)
    have e2 := Real.mul_self_sqrt hs.le
    nlinarith
  have h5 : Real.exp (-√s) - Real.exp (-√(s + v)) = Real.exp (-√s) * (1 - Real.exp (-(√(s + v) - √s))) := by rw [h2]; ring
  rw [h5]
  have h6 : 1 - Real.exp (-(√(s + v) - √s)) ≤ v / √s := by linarith
  have h7 : 0 ≤ 1 - Real.exp (-(√(s + v) - √s)) := by
    have := Real.exp_le_one_iff.2 (show -(√(s + v) - √s) ≤ 0 by linarith)
    linarith
  nlinarith [Real.exp_pos (-√s)]

theorem matern_strict {s : Fin n → Fin n → ℝ} (hdiag : ∀ i, s i i = 0) (hoff : ∀ i j, i ≠ j → 0 < s i j)
    (hg : ∀ τ : ℝ, 0 ≤ τ → Pos fun i j => Real.exp (-(τ * s i j))) {c : Fin n → ℝ}
    (hc : ∑ i, ∑ j, c i * c j * ((1 + √(s i j)) * Real.exp (-√(s i j))) = 0) : c = 0 := by
  have h0 : ∀ i j, 0 ≤ s i j := fun i j => by
    rcases eq_or_ne i j with rfl | h
    · rw [hdiag]
    · exact (hoff i j h).le
  obtain ⟨F, hF⟩ : ∃ F : ℝ → ℝ, F = fun v => ∑ i, ∑ j, c i * c j * Real.exp (-√(s i j + v)) := ⟨_, rfl⟩
  have hcont : Continuous F := by rw [hF]; fun_prop
  have hint : ∀ i j, Integrable (fun v => c i * c j * Real.exp (-√(s i j + v))) (volume.restrict (Ioi 0)) := fun i j =>
    (matern_mix (h0 i j)).1.integrable.const_mul _
  have hFint : IntegrableOn F (Ioi 0) := by
    rw [hF]
    exact integrable_finsetSum _ fun i _ => integrable_finsetSum _ fun j _ => hint i j
  have e : ∫ v in Ioi (0 : ℝ), F v = 0 := by
    have : 2 * ∑ i, ∑ j, c i * c j * ((1 + √(s i j)) * Real.exp (-√(s i j))) = ∫ v in Ioi (0 : ℝ), F v := by
      rw [hF, integral_finsetSum _ fun i _ => integrable_finsetSum _ fun j _ => hint i j, Finset.mul_sum]
      refine Finset.sum_congr rfl fun i _ => ?_
      rw [integral_finsetSum _ fun j _ => hint i j, Finset.mul_sum]
      refine Finset.sum_congr rfl fun j _ => ?_
      rw [integral_const_mul, (matern_mix (h0 i j)).2]
      ring
    rw [← this, hc, mul_zero]
  have hnn : ∀ v ∈ Ioi (0 : ℝ), 0 ≤ F v := fun v hv => by rw [hF]; exact (expSqrt h0 hg (le_of_lt hv)).2 c
  have hae : F =ᵐ[volume.restrict (Ioi 0)] fun _ => 0 :=
    (setIntegral_eq_zero_iff_of_nonneg_ae ((ae_restrict_iff' measurableSet_Ioi).2 (Eventually.of_forall hnn)) hFint).1 e
  have hzero : EqOn F (fun _ => 0) (Ioi 0) := Measure.eqOn_open_of_ae_eq hae isOpen_Ioi hcont.continuousOn continuous_const.continuousOn
  have hzero' : ∀ v, 0 ≤ v → F v = 0 := by
    have hcl : EqOn F (fun _ => 0) (closure (Ioi 0)) := hzero.closure hcont continuous_const
    rw [closure_Ioi] at hcl
    exact fun v hv => hcl hv
  obtain ⟨D, hD⟩ : ∃ D, D = ∑ i, c i ^ 2 := ⟨_, rfl⟩
  obtain ⟨K, hK⟩ : ∃ K, K = ∑ i, ∑ j, |c i * c j| * (if i = j then 0 else 1 / √(s i j)) := ⟨_, rfl⟩
  have hsplit : ∀ v, 0 ≤ v → D * (1 - Real.exp (-√v)) ≤ K * v := by
    intro v hv
    have h1 := hzero' v hv
    have h2 := hzero' 0 le_rfl
    have hdiff : ∑ i, ∑ j, c i * c j * (Real.exp (-√(s i j + v)) - Real.exp (-√(s i j))) = 0 := by
      rw [hF] at h1 h2
      simp only [add_zero] at h2
      have : ∑ i, ∑ j, c i * c j * (Real.exp (-√(s i j + v)) - Real.exp (-√(s i j)))
          = ∑ i, ∑ j, c i * c j * Real.exp (-√(s i j + v)) - ∑ i, ∑ j, c i * c j * Real.exp (-√(s i j)) := by
        rw [← Finset.sum_sub_distrib]
        refine Finset.sum_congr rfl fun i _ => ?_
        rw [← Finset.sum_sub_distrib]
        exact Finset.sum_congr rfl fun j _ => by ring
      rw [this, h2, sub_zero]
      exact h1
    have hterm : ∀ i j, (if i = j then c i ^ 2 * (1 - Real.exp (-√v)) else 0)
        ≤ |c i * c j| * (if i = j then 0 else 1 / √(s i j)) * v - c i * c j * (Real.exp (-√(s i j + v)) - Real.exp (-√(s i j))) := by
      intro i j
      split_ifs with h
      · subst h
        rw [hdiag, zero_add, Real.sqrt_zero, neg_zero, Real.exp_zero]
        exact le_of_eq (by ring)
      · have hs := exp_sqrt_slope (hoff i j h) hv
        have := mul_le_mul_of_nonneg_left hs (abs_nonneg (c i * c j))
        rw [← abs_mul] at this
        have h3 := (le_abs_self _).trans this
        have : |c i * c j| * (v / √(s i j)) = |c i * c j| * (1 / √(s i j)) * v := by ring
        linarith
    have hsum := Finset.sum_le_sum fun i (_ : i ∈ (Finset.univ : Finset (Fin n))) => Finset.sum_le_sum fun j (_ : j ∈ (Finset.univ : Finset (Fin n))) => hterm i j
    have eL : ∑ i, ∑ j, (if i = j then c i ^ 2 * (1 - Real.exp (-√v)) else 0) = D * (1 - Real.exp (-√v)) := by
      rw [hD, Finset.sum_mul]
      exact Finset.sum_congr rfl fun i _ => by simp
    have eR : ∑ i, ∑ j, (|c i * c j| * (if i = j then 0 else 1 / √(s i j)) * v - c i * c j * (Real.exp (-√(s i j + v)) - Real.exp (-√(s i j)))) = K * v := by
      simp only [Finset.sum_sub_distrib]
      rw [hdiff, sub_zero, hK, Finset.sum_mul]
      exact Finset.sum_congr rfl fun i _ => (Finset.sum_mul _ _ _).symm
    rwa [eL, eR] at hsum
  have hD0 : 0 ≤ D := hD ▸ Finset.sum_nonneg fun i _ => sq_nonneg _
  have hDz : D = 0 := by
    by_contra hne
    have hpos : 0 < D := lt_of_le_of_ne hD0 (Ne.symm hne)
    -- with `√v = t`: `D t / 2 ≤ D (1 - e^{-t}) ≤ K t²`
    have hK0 : 0 ≤ K := by
      rw [hK]
      refine Finset.sum_nonneg fun i _ => Finset.sum_nonneg fun j _ => mul_nonneg (abs_nonneg _) ?_
      split_ifs
      · exact le_rfl
      · positivity
    obtain ⟨t, ht⟩ : ∃ t, t = min 1 (D / (4 * (K + 1))) := ⟨_, rfl⟩
    have ht0 : 0 < t := ht ▸ lt_min one_pos (by positivity)
    have ht1 : t ≤ 1 := ht ▸ min_le_left _ _
    have ht2 : t * (4 * (K + 1)) ≤ D := by
      rw [← le_div_iff₀ (by positivity)]
      exact ht ▸ min_le_right _ _
    have h := hsplit (t ^ 2) (sq_nonneg t)
    rw [Real.sqrt_sq ht0.le] at h
    have hexp : t / 2 ≤ 1 - Real.exp (-t) := by
      have h1 := Real.add_one_le_exp t
      have h2 : Real.exp (-t) ≤ 1 / (1 + t) := by
        rw [Real.exp_neg, ← one_div]
        exact one_div_le_one_div_of_le (by linarith) (by linarith)
      have h3 : 1 / (1 + t) ≤ 1 - t / 2 := by
        rw [div_le_iff₀ (by linarith)]
        nlinarith
      linarith
    have h1 := mul_le_mul_of_nonneg_left hexp hpos.le
    have h2 : D / 2 ≤ K * t := by
      have : t * (D / 2) ≤ t * (K * t) := by nlinarith
      exact le_of_mul_le_mul_left this ht0
    nlinarith
  funext i
  have := (Finset.sum_eq_zero_iff_of_nonneg fun i _ => sq_nonneg (c i)).1 (hD ▸ hDz) i (Finset.mem_univ i)
  simpa using this

end PyPDP.Matern
