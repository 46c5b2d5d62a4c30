/-
The Matérn kernel with ν = 3/2 is a covariance function, in every dimension: `(1 + √s) e^{-√s}` of the squared distances `s` of
finitely many points is a positive semidefinite matrix.

Schoenberg's argument: `e^{-τ s}` is positive semidefinite (power series and Schur's product theorem); `√(s + v)` is a mixture of
`1 - e^{-τ (s + v)}`, hence conditionally negative definite, hence `e^{-√(s + v)}` is positive semidefinite; and
`(1 + √s) e^{-√s} = ½ ∫₀^∞ e^{-√(s + v)} dv`.
-/
import Mathlib.Analysis.Matrix.Order
import Mathlib.Analysis.SpecialFunctions.ImproperIntegrals
import Mathlib.Analysis.SpecialFunctions.Exponential
import Mathlib.Analysis.SpecialFunctions.Sqrt
import Mathlib.MeasureTheory.Integral.IntegralEqImproper
import Mathlib.Analysis.SpecialFunctions.Pow.Asymptotics

namespace PyPDP.Matern
open Matrix MeasureTheory Filter Set

variable {n : Nat}

/-- positive semidefinite, as a quadratic form -/
def Pos (M : Fin n → Fin n → ℝ) : Prop := (∀ i j, M i j = M j i) ∧ ∀ c : Fin n → ℝ, 0 ≤ ∑ i, ∑ j, c i * c j * M i j

theorem pos_iff {M : Fin n → Fin n → ℝ} : Pos M ↔ (Matrix.of M).PosSemidef := by
  have e : ∀ c : Fin n → ℝ, star c ⬝ᵥ (Matrix.of M *ᵥ c) = ∑ i, ∑ j, c i * c j * M i j := fun c => by
    simp only [dotProduct, mulVec, of_apply, Pi.star_apply, star_trivial, Finset.mul_sum]
    exact Finset.sum_congr rfl fun i _ => Finset.sum_congr rfl fun j _ => by ring
  rw [posSemidef_iff_dotProduct_mulVec]
  refine and_congr ⟨fun h => ?_, fun h i j => ?_⟩ (forall_congr' fun c => by rw [e c])
  · ext i j
    simpa using h j i
  · have := congrFun (congrFun h i) j
    simpa using this.symm

theorem Pos.mul {M N : Fin n → Fin n → ℝ} (hM : Pos M) (hN : Pos N) : Pos fun i j => M i j * N i j :=
  pos_iff.2 ((pos_iff.1 hM).hadamard (pos_iff.1 hN))

theorem Pos.one : Pos fun _ _ : Fin n => (1 : ℝ) := by
  refine ⟨fun _ _ => rfl, fun c => ?_⟩
  have : ∑ i, ∑ j, c i * c j * (1 : ℝ) = (∑ i, c i) ^ 2 := by
    rw [sq, Finset.sum_mul_sum]
    exact Finset.sum_congr rfl fun i _ => Finset.sum_congr rfl fun j _ => by ring
  rw [this]; positivity

theorem Pos.pow {M : Fin n → Fin n → ℝ} (hM : Pos M) (k : Nat) : Pos fun i j => M i j ^ k := by
  induction k with
  | zero => simpa using Pos.one
  | succ k ih => simpa only [pow_succ] using ih.mul hM

theorem Pos.scale {M : Fin n → Fin n → ℝ} (hM : Pos M) (a : Fin n → ℝ) : Pos fun i j => a i * a j * M i j := by
  refine ⟨fun i j => by dsimp only; rw [hM.1 i j]; ring, fun c => ?_⟩
  have := hM.2 fun i => c i * a i
  refine this.trans_eq ?_
  exact Finset.sum_congr rfl fun i _ => Finset.sum_congr rfl fun j _ => by ring

theorem Pos.smul {M : Fin n → Fin n → ℝ} (hM : Pos M) {b : ℝ} (hb : 0 ≤ b) : Pos fun i j => b * M i j := by
  refine ⟨fun i j => by dsimp only; rw [hM.1 i j], fun c => ?_⟩
  have : ∑ i, ∑ j, c i * c j * (b * M i j) = b * ∑ i, ∑ j, c i * c j * M i j := by
    simp only [Finset.mul_sum]
    exact Finset.sum_congr rfl fun i _ => Finset.sum_congr rfl fun j _ => by ring
  rw [this]
  exact mul_nonneg hb (hM.2 c)

theorem Pos.exp {M : Fin n → Fin n → ℝ} (hM : Pos M) : Pos fun i j => Real.exp (M i j) := by
  refine ⟨fun i j => by dsimp only; rw [hM.1 i j], fun c => ?_⟩
  have h : HasSum (fun k : Nat => ∑ i, ∑ j, c i * c j * (M i j ^ k / k.factorial)) (∑ i, ∑ j, c i * c j * Real.exp (M i j)) := by
    refine hasSum_sum fun i _ => hasSum_sum fun j _ => HasSum.mul_left _ ?_
    rw [Real.exp_eq_exp_ℝ]
    exact NormedSpace.expSeries_div_hasSum_exp (M i j)
  refine h.nonneg fun k => ?_
  have := ((hM.pow k).smul (b := 1 / k.factorial) (by positivity)).2 c
  refine this.trans_eq ?_
  exact Finset.sum_congr rfl fun i _ => Finset.sum_congr rfl fun j _ => by ring

/-- squared Euclidean distances -/
def dist2 {d : Nat} (v : Fin n → Fin d → ℝ) (i j : Fin n) : ℝ := ∑ k, (v i k - v j k) ^ 2

theorem gaussian {d : Nat} (v : Fin n → Fin d → ℝ) {τ : ℝ} (hτ : 0 ≤ τ) : Pos fun i j => Real.exp (-(τ * dist2 v i j)) := by
  have hin : Pos fun i j => ∑ k, v i k * v j k := by
    refine ⟨fun i j => Finset.sum_congr rfl fun k _ => mul_comm _ _, fun c => ?_⟩
    have : ∑ i, ∑ j, c i * c j * ∑ k, v i k * v j k = ∑ k, (∑ i, c i * v i k) ^ 2 := by
      simp only [Finset.mul_sum]
      rw [Finset.sum_congr rfl fun i _ => Finset.sum_comm, Finset.sum_comm]
      refine Finset.sum_congr rfl fun k _ => ?_
      rw [sq, Finset.sum_mul_sum]
      exact Finset.sum_congr rfl fun i _ => Finset.sum_congr rfl fun j _ => by ring
    rw [this]
    exact Finset.sum_nonneg fun k _ => sq_nonneg _
  have h := ((hin.smul (b := 2 * τ) (by positivity)).exp).scale fun i => Real.exp (-(τ * ∑ k, v i k ^ 2))
  convert! h using 3 with i j
  rw [← Real.exp_add, ← Real.exp_add]
  congr 1
  unfold dist2
  have : ∑ k, (v i k - v j k) ^ 2 = ∑ k, v i k ^ 2 + ∑ k, v j k ^ 2 - 2 * ∑ k, v i k * v j k := by
    rw [Finset.mul_sum, ← Finset.sum_add_distrib, ← Finset.sum_sub_distrib]
    exact Finset.sum_congr rfl fun k _ => by ring
  rw [this]; ring

/-! ### the square root as a mixture -/

/-- `(1 - e^{-u²}) / u²` -/
noncomputable def g (u : ℝ) : ℝ := (1 - Real.exp (-u ^ 2)) / u ^ 2

theorem g_nonneg (u : ℝ) : 0 ≤ g u :=
  div_nonneg (by have := Real.exp_le_one_iff.2 (show -u ^ 2 ≤ 0 by nlinarith [sq_nonneg u]); linarith) (sq_nonneg u)

theorem g_le (u : ℝ) : g u ≤ 2 * (1 + u ^ 2)⁻¹ := by
  unfold g
  rcases eq_or_ne u 0 with rfl | hu
  · simp
  have hx : 0 < u ^ 2 := by positivity
  obtain ⟨x, hxe⟩ : ∃ x, x = u ^ 2 := ⟨_, rfl⟩
  rw [← hxe] at hx ⊢
  have h1 : 1 - x ≤ Real.exp (-x) := by have := Real.add_one_le_exp (-x); linarith
  have h2 : 0 < Real.exp (-x) := Real.exp_pos _
  rw [← div_eq_mul_inv, div_le_div_iff₀ hx (by positivity)]
  nlinarith [mul_pos hx h2]

theorem g_integrable : Integrable g := by
  refine Integrable.mono' (g := fun u => 2 * (1 + u ^ 2)⁻¹) (integrable_inv_one_add_sq.const_mul 2) ?_ (Eventually.of_forall fun u => ?_)
  · exact (Measurable.div (by fun_prop) (by fun_prop)).aestronglyMeasurable
  · rw [Real.norm_of_nonneg (g_nonneg u)]; exact g_le u

theorem g_integral_pos : 0 < ∫ u, g u := by
  rw [integral_pos_iff_support_of_nonneg g_nonneg g_integrable]
  have : Ioi (0 : ℝ) ⊆ Function.support g := by
    intro u hu
    have hu' : (0 : ℝ) < u := hu
    have : Real.exp (-u ^ 2) < 1 := by
      rw [Real.exp_lt_one_iff]
      have : 0 < u ^ 2 := by positivity
      linarith
    exact (div_pos (by linarith) (by positivity)).ne'
  refine lt_of_lt_of_le ?_ (measure_mono this)
  simp

/-- `√s` is a mixture of `1 - e^{-s u²}` -/
theorem sqrt_mix {s : ℝ} (hs : 0 ≤ s) :
    Integrable (fun u : ℝ => (1 - Real.exp (-(s * u ^ 2))) / u ^ 2) ∧ ∫ u : ℝ, (1 - Real.exp (-(s * u ^ 2))) / u ^ 2 = √s * ∫ u, g u := by
  rcases hs.eq_or_lt with rfl | hs
  · simp
  have hr : 0 < √s := Real.sqrt_pos.2 hs
  have e : (fun u : ℝ => (1 - Real.exp (-(s * u ^ 2))) / u ^ 2) = fun u => s * g (√s * u) := by
    funext u
    unfold g
    rw [mul_pow, Real.sq_sqrt hs.le]
    rcases eq_or_ne u 0 with rfl | hu
    · simp
    · field_simp
  rw [e]
  refine ⟨(g_integrable.comp_mul_left' hr.ne').const_mul s, ?_⟩
  rw [integral_const_mul, Measure.integral_comp_mul_left, abs_of_pos (inv_pos.2 hr), smul_eq_mul, ← mul_assoc]
  congr 1
  rw [← div_eq_mul_inv, div_eq_iff hr.ne', Real.mul_self_sqrt hs.le]

/-- Schoenberg: if `ψ` is conditionally negative definite then `e^{-ψ}` is positive semidefinite. -/
theorem schoenberg {ψ : Fin n → Fin n → ℝ} (hsym : ∀ i j, ψ i j = ψ j i)
    (h : ∀ c : Fin n → ℝ, ∑ i, c i = 0 → ∑ i, ∑ j, c i * c j * ψ i j ≤ 0) : Pos fun i j => Real.exp (-ψ i j) := by
  rcases Nat.eq_zero_or_pos n with h0 | hpos
  · subst h0
    exact ⟨fun i => i.elim0, fun c => by simp⟩
  obtain ⟨o, -⟩ : ∃ o : Fin n, o = o := ⟨⟨0, hpos⟩, rfl⟩
  have hA : Pos fun i j => ψ i o + ψ o j - ψ i j - ψ o o := by
    refine ⟨fun i j => by dsimp only; rw [hsym i o, hsym o j, hsym i j]; ring, fun c => ?_⟩
    obtain ⟨S, hS⟩ : ∃ S, S = ∑ i, c i := ⟨_, rfl⟩
    have hsing : ∀ f : Fin n → ℝ, ∑ i, (Pi.single o S : Fin n → ℝ) i * f i = S * f o := fun f => by
      rw [Finset.sum_eq_single o]
      · simp
      · intro i _ hi; simp [hi]
      · simp
    have hz : ∑ i, (c i - (Pi.single o S : Fin n → ℝ) i) = 0 := by
      have := hsing fun _ => 1
      simp only [mul_one] at this
      rw [Finset.sum_sub_distrib, this, hS, sub_self]
    have hq := h _ hz
    have e1 : ∑ i, ∑ j, (c i - (Pi.single o S : Fin n → ℝ) i) * (c j - (Pi.single o S : Fin n → ℝ) j) * ψ i j =
        ∑ i, ∑ j, c i * c j * ψ i j - S * ∑ i, c i * ψ i o - S * ∑ j, c j * ψ o j + S * S * ψ o o := by
      have inner : ∀ i, ∑ j, (c i - (Pi.single o S : Fin n → ℝ) i) * (c j - (Pi.single o S : Fin n → ℝ) j) * ψ i j =
          (c i - (Pi.single o S : Fin n → ℝ) i) * (∑ j, c j * ψ i j - S * ψ i o) := by
        intro i
        rw [← hsing fun j => ψ i j, ← Finset.sum_sub_distrib, Finset.mul_sum]
        exact Finset.sum_congr rfl fun j _ => by ring
      rw [Finset.sum_congr rfl fun i _ => inner i]
      simp only [sub_mul, Finset.sum_sub_distrib]
      rw [hsing fun i => ∑ j, c j * ψ i j - S * ψ i o]
      have : ∑ i, c i * (∑ j, c j * ψ i j - S * ψ i o) = ∑ i, ∑ j, c i * c j * ψ i j - S * ∑ i, c i * ψ i o := by
        rw [Finset.mul_sum, ← Finset.sum_sub_distrib]
        refine Finset.sum_congr rfl fun i _ => ?_
        rw [mul_sub, Finset.mul_sum]
        congr 1
        · exact Finset.sum_congr rfl fun j _ => by ring
        · ring
      rw [this]
      ring
    have e2 : ∑ i, ∑ j, c i * c j * (ψ i o + ψ o j - ψ i j - ψ o o) =
        S * ∑ i, c i * ψ i o + S * ∑ j, c j * ψ o j - ∑ i, ∑ j, c i * c j * ψ i j - S * S * ψ o o := by
      have t1 : ∑ i, ∑ j, c i * c j * ψ i o = S * ∑ i, c i * ψ i o := by
        rw [hS, mul_comm, Finset.sum_mul_sum]
        exact Finset.sum_congr rfl fun i _ => Finset.sum_congr rfl fun j _ => by ring
      have t2 : ∑ i, ∑ j, c i * c j * ψ o j = S * ∑ j, c j * ψ o j := by
        rw [hS, Finset.sum_mul_sum]
        exact Finset.sum_congr rfl fun i _ => Finset.sum_congr rfl fun j _ => by ring
      have t3 : ∑ i, ∑ j, c i * c j * ψ o o = S * S * ψ o o := by
        rw [hS, Finset.sum_mul_sum, Finset.sum_mul]
        exact Finset.sum_congr rfl fun i _ => by rw [Finset.sum_mul]
      rw [← t1, ← t2, ← t3, ← Finset.sum_add_distrib, ← Finset.sum_sub_distrib, ← Finset.sum_sub_distrib]
      refine Finset.sum_congr rfl fun i _ => ?_
      rw [← Finset.sum_add_distrib, ← Finset.sum_sub_distrib, ← Finset.sum_sub_distrib]
      exact Finset.sum_congr rfl fun j _ => by ring
    rw [e1] at hq
    rw [e2]
    linarith
  have := (hA.exp.scale fun i => Real.exp (-ψ i o)).smul (b := Real.exp (ψ o o)) (Real.exp_pos _).le
  convert! this using 3 with i j
  rw [← Real.exp_add, ← Real.exp_add, ← Real.exp_add, hsym j o]
  congr 1
  ring

/-- `e^{-√(s + v)}` -/
theorem expSqrt {s : Fin n → Fin n → ℝ} (h0 : ∀ i j, 0 ≤ s i j) (hg : ∀ τ : ℝ, 0 ≤ τ → Pos fun i j => Real.exp (-(τ * s i j))) {v : ℝ} (hv : 0 ≤ v) :
    Pos fun i j => Real.exp (-√(s i j + v)) := by
  have hsym : ∀ i j, s i j = s j i := fun i j => by
    have := (hg 1 zero_le_one).1 i j
    have := Real.exp_injective this
    linarith
  refine schoenberg (fun i j => by rw [hsym i j]) fun c hc => ?_
  have hC := g_integral_pos
  have hmix : ∀ i j, √(s i j + v) * ∫ u, g u = ∫ u : ℝ, (1 - Real.exp (-((s i j + v) * u ^ 2))) / u ^ 2 := fun i j =>
    (sqrt_mix (add_nonneg (h0 i j) hv)).2.symm
  have hint : ∀ i j, Integrable fun u : ℝ => c i * c j * ((1 - Real.exp (-((s i j + v) * u ^ 2))) / u ^ 2) := fun i j =>
    (sqrt_mix (add_nonneg (h0 i j) hv)).1.const_mul _
  have e : (∑ i, ∑ j, c i * c j * √(s i j + v)) * ∫ u, g u =
      ∫ u : ℝ, ∑ i, ∑ j, c i * c j * ((1 - Real.exp (-((s i j + v) * u ^ 2))) / u ^ 2) := by
    rw [integral_finsetSum _ fun i _ => integrable_finsetSum _ fun j _ => hint i j, Finset.sum_mul]
    refine Finset.sum_congr rfl fun i _ => ?_
    rw [integral_finsetSum _ fun j _ => hint i j, Finset.sum_mul]
    refine Finset.sum_congr rfl fun j _ => ?_
    rw [integral_const_mul, mul_assoc, hmix]
  have hneg : ∫ u : ℝ, ∑ i, ∑ j, c i * c j * ((1 - Real.exp (-((s i j + v) * u ^ 2))) / u ^ 2) ≤ 0 := by
    refine integral_nonpos fun u => ?_
    have e1 : ∑ i, ∑ j, c i * c j * ((1 - Real.exp (-((s i j + v) * u ^ 2))) / u ^ 2) =
        ((∑ i, c i) * (∑ j, c j) - Real.exp (-(v * u ^ 2)) * ∑ i, ∑ j, c i * c j * Real.exp (-(u ^ 2 * s i j))) / u ^ 2 := by
      rw [Finset.sum_mul_sum, Finset.mul_sum, ← Finset.sum_sub_distrib, Finset.sum_div]
      refine Finset.sum_congr rfl fun i _ => ?_
      rw [Finset.mul_sum, ← Finset.sum_sub_distrib, Finset.sum_div]
      refine Finset.sum_congr rfl fun j _ => ?_
      have : Real.exp (-((s i j + v) * u ^ 2)) = Real.exp (-(v * u ^ 2)) * Real.exp (-(u ^ 2 * s i j)) := by
        rw [← Real.exp_add]; congr 1; ring
      rw [this]; ring
    rw [e1, hc, zero_mul, zero_sub]
    refine div_nonpos_of_nonpos_of_nonneg ?_ (sq_nonneg u)
    have := (hg (u ^ 2) (sq_nonneg u)).2 c
    have := mul_nonneg (Real.exp_pos (-(v * u ^ 2))).le this
    linarith
  rw [← e] at hneg
  by_contra hlt
  push Not at hlt
  exact absurd (mul_pos hlt hC) (not_lt.2 hneg)

/-- `(1 + √s) e^{-√s} = ½ ∫₀^∞ e^{-√(s + v)} dv` -/
theorem matern_mix {s : ℝ} (hs : 0 ≤ s) : IntegrableOn (fun v => Real.exp (-√(s + v))) (Ioi 0) ∧
    ∫ v in Ioi (0 : ℝ), Real.exp (-√(s + v)) = 2 * ((1 + √s) * Real.exp (-√s)) := by
  have hcont : ContinuousWithinAt (fun v => -(2 * ((1 + √(s + v)) * Real.exp (-√(s + v))))) (Ici 0) 0 := by
    refine Continuous.continuousWithinAt ?_
    fun_prop
  have hder : ∀ v ∈ Ioi (0 : ℝ), HasDerivAt (fun v => -(2 * ((1 + √(s + v)) * Real.exp (-√(s + v))))) (Real.exp (-√(s + v))) v := by
    intro v hv
    have hp : 0 < s + v := by have : (0 : ℝ) < v := hv; linarith
    have h1 : HasDerivAt (fun v => √(s + v)) (1 / (2 * √(s + v))) v := by
      have h2 : HasDerivAt (fun v : ℝ => s + v) 1 v := (hasDerivAt_id v).const_add s
      have := h2.sqrt hp.ne'
      exact this
    have h2 := ((h1.const_add 1).mul (h1.neg.exp)).const_mul 2 |>.neg
    refine h2.congr_deriv ?_
    have : √(s + v) ≠ 0 := (Real.sqrt_pos.2 hp).ne'
    simp only [Pi.neg_apply]
    field_simp
    ring
  have hlim : Tendsto (fun v => -(2 * ((1 + √(s + v)) * Real.exp (-√(s + v))))) atTop (nhds 0) := by
    have ht : Tendsto (fun v => √(s + v)) atTop atTop := Real.tendsto_sqrt_atTop.comp (tendsto_atTop_add_const_left _ s tendsto_id)
    have h1 : Tendsto (fun x : ℝ => x ^ 1 * Real.exp (-x)) atTop (nhds 0) := Real.tendsto_pow_mul_exp_neg_atTop_nhds_zero 1
    have h0 : Tendsto (fun x : ℝ => Real.exp (-x)) atTop (nhds 0) := Real.tendsto_exp_neg_atTop_nhds_zero
    have h2 : Tendsto (fun x : ℝ => -(2 * ((1 + x) * Real.exp (-x)))) atTop (nhds 0) := by
      have := ((h0.add h1).const_mul 2).neg
      simp only [add_zero, mul_zero, neg_zero] at this
      refine this.congr fun x => ?_
      ring
    exact h2.comp ht
  have hnn : ∀ v ∈ Ioi (0 : ℝ), 0 ≤ Real.exp (-√(s + v)) := fun v _ => (Real.exp_pos _).le
  refine ⟨integrableOn_Ioi_deriv_of_nonneg hcont hder hnn hlim, ?_⟩
  rw [integral_Ioi_of_hasDerivAt_of_nonneg hcont hder hnn hlim]
  simp

theorem matern_pos {s : Fin n → Fin n → ℝ} (h0 : ∀ i j, 0 ≤ s i j) (hg : ∀ τ : ℝ, 0 ≤ τ → Pos fun i j => Real.exp (-(τ * s i j))) :
    Pos fun i j => (1 + √(s i j)) * Real.exp (-√(s i j)) := by
  have hsym : ∀ i j, s i j = s j i := fun i j => by
    have := (hg 1 zero_le_one).1 i j
    have := Real.exp_injective this
    linarith
  refine ⟨fun i j => by dsimp only; rw [hsym i j], fun c => ?_⟩
  have hint : ∀ i j, Integrable (fun v => c i * c j * Real.exp (-√(s i j + v))) (volume.restrict (Ioi 0)) := fun i j =>
    (matern_mix (h0 i j)).1.integrable.const_mul _
  have e : 2 * ∑ i, ∑ j, c i * c j * ((1 + √(s i j)) * Real.exp (-√(s i j))) =
      ∫ v in Ioi (0 : ℝ), ∑ i, ∑ j, c i * c j * Real.exp (-√(s i j + v)) := by
    rw [integral_finsetSum _ fun i _ => integrable_finsetSum _ fun j _ => hint i j, Finset.mul_sum]
    refine Finset.sum_congr rfl fun i _ => ?_
    rw [integral_finsetSum _ fun j _ => hint i j, Finset.mul_sum]
    refine Finset.sum_congr rfl fun j _ => ?_
    rw [integral_const_mul, (matern_mix (h0 i j)).2]
    ring
  have hnn : 0 ≤ ∫ v in Ioi (0 : ℝ), ∑ i, ∑ j, c i * c j * Real.exp (-√(s i j + v)) :=
    setIntegral_nonneg measurableSet_Ioi fun v hv => (expSqrt h0 hg (le_of_lt hv)).2 c
  linarith

end PyPDP.Matern
