/-
C15, C16: all minimisers of CrossInTray and StyblinskiTang.
-/
import Verif.Props.Synthetic
import Mathlib.Topology.Order.IntermediateValue
import Mathlib.Topology.Algebra.Polynomial

namespace PyPDP
open Spec

/-! ### C16 -/

/-- the left critical point of the one-dimensional term -/
theorem stTerm_critical : ∃ a : ℝ, -2.903535 < a ∧ a < -2.903534 ∧ 4 * a ^ 3 - 32 * a + 5 = 0 := by
  have hc : ContinuousOn (fun t : ℝ => 4 * t ^ 3 - 32 * t + 5) (Set.Icc (-2.903535) (-2.903534)) := by fun_prop
  have h : (0 : ℝ) ∈ Set.Ioo ((fun t : ℝ => 4 * t ^ 3 - 32 * t + 5) (-2.903535)) ((fun t : ℝ => 4 * t ^ 3 - 32 * t + 5) (-2.903534)) := by
    constructor <;> norm_num
  obtain ⟨a, ⟨h1, h2⟩, h3⟩ := intermediate_value_Ioo (by norm_num) hc h
  exact ⟨a, h1, h2, h3⟩

theorem stTerm_above {a : ℝ} (ha : a < -2.903534) (hr : 4 * a ^ 3 - 32 * a + 5 = 0) (t : ℝ) :
    stTerm a ≤ stTerm t ∧ (stTerm t = stTerm a ↔ t = a) := by
  have e : stTerm t - stTerm a = (t - a) ^ 2 * ((t + a) ^ 2 + (2 * a ^ 2 - 16)) / 2 := by
    unfold stTerm
    have : (4 * a ^ 3 - 32 * a + 5) * (t - a) = 0 := by rw [hr, zero_mul]
    linear_combination (1 / 2) * this
  have hpos : 0 < (t + a) ^ 2 + (2 * a ^ 2 - 16) := by nlinarith [sq_nonneg (t + a)]
  have hnn : 0 ≤ (t - a) ^ 2 * ((t + a) ^ 2 + (2 * a ^ 2 - 16)) := mul_nonneg (sq_nonneg _) hpos.le
  refine ⟨by linarith, fun h => ?_, fun h => by rw [h]⟩
  have h0 : (t - a) ^ 2 * ((t + a) ^ 2 + (2 * a ^ 2 - 16)) = 0 := by linarith
  rcases mul_eq_zero.1 h0 with h1 | h1
  · linarith [pow_eq_zero_iff (two_ne_zero) |>.1 h1]
  · exact absurd h1 hpos.ne'

/-- **C16** the global minimum, exactly: there is one number `a` between -2.903535 and -2.903534 such that in every space the value is
smallest exactly when every coordinate is `a`; the smallest value is `d` times a number between -39.16617 and -39.16616. -/
theorem C16_unique_minimum : ∃ a m : ℝ, -2.903535 < a ∧ a < -2.903534 ∧ -39.16617 ≤ m ∧ m < -39.16616 ∧
    ∀ (cs : ConfigSpace ℝ) (ρ : Assignment), ∃ v, styblinskiTangValue cs (assignConfig cs ρ) = .ok v ∧ m * cs.length ≤ v ∧
      (v = m * cs.length ↔ ∀ hp ∈ cs, ρ hp.name = a) := by
  obtain ⟨a, h1, h2, hr⟩ := stTerm_critical
  have hm : stTerm a < -39.16616 := by
    have := (stTerm_above h2 hr (-2.903534)).1
    have h : stTerm (-2.903534) < -39.16616 := by unfold stTerm; norm_num
    linarith
  refine ⟨a, stTerm a, h1, h2, stTerm_bound a, hm, fun cs ρ => ⟨_, st_value ρ fun _ h => h, ?_⟩⟩
  induction cs with
  | nil => simp
  | cons hp cs ih =>
    obtain ⟨ih1, ih2⟩ := ih
    obtain ⟨k1, k2⟩ := stTerm_above h2 hr (ρ hp.name)
    simp only [List.map_cons, List.sum_cons, List.length_cons, Nat.cast_add, Nat.cast_one, List.mem_cons, forall_eq_or_imp]
    refine ⟨by linarith, fun h => ?_, fun ⟨e1, e2⟩ => ?_⟩
    · have e1 : stTerm (ρ hp.name) = stTerm a := by linarith
      exact ⟨k2.1 e1, ih2.1 (by linarith)⟩
    · rw [ih2.2 e2, k2.2 e1]; ring

/-! ### C15 -/

/-- one factor: every other point is strictly below the maximiser. -/
theorem cross_factor_lt {x : ℝ} (hx : 0 ≤ x) (hne : x ≠ crossA) :
    |Real.sin x| * Real.exp (-(crossC * x)) < Real.sin crossA * Real.exp (-(crossC * crossA)) := by
  have hc := crossC_pos
  have hs := sin_crossA_pos
  suffices h : |Real.sin x| < Real.sin crossA * Real.exp (crossC * (x - crossA)) by
    calc |Real.sin x| * Real.exp (-(crossC * x))
        < Real.sin crossA * Real.exp (crossC * (x - crossA)) * Real.exp (-(crossC * x)) :=
          mul_lt_mul_of_pos_right h (Real.exp_pos _)
      _ = Real.sin crossA * Real.exp (-(crossC * crossA)) := by
          rw [mul_assoc, ← Real.exp_add]; congr 2; ring
  obtain ⟨h, rfl⟩ : ∃ h, x = crossA + h := ⟨x - crossA, by ring⟩
  have hh : h ≠ 0 := fun h0 => hne (by rw [h0, add_zero])
  rw [add_sub_cancel_left]
  have hadd : Real.sin (crossA + h) = Real.sin crossA * (Real.cos h + crossC * Real.sin h) := by
    rw [Real.sin_add, cos_crossA]; ring
  rw [hadd, abs_mul, abs_of_pos hs]
  apply mul_lt_mul_of_pos_left _ hs
  have hexp := Real.add_one_lt_exp (mul_ne_zero hc.ne' hh)
  rcases le_total 0 h with h0 | h0
  · have h1 : |Real.sin h| ≤ h := by
      rw [abs_le]; constructor
      · have := Real.sin_le h0
        have := Real.neg_one_le_sin h
        rcases le_total h Real.pi with hp | hp
        · linarith [Real.sin_nonneg_of_nonneg_of_le_pi h0 hp]
        · linarith [Real.pi_gt_three]
      · exact Real.sin_le h0
    calc |Real.cos h + crossC * Real.sin h| ≤ |Real.cos h| + |crossC * Real.sin h| := abs_add_le _ _
      _ ≤ 1 + crossC * h := by
          rw [abs_mul, abs_of_pos hc]
          have := Real.abs_cos_le_one h
          nlinarith
      _ < _ := by linarith
  · obtain ⟨k, rfl⟩ : ∃ k, h = -k := ⟨-h, by ring⟩
    have hk0 : 0 ≤ k := by linarith
    have hka : k ≤ crossA := by linarith
    have hkpi : k < Real.pi / 2 := lt_of_le_of_lt hka crossA_bounds.2
    have hnn : 0 ≤ Real.cos (-k) + crossC * Real.sin (-k) := by
      have : 0 ≤ Real.sin (crossA + -k) :=
        Real.sin_nonneg_of_nonneg_of_le_pi hx (by have := crossA_bounds.2; have := Real.pi_pos; linarith)
      rw [hadd] at this
      exact nonneg_of_mul_nonneg_right this hs
    rw [abs_of_nonneg hnn, Real.cos_neg, Real.sin_neg]
    have h1 : k * Real.cos k ≤ Real.sin k := by
      rcases hk0.eq_or_lt with rfl | hpos
      · simp
      · have := Real.lt_tan hpos hkpi
        rw [Real.tan_eq_sin_div_cos, lt_div_iff₀ (Real.cos_pos_of_mem_Ioo ⟨by linarith, hkpi⟩)] at this
        exact this.le
    have hck : crossC * k ≤ 1 := by
      have hsq : 1 ≤ Real.sqrt 2 := Real.one_le_sqrt.2 (by norm_num)
      have : crossC ≤ 1 / Real.pi := by
        unfold crossC
        apply one_div_le_one_div_of_le Real.pi_pos
        nlinarith [Real.pi_pos]
      have h2 : crossC * k ≤ 1 / Real.pi * (Real.pi / 2) := by
        apply mul_le_mul this hkpi.le hk0 (by positivity)
      have h3 : 1 / Real.pi * (Real.pi / 2) = 1 / 2 := by field_simp
      linarith
    have hcos1 := Real.cos_le_one k
    have : crossC * (k - Real.sin k) ≤ 1 - Real.cos k := by
      have : crossC * (k - Real.sin k) ≤ crossC * (k * (1 - Real.cos k)) :=
        mul_le_mul_of_nonneg_left (by linarith) hc.le
      have h5 : crossC * (k * (1 - Real.cos k)) = (crossC * k) * (1 - Real.cos k) := by ring
      nlinarith
    nlinarith

theorem cross_core_lt {x y : ℝ} (hne : ¬ (|x| = crossA ∧ |y| = crossA)) :
    abs (Real.sin x * Real.sin y) * Real.exp (-(Real.sqrt (x ^ 2 + y ^ 2) / Real.pi)) <
      (Real.sin crossA * Real.exp (-(crossC * crossA))) ^ 2 := by
  have h1 := cross_factor (abs_nonneg x)
  have h2 := cross_factor (abs_nonneg y)
  have g1 : |x| ≠ crossA → _ := cross_factor_lt (abs_nonneg x)
  have g2 : |y| ≠ crossA → _ := cross_factor_lt (abs_nonneg y)
  have hs : ∀ t : ℝ, abs (Real.sin (abs t)) = abs (Real.sin t) := by
    intro t
    rcases abs_cases t with ⟨h, _⟩ | ⟨h, _⟩ <;> rw [h]
    rw [Real.sin_neg, abs_neg]
  rw [hs] at h1 h2 g1 g2
  have hexp : Real.exp (-(Real.sqrt (x ^ 2 + y ^ 2) / Real.pi)) ≤
      Real.exp (-(crossC * |x|)) * Real.exp (-(crossC * |y|)) := by
    rw [← Real.exp_add, Real.exp_le_exp]
    have : crossC * (|x| + |y|) ≤ Real.sqrt (x ^ 2 + y ^ 2) / Real.pi := by
      have h3 : crossC * (|x| + |y|) = (|x| + |y|) / Real.sqrt 2 / Real.pi := by
        unfold crossC; field_simp
      rw [h3]
      exact div_le_div_of_nonneg_right (sqrt_sq_add_ge x y) Real.pi_pos.le
    linarith
  have hM : 0 < Real.sin crossA * Real.exp (-(crossC * crossA)) := mul_pos sin_crossA_pos (Real.exp_pos _)
  have hfx : 0 ≤ |Real.sin x| * Real.exp (-(crossC * |x|)) := by positivity
  have hfy : 0 ≤ |Real.sin y| * Real.exp (-(crossC * |y|)) := by positivity
  calc abs (Real.sin x * Real.sin y) * Real.exp (-(Real.sqrt (x ^ 2 + y ^ 2) / Real.pi))
      ≤ abs (Real.sin x * Real.sin y) * (Real.exp (-(crossC * |x|)) * Real.exp (-(crossC * |y|))) :=
        mul_le_mul_of_nonneg_left hexp (abs_nonneg _)
    _ = (|Real.sin x| * Real.exp (-(crossC * |x|))) * (|Real.sin y| * Real.exp (-(crossC * |y|))) := by
        rw [abs_mul]; ring
    _ < (Real.sin crossA * Real.exp (-(crossC * crossA))) * (Real.sin crossA * Real.exp (-(crossC * crossA))) := by
        by_cases hx : |x| = crossA
        · have := g2 fun hy => hne ⟨hx, hy⟩
          exact lt_of_le_of_lt (mul_le_mul_of_nonneg_right h1 hfy) (mul_lt_mul_of_pos_left this hM)
        · exact lt_of_le_of_lt (mul_le_mul_of_nonneg_left h2 hfx) (mul_lt_mul_of_pos_right (g1 hx) hM)
    _ = _ := by ring

/-- **C15** the minimisers on the default domain are exactly the four points `(±a, ±a)`, `a = arctan (π √2)`. -/
theorem C15_minimisers {x y v m : ℝ} (hx : |x| ≤ 10) (hy : |y| ≤ 10) (hv : crossInTrayValue (ndConfig [x, y]) = .ok v)
    (hm : crossInTrayValue (ndConfig [Real.arctan (Real.pi * Real.sqrt 2), Real.arctan (Real.pi * Real.sqrt 2)]) = .ok m) :
    v = m ↔ |x| = Real.arctan (Real.pi * Real.sqrt 2) ∧ |y| = Real.arctan (Real.pi * Real.sqrt 2) := by
  change crossInTrayValue (ndConfig [crossA, crossA]) = .ok m at hm
  change v = m ↔ |x| = crossA ∧ |y| = crossA
  constructor
  · intro hvm
    by_contra hne
    have ha : |crossA| ≤ 10 := by
      rw [abs_of_pos crossA_bounds.1]
      have := crossA_bounds.2; have := Real.pi_lt_four; linarith
    rw [cross_value] at hv hm
    have hv' := Except.ok.inj hv
    have hm' := Except.ok.inj hm
    rw [cross_inner_abs hx hy] at hv'
    rw [cross_inner_abs ha ha] at hm'
    have hr : Real.sqrt (crossA ^ 2 + crossA ^ 2) / Real.pi = 2 * (crossC * crossA) := by
      have h2 : Real.sqrt 2 * Real.sqrt 2 = 2 := Real.mul_self_sqrt (by norm_num)
      have : Real.sqrt (crossA ^ 2 + crossA ^ 2) = Real.sqrt 2 * crossA := by
        rw [← two_mul, Real.sqrt_mul (by norm_num), Real.sqrt_sq crossA_bounds.1.le]
      rw [this]; unfold crossC
      have hpi := Real.pi_pos.ne'
      have hs2 : Real.sqrt 2 ≠ 0 := by positivity
      rw [div_eq_iff hpi]
      calc Real.sqrt 2 * crossA = (Real.sqrt 2 * Real.sqrt 2) * crossA / Real.sqrt 2 := by field_simp
        _ = 2 * (1 / (Real.pi * Real.sqrt 2) * crossA) * Real.pi := by rw [h2]; field_simp
    have e : ∀ r : ℝ, Real.exp (100 - r) = Real.exp 100 * Real.exp (-r) := by
      intro r; rw [← Real.exp_add]; congr 1
    have h := cross_core_lt hne
    have e2 : (Real.sin crossA * Real.exp (-(crossC * crossA))) ^ 2 =
        Real.sin crossA * Real.sin crossA * Real.exp (-(2 * (crossC * crossA))) := by
      rw [mul_pow, ← Real.exp_nat_mul]; push_cast; ring_nf
    rw [e2] at h
    rw [e, abs_mul _ (Real.exp 100 * _), abs_of_pos (mul_pos (Real.exp_pos 100) (Real.exp_pos _))] at hv' hm'
    rw [hr, abs_of_pos (mul_pos sin_crossA_pos sin_crossA_pos)] at hm'
    have hlt : |Real.sin x * Real.sin y| * (Real.exp 100 * Real.exp (-(Real.sqrt (x ^ 2 + y ^ 2) / Real.pi))) + 1 <
        Real.sin crossA * Real.sin crossA * (Real.exp 100 * Real.exp (-(2 * (crossC * crossA)))) + 1 := by
      have := mul_lt_mul_of_pos_left h (Real.exp_pos 100)
      nlinarith
    have := Real.rpow_lt_rpow (by positivity) hlt (by norm_num : (0 : ℝ) < 0.1)
    rw [← hv', ← hm'] at hvm
    linarith
  · rintro ⟨h1, h2⟩
    have key : ∀ t s : ℝ, crossInTrayValue (ndConfig [|t|, |s|]) = crossInTrayValue (ndConfig [t, s]) := by
      intro t s
      rcases abs_cases t with ⟨e1, _⟩ | ⟨e1, _⟩ <;> rcases abs_cases s with ⟨e2, _⟩ | ⟨e2, _⟩ <;> rw [e1, e2]
      · exact (C15_symmetric t s).2.1
      · exact (C15_symmetric t s).1
      · rw [(C15_symmetric t (-s)).1]; exact (C15_symmetric t s).2.1
    rw [← key, h1, h2] at hv
    exact Except.ok.inj (hv.symm.trans hm)

end PyPDP
