/-
C15: where the minimum of CrossInTray lies and how large it is, to the documented number of digits.
-/
import Verif.Props.SyntheticExact
import Mathlib.Analysis.Real.Pi.Bounds
import Mathlib.Analysis.Complex.ExponentialBounds

namespace PyPDP
open Spec

theorem hasDerivAt_arctan_sub (q q' : ℝ → ℝ) (hq : ∀ t, HasDerivAt q (q' t) t) (t : ℝ) : HasDerivAt (fun t => Real.arctan t - q t) (1 / (1 + t ^ 2) - q' t) t :=
  (Real.hasDerivAt_arctan t).sub (hq t)

/-- the first terms of the series bound the arc tangent -/
theorem arctan_series {t : ℝ} (ht : 0 ≤ t) :
    t - t ^ 3 / 3 + t ^ 5 / 5 - t ^ 7 / 7 ≤ Real.arctan t ∧ Real.arctan t ≤ t - t ^ 3 / 3 + t ^ 5 / 5 := by
  have d1 : ∀ t : ℝ, HasDerivAt (fun t : ℝ => t - t ^ 3 / 3 + t ^ 5 / 5) (1 - t ^ 2 + t ^ 4) t := by
    intro t
    have := (((hasDerivAt_id' t).fun_sub ((hasDerivAt_pow 3 t).div_const 3)).fun_add ((hasDerivAt_pow 5 t).div_const 5))
    refine this.congr_deriv ?_
    push_cast; ring
  have d2 : ∀ t : ℝ, HasDerivAt (fun t : ℝ => t - t ^ 3 / 3 + t ^ 5 / 5 - t ^ 7 / 7) (1 - t ^ 2 + t ^ 4 - t ^ 6) t := by
    intro t
    have := (d1 t).fun_sub ((hasDerivAt_pow 7 t).div_const 7)
    refine this.congr_deriv ?_
    push_cast; ring
  constructor
  · have m : Monotone fun t : ℝ => Real.arctan t - (t - t ^ 3 / 3 + t ^ 5 / 5 - t ^ 7 / 7) := by
      refine monotone_of_hasDerivAt_nonneg (hasDerivAt_arctan_sub _ _ d2) fun t => ?_
      have : 1 / (1 + t ^ 2) - (1 - t ^ 2 + t ^ 4 - t ^ 6) = t ^ 8 / (1 + t ^ 2) := by field_simp; ring
      show 0 ≤ 1 / (1 + t ^ 2) - (1 - t ^ 2 + t ^ 4 - t ^ 6)
      rw [this]; positivity
    have := m ht
    simp only [Real.arctan_zero] at this
    norm_num at this
    linarith
  · have m : Antitone fun t : ℝ => Real.arctan t - (t - t ^ 3 / 3 + t ^ 5 / 5) := by
      refine antitone_of_hasDerivAt_nonpos (hasDerivAt_arctan_sub _ _ d1) fun t => ?_
      have : 1 / (1 + t ^ 2) - (1 - t ^ 2 + t ^ 4) = -(t ^ 6 / (1 + t ^ 2)) := by field_simp; ring
      show 1 / (1 + t ^ 2) - (1 - t ^ 2 + t ^ 4) ≤ 0
      rw [this]
      have : 0 ≤ t ^ 6 / (1 + t ^ 2) := by positivity
      linarith
    have := m ht
    simp only [Real.arctan_zero] at this
    norm_num at this
    linarith

theorem crossC_digits : 0.225079 < crossC ∧ crossC < 0.2250792 := by
  have h1 := Real.pi_gt_d6
  have h2 := Real.pi_lt_d6
  have s1 : 1.4142135 < Real.sqrt 2 := Real.lt_sqrt_of_sq_lt (by norm_num)
  have s2 : Real.sqrt 2 < 1.4142136 := (Real.sqrt_lt' (by norm_num)).2 (by norm_num)
  have p1 : 3.141592 * 1.4142135 < Real.pi * Real.sqrt 2 := mul_lt_mul'' h1 s1 (by norm_num) (by norm_num)
  have p2 : Real.pi * Real.sqrt 2 < 3.141593 * 1.4142136 := mul_lt_mul'' h2 s2 Real.pi_pos.le (Real.sqrt_nonneg _)
  unfold crossC
  constructor
  · rw [lt_div_iff₀ (by positivity)]; nlinarith
  · rw [div_lt_iff₀ (by positivity)]; nlinarith

theorem crossA_eq : crossA = Real.pi / 2 - Real.arctan crossC := by
  have hp : 0 < Real.pi * Real.sqrt 2 := by positivity
  have := Real.arctan_inv_of_pos hp
  unfold crossA crossC
  rw [one_div, this]; ring

theorem crossA_digits : 1.3494 < crossA ∧ crossA < 1.34941 := by
  obtain ⟨c1, c2⟩ := crossC_digits
  obtain ⟨b1, b2⟩ := arctan_series crossC_pos.le
  have h1 := Real.pi_gt_d6
  have h2 := Real.pi_lt_d6
  rw [crossA_eq]
  have u : ∀ n : ℕ, crossC ^ n ≤ 0.2250792 ^ n := fun n => pow_le_pow_left₀ crossC_pos.le c2.le n
  have l : ∀ n : ℕ, (0.225079 : ℝ) ^ n ≤ crossC ^ n := fun n => pow_le_pow_left₀ (by norm_num) c1.le n
  have u5 := u 5; have u7 := u 7; have u3 := u 3
  have l5 := l 5; have l7 := l 7; have l3 := l 3
  norm_num at u5 u7 u3 l5 l7 l3 ⊢
  constructor <;> linarith

theorem cross_exponent : 0.607443 < 2 * (crossC * crossA) ∧ 2 * (crossC * crossA) < 0.607449 := by
  obtain ⟨c1, c2⟩ := crossC_digits
  obtain ⟨a1, a2⟩ := crossA_digits
  have h1 : 0.225079 * 1.3494 < crossC * crossA := mul_lt_mul'' c1 a1 (by norm_num) (by norm_num)
  have h2 : crossC * crossA < 0.2250792 * 1.34941 := mul_lt_mul'' c2 a2 crossC_pos.le crossA_bounds.1.le
  constructor
  · norm_num at h1 ⊢; linarith
  · norm_num at h2 ⊢; linarith

theorem exp_digits : 1.4807533 < Real.exp 0.392551 ∧ Real.exp 0.392557 < 1.4807623 := by
  have b1 := Real.exp_bound (x := 0.392551) (by rw [abs_of_pos] <;> norm_num) (n := 9) (by norm_num)
  have b2 := Real.exp_bound (x := 0.392557) (by rw [abs_of_pos] <;> norm_num) (n := 9) (by norm_num)
  rw [abs_le] at b1 b2
  simp only [Finset.sum_range_succ, Finset.sum_range_zero, Nat.factorial] at b1 b2
  rw [abs_of_pos (by norm_num)] at b1 b2
  constructor
  · have := b1.1; norm_num at this ⊢; linarith
  · have := b2.2; norm_num at this ⊢; linarith

/-- the number under the root -/
theorem cross_radicand : 20626.11 ^ 10 < Real.sin crossA * Real.sin crossA * Real.exp (100 - 2 * (crossC * crossA)) + 1 ∧
    Real.sin crossA * Real.sin crossA * Real.exp (100 - 2 * (crossC * crossA)) + 1 < 20626.13 ^ 10 := by
  obtain ⟨c1, c2⟩ := crossC_digits
  obtain ⟨e1, e2⟩ := cross_exponent
  obtain ⟨x1, x2⟩ := exp_digits
  have hs : Real.sin crossA * Real.sin crossA = 1 / (1 + crossC ^ 2) := by
    have h := Real.sin_sq_add_cos_sq crossA
    rw [cos_crossA] at h
    rw [eq_div_iff (by positivity)]
    linarith
  have q1 : crossC ^ 2 < 0.2250792 ^ 2 := pow_lt_pow_left₀ c2 crossC_pos.le (by norm_num)
  have q2 : (0.225079 : ℝ) ^ 2 < crossC ^ 2 := pow_lt_pow_left₀ c1 (by norm_num) (by norm_num)
  have s1 : 1 / (1 + 0.2250792 ^ 2) < Real.sin crossA * Real.sin crossA := by
    rw [hs]; exact one_div_lt_one_div_of_lt (by positivity) (by linarith)
  have s2 : Real.sin crossA * Real.sin crossA < 1 / (1 + 0.225079 ^ 2) := by
    rw [hs]; exact one_div_lt_one_div_of_lt (by norm_num) (by linarith)
  have hexp : Real.exp (100 - 2 * (crossC * crossA)) = Real.exp 1 ^ 99 * Real.exp (1 - 2 * (crossC * crossA)) := by
    rw [← Real.exp_nat_mul, ← Real.exp_add]; congr 1; push_cast; ring
  have y1 : 1.4807533 < Real.exp (1 - 2 * (crossC * crossA)) := x1.trans (Real.exp_lt_exp.2 (by norm_num at e2 ⊢; linarith))
  have y2 : Real.exp (1 - 2 * (crossC * crossA)) < 1.4807623 := (Real.exp_lt_exp.2 (by norm_num at e1 ⊢; linarith)).trans x2
  have w1 : 2.7182818283 ^ 99 < Real.exp 1 ^ 99 := pow_lt_pow_left₀ Real.exp_one_gt_d9 (by norm_num) (by norm_num)
  have w2 : Real.exp 1 ^ 99 < 2.7182818286 ^ 99 := pow_lt_pow_left₀ Real.exp_one_lt_d9 (Real.exp_pos _).le (by norm_num)
  have z1 := mul_lt_mul'' w1 y1 (by positivity) (by norm_num)
  have z2 := mul_lt_mul'' w2 y2 (by positivity) (Real.exp_pos _).le
  rw [← hexp] at z1 z2
  have t1 := mul_lt_mul'' s1 z1 (by positivity) (by positivity)
  have t2 := mul_lt_mul'' s2 z2 (mul_self_nonneg _) (Real.exp_pos _).le
  constructor
  · refine lt_of_lt_of_le ?_ (add_le_add_left t1.le 1)
    norm_num
  · refine lt_of_le_of_lt (add_le_add_left t2.le 1) ?_
    norm_num

/-- **C15** the minimum, to the documented digits: it lies between -2.062613 and -2.062611, so -2.06261 is the minimum rounded to five digits (and is itself undercut); the
coordinates of the minimisers are between 1.3494 and 1.34941 (the documentation says 1.3491). -/
theorem C15_digits {m : ℝ}
    (hm : crossInTrayValue (ndConfig [Real.arctan (Real.pi * Real.sqrt 2), Real.arctan (Real.pi * Real.sqrt 2)]) = .ok m) :
    -2.062613 < m ∧ m < -2.062611 ∧
    1.3494 < Real.arctan (Real.pi * Real.sqrt 2) ∧ Real.arctan (Real.pi * Real.sqrt 2) < 1.34941 := by
  refine ⟨?_, ?_, crossA_digits⟩
  all_goals
    change crossInTrayValue (ndConfig [crossA, crossA]) = .ok m at hm
    have ha : |crossA| ≤ 10 := by
      rw [abs_of_pos crossA_bounds.1]
      have := crossA_digits.2; linarith
    have hr : Real.sqrt (crossA ^ 2 + crossA ^ 2) / Real.pi = 2 * (crossC * crossA) := by
      have h2 : Real.sqrt 2 * Real.sqrt 2 = 2 := Real.mul_self_sqrt (by norm_num)
      have : Real.sqrt (crossA ^ 2 + crossA ^ 2) = Real.sqrt 2 * crossA := by
        rw [← two_mul, Real.sqrt_mul (by norm_num), Real.sqrt_sq crossA_bounds.1.le]
      rw [this]; unfold crossC
      have hpi := Real.pi_pos.ne'
      have hs2 : Real.sqrt 2 ≠ 0 := by positivity
      rw [div_eq_iff hpi]
      calc Real.sqrt 2 * crossA = (Real.sqrt 2 * Real.sqrt 2) * crossA / Real.sqrt 2 := by field_simp
        _ = 2 * (1 / (Real.pi * Real.sqrt 2) * crossA) * Real.pi := by rw [h2]; field_simp
    rw [cross_value, cross_inner_abs ha ha, hr] at hm
    have hm' := Except.ok.inj hm
    rw [abs_of_pos (mul_pos (mul_pos sin_crossA_pos sin_crossA_pos) (Real.exp_pos _))] at hm'
    obtain ⟨r1, r2⟩ := cross_radicand
    obtain ⟨T, hT⟩ : ∃ T, T = Real.sin crossA * Real.sin crossA * Real.exp (100 - 2 * (crossC * crossA)) + 1 := ⟨_, rfl⟩
    rw [← hT] at hm' r1 r2
    have root : ∀ q : ℝ, 0 ≤ q → (q ^ 10) ^ (0.1 : ℝ) = q := by
      intro q hq
      rw [← Real.rpow_natCast, ← Real.rpow_mul hq]; norm_num
    have u1 := Real.rpow_lt_rpow (by positivity) r1 (z := 0.1) (by norm_num)
    have u2 := Real.rpow_lt_rpow (le_trans (by positivity) r1.le) r2 (z := 0.1) (by norm_num)
    rw [root _ (by norm_num)] at u1 u2
    rw [← hm']
    norm_num at u1 u2 ⊢
    linarith

/-- the documented minimum is undercut, so it is only the rounded minimum -/
example : ∃ x y v, |x| ≤ 10 ∧ |y| ≤ 10 ∧ crossInTrayValue (ndConfig [x, y]) = .ok v ∧ v < -2.06261 := by
  obtain ⟨ha, -, m, -, hm, -⟩ := C15_minimum (x := 0) (y := 0) (by norm_num) (by norm_num)
  exact ⟨_, _, m, ha, ha, hm, (C15_digits hm).2.1.trans (by norm_num)⟩

end PyPDP
