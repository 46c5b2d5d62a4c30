/-
C136: the number of grid steps per axis with floating-point numbers, `int(np.ceil(n ** (1 / d)))` (grid_sampler.py:35).
-/
import Verif.Lemmas.Double
import Verif.Lemmas.Grid
import Verif.Props.GridPoints
import Mathlib.Analysis.Complex.ExponentialBounds

namespace PyPDP
open Spec

/-- there is always a result -/
theorem doubleRoot_exists (d n : Nat) : ∃ k, DoubleRoot d n k := by
  obtain ⟨a, ha⟩ := nearest_exists n
  obtain ⟨q, hq⟩ := nearest_exists (1 / (d : ℝ))
  obtain ⟨x, hx⟩ := nearest_exists (a ^ q)
  exact ⟨_, a, q, x, ha, hq, hx, rfl⟩

theorem unit_lt : (2 : ℝ) ^ (-53 : ℤ) = 1 / 2 ^ 53 := by rw [zpow_neg]; norm_num

/-- **C136** the rounded root is never too small: for `n ≥ 1` with `n (n + d) < 2^53`, the computed number of steps gives at least `n` grid points. -/
theorem C136_enough {d n k : Nat} (hd : 1 ≤ d) (hn : 1 ≤ n) (hsize : n * (n + d) < 2 ^ 53) (h : DoubleRoot d n k) : n ≤ k ^ d := by
  obtain ⟨a, q, x, ha, hq, hx, rfl⟩ := h
  obtain ⟨u, hu⟩ : ∃ u : ℝ, u = 1 / 2 ^ 53 := ⟨_, rfl⟩
  have hu0 : 0 < u := by rw [hu]; positivity
  have hu1 : u ≤ 1 / 2 := by rw [hu]; norm_num
  have hdr : (1 : ℝ) ≤ d := by exact_mod_cast hd
  have hd0 : (0 : ℝ) < d := by linarith
  have hnr : (1 : ℝ) ≤ n := by exact_mod_cast hn
  have hn0 : (0 : ℝ) < n := by linarith
  obtain rfl : a = n := ha.self (isDouble_nat (by nlinarith))
  have eq1 := hq.error
  rw [unit_lt, ← hu, abs_of_pos (show (0 : ℝ) < 1 / d by positivity)] at eq1
  have hq1 : (1 - u) / d ≤ q := by
    have := (abs_le.1 eq1).2
    have : (1 - u) / d = 1 / d - 1 / d * u := by ring
    linarith
  have hy0 : 0 < (n : ℝ) ^ q := Real.rpow_pos_of_pos hn0 _
  have ex1 := hx.error
  rw [unit_lt, ← hu, abs_of_pos hy0] at ex1
  have hx1 : (n : ℝ) ^ q * (1 - u) ≤ x := by
    have := (abs_le.1 ex1).2
    linarith
  by_contra hc
  push Not at hc
  have hk : x ≤ (⌈x⌉₊ : ℝ) := Nat.le_ceil x
  have hkd : ((⌈x⌉₊ : ℝ)) ^ d ≤ n - 1 := by
    have : ⌈x⌉₊ ^ d + 1 ≤ n := hc
    have : ((⌈x⌉₊ ^ d + 1 : ℕ) : ℝ) ≤ n := by exact_mod_cast this
    push_cast at this
    linarith
  -- n^(1-u) (1-u)^d ≤ n - 1
  have h1 : (n : ℝ) ^ ((1 - u) / d) * (1 - u) ≤ (⌈x⌉₊ : ℝ) :=
    (mul_le_mul_of_nonneg_right (Real.rpow_le_rpow_of_exponent_le hnr hq1) (by linarith)).trans (hx1.trans hk)
  have h1u : 0 ≤ 1 - u := by linarith
  have h2 := (pow_le_pow_left₀ (mul_nonneg (Real.rpow_nonneg hn0.le _) h1u) h1 d).trans hkd
  rw [mul_pow, ← Real.rpow_natCast, ← Real.rpow_mul hn0.le, div_mul_cancel₀ _ hd0.ne', Real.rpow_sub hn0, Real.rpow_one] at h2
  have hN : (n : ℝ) * (n + d) * u < 1 := by
    have : ((n * (n + d) : ℕ) : ℝ) < ((2 ^ 53 : ℕ) : ℝ) := by exact_mod_cast hsize
    push_cast at this
    rw [hu, mul_one_div, div_lt_one (by positivity)]
    linarith
  have hun : u * n < 1 := by nlinarith
  have hp1 : 1 - u * n ≤ 1 / (n : ℝ) ^ u := by
    rw [one_div, ← Real.rpow_neg hn0.le, Real.rpow_def_of_pos hn0]
    have e1 := Real.add_one_le_exp (Real.log n * -u)
    have e2 : Real.log n ≤ n := (Real.log_le_sub_one_of_pos hn0).trans (by linarith)
    nlinarith
  have hp2 : 1 - d * u ≤ (1 - u) ^ d := by
    have := one_add_mul_le_pow (a := -u) (by linarith) d
    have e : (1 : ℝ) + d * -u = 1 - d * u := by ring
    rw [e] at this
    exact this
  have h3 : (n : ℝ) * ((1 - u * n) * (1 - d * u)) ≤ n - 1 := by
    refine le_trans ?_ h2
    rw [div_mul_eq_mul_div, mul_div_assoc, ← one_div_mul_eq_div]
    refine mul_le_mul_of_nonneg_left ?_ hn0.le
    exact (mul_le_mul_of_nonneg_left hp2 (by linarith)).trans (mul_le_mul_of_nonneg_right hp1 (pow_nonneg h1u d))
  nlinarith [mul_nonneg (mul_nonneg hn0.le hu0.le) (mul_nonneg (mul_nonneg hn0.le hd0.le) hu0.le)]

/-- **C136** if the rounded `1 / d` is at most the true one (as for `d` = 1, 2, 3, 4), the computed number of steps is the exact one, the smallest that
gives at least `n` points. -/
theorem C136_root_partial {d n k : Nat} (hd : 1 ≤ d) (hn : 1 ≤ n) (hsize : n * (n + d) < 2 ^ 53) (hround : ∀ q, Nearest (1 / (d : ℝ)) q → q ≤ 1 / d)
    (h : DoubleRoot d n k) : n ≤ k ^ d ∧ (∀ j, n ≤ j ^ d → k ≤ j) ∧ ∀ m, n = m ^ d → k = m := by
  have h0 := C136_enough hd hn hsize h
  obtain ⟨a, q, x, ha, hq, hx, rfl⟩ := h
  have hd0 : (0 : ℝ) < d := by exact_mod_cast hd
  have hnr : (1 : ℝ) ≤ n := by exact_mod_cast hn
  obtain rfl : a = n := ha.self (isDouble_nat (by nlinarith))
  have key : ∀ j, n ≤ j ^ d → ⌈x⌉₊ ≤ j := by
    intro j hj
    by_cases hbig : j ≤ 2 ^ 53
    · refine Nat.ceil_le.2 (hx.le (isDouble_nat hbig) ?_)
      calc (n : ℝ) ^ q ≤ (n : ℝ) ^ (1 / (d : ℝ)) := Real.rpow_le_rpow_of_exponent_le hnr (hround q hq)
        _ ≤ ((j : ℝ) ^ d) ^ (1 / (d : ℝ)) := Real.rpow_le_rpow (by linarith) (by exact_mod_cast hj) (by positivity)
        _ = j := by rw [← Real.rpow_natCast, ← Real.rpow_mul (Nat.cast_nonneg _), mul_one_div, div_self hd0.ne', Real.rpow_one]
    · refine Nat.ceil_le.2 (le_trans (hx.le (b := n) (isDouble_nat (by nlinarith)) ?_) ?_)
      · calc (n : ℝ) ^ q ≤ (n : ℝ) ^ (1 : ℝ) := Real.rpow_le_rpow_of_exponent_le hnr
              ((hround q hq).trans (by rw [div_le_one hd0]; exact_mod_cast hd))
          _ = n := Real.rpow_one _
      · have : n ≤ j := by nlinarith
        exact_mod_cast this
  refine ⟨h0, key, fun m hm => le_antisymm (key m hm.le) ?_⟩
  by_contra hlt
  have := Nat.pow_lt_pow_left (not_le.1 hlt) (show d ≠ 0 by omega)
  omega

/-- a double above `2 ^ p` is a multiple of `2 ^ (p - 52)` -/
theorem isDouble_above {q : ℝ} (h : IsDouble q) {p : ℤ} (hp : (2 : ℝ) ^ p < q) : ∃ c : ℤ, q = c * (2 : ℝ) ^ (p - 52) := by
  obtain ⟨m, e, hm, rfl⟩ := h
  have h1 : (m : ℝ) ≤ 2 ^ 53 := by
    have h2 : ((|m| : ℤ) : ℝ) ≤ ((2 ^ 53 : ℤ) : ℝ) := Int.cast_le.2 hm
    push_cast at h2
    exact (le_abs_self _).trans (h2.trans (by norm_num))
  have h2 : (2 : ℝ) ^ p < (2 : ℝ) ^ (53 + e) := by
    refine hp.trans_le ?_
    rw [zpow_add₀ (by norm_num)]
    refine mul_le_mul_of_nonneg_right ?_ (by positivity)
    exact_mod_cast h1
  have h3 : p < 53 + e := (zpow_lt_zpow_iff_right₀ (by norm_num)).1 h2
  refine ⟨m * 2 ^ (e - (p - 52)).toNat, ?_⟩
  push_cast
  rw [mul_assoc, ← zpow_natCast, ← zpow_add₀ (by norm_num)]
  congr 2
  omega

/-- the reciprocals of the dimensions up to four are not rounded up -/
theorem reciprocal_small {d : Nat} (hd : 1 ≤ d) (h4 : d ≤ 4) {q : ℝ} (h : Nearest (1 / (d : ℝ)) q) : q ≤ 1 / d := by
  have hd' : d = 1 ∨ d = 2 ∨ d = 3 ∨ d = 4 := by omega
  rcases hd' with rfl | rfl | rfl | rfl
  · exact h.le ⟨1, 0, by norm_num, by norm_num⟩ le_rfl
  · exact h.le ⟨1, -1, by norm_num, by norm_num⟩ le_rfl
  · by_contra hc
    push Not at hc
    have h1 := h.2 (6004799503160661 / 2 ^ 54) ⟨6004799503160661, -54, by norm_num, by norm_num⟩
    rw [abs_of_nonpos (by linarith), abs_of_nonneg (by norm_num)] at h1
    obtain ⟨c, hcq⟩ := isDouble_above h.1 (p := -2) (by refine lt_trans ?_ hc; norm_num)
    rw [hcq] at h1 hc
    norm_num at h1 hc
    have h2 : (6004799503160661 : ℝ) < c := by linarith
    have h3 : (c : ℝ) < 6004799503160662 := by linarith
    have h2' : (6004799503160661 : ℤ) < c := by exact_mod_cast h2
    have h3' : c < (6004799503160662 : ℤ) := by exact_mod_cast h3
    omega
  · exact h.le ⟨1, -2, by norm_num, by norm_num⟩ le_rfl

/-- **C136** the rounded root is at most one too large. -/
theorem C136_off_by_one {d n k : Nat} (hd : 1 ≤ d) (hn : 1 ≤ n) (hsize : n * (n + d) < 2 ^ 53) (h : DoubleRoot d n k) :
    ∀ j, n ≤ j ^ d → k ≤ j + 1 := by
  obtain ⟨a, q, x, ha, hq, hx, rfl⟩ := h
  obtain ⟨u, hu⟩ : ∃ u : ℝ, u = 1 / 2 ^ 53 := ⟨_, rfl⟩
  have hu0 : 0 < u := by rw [hu]; positivity
  have hdr : (1 : ℝ) ≤ d := by exact_mod_cast hd
  have hd0 : (0 : ℝ) < d := by linarith
  have hnr : (1 : ℝ) ≤ n := by exact_mod_cast hn
  have hn0 : (0 : ℝ) < n := by linarith
  obtain rfl : a = n := ha.self (isDouble_nat (by nlinarith))
  have eq1 := hq.error
  rw [unit_lt, ← hu, abs_of_pos (show (0 : ℝ) < 1 / d by positivity)] at eq1
  have hq1 : q ≤ 1 / d + u := by
    have h1 := (abs_le.1 eq1).1
    have h2 : 1 / (d : ℝ) * u ≤ 1 * u := mul_le_mul_of_nonneg_right (by rw [div_le_one hd0]; exact hdr) hu0.le
    linarith
  have hN : (n : ℝ) * (n + d) * u < 1 := by
    have : ((n * (n + d) : ℕ) : ℝ) < ((2 ^ 53 : ℕ) : ℝ) := by exact_mod_cast hsize
    push_cast at this
    rw [hu, mul_one_div, div_lt_one (by positivity)]
    linarith
  have small : ∀ j, n ≤ j ^ d → j ≤ n → ⌈x⌉₊ ≤ j + 1 := by
    intro j hj hjn
    have hj1 : 1 ≤ j := by
      by_contra h0
      have : j = 0 := by omega
      rw [this, zero_pow (by omega)] at hj
      omega
    have hjr : (1 : ℝ) ≤ j := by exact_mod_cast hj1
    have hjn' : (j : ℝ) ≤ n := by exact_mod_cast hjn
    have hjb : j + 1 ≤ 2 ^ 53 := by
      have h1 : (n + 1) * 1 ≤ (n + d) * n := Nat.mul_le_mul (by omega) hn
      rw [Nat.mul_comm (n + d)] at h1
      omega
    refine Nat.ceil_le.2 (hx.le (isDouble_nat hjb) ?_)
    have h1 : (n : ℝ) ^ (1 / (d : ℝ)) ≤ j := by
      calc (n : ℝ) ^ (1 / (d : ℝ)) ≤ ((j : ℝ) ^ d) ^ (1 / (d : ℝ)) := Real.rpow_le_rpow hn0.le (by exact_mod_cast hj) (by positivity)
        _ = j := by rw [← Real.rpow_natCast, ← Real.rpow_mul (Nat.cast_nonneg _), mul_one_div, div_self hd0.ne', Real.rpow_one]
    have h2 : (n : ℝ) ^ u ≤ 1 + 1 / j := by
      have e1 : Real.exp (1 / ((j : ℝ) + 1)) ≤ 1 + 1 / j := by
        have := Real.add_one_le_exp (-(1 / ((j : ℝ) + 1)))
        have e2 : -(1 / ((j : ℝ) + 1)) + 1 = j / (j + 1) := by field_simp; ring
        rw [e2, Real.exp_neg] at this
        have h3 := inv_anti₀ (by positivity) this
        rw [inv_inv, inv_div] at h3
        refine h3.trans (le_of_eq ?_)
        field_simp
      refine le_trans ?_ e1
      rw [Real.rpow_def_of_pos hn0]
      refine Real.exp_le_exp.2 ?_
      have hl := Real.log_le_sub_one_of_pos hn0
      have hl2 : Real.log n * u ≤ (n - 1) * u := mul_le_mul_of_nonneg_right hl hu0.le
      refine hl2.trans ?_
      rw [le_div_iff₀ (by linarith)]
      have : ((n : ℝ) - 1) * u * (j + 1) ≤ (n - 1) * u * (n + 1) :=
        mul_le_mul_of_nonneg_left (by linarith) (mul_nonneg (by linarith) hu0.le)
      nlinarith [mul_nonneg (mul_nonneg hn0.le hd0.le) hu0.le]
    calc (n : ℝ) ^ q ≤ (n : ℝ) ^ (1 / (d : ℝ) + u) := Real.rpow_le_rpow_of_exponent_le hnr hq1
      _ = (n : ℝ) ^ (1 / (d : ℝ)) * (n : ℝ) ^ u := Real.rpow_add hn0 _ _
      _ ≤ j * (1 + 1 / j) := mul_le_mul h1 h2 (Real.rpow_nonneg hn0.le _) (by linarith)
      _ = ((j + 1 : ℕ) : ℝ) := by
        have : (j : ℝ) ≠ 0 := by linarith
        push_cast
        field_simp
  intro j hj
  by_cases hjn : j ≤ n
  · exact small j hj hjn
  · have := small n (Nat.le_self_pow (by omega) n) le_rfl
    omega

/-- **C136** with floating-point numbers the root of a power may be too large: for 5 hyperparameters and 5^5 = 3125 points, the computed number of
steps is 6 - although 5 steps give exactly 3125 points. -/
theorem C136_root_counterexample (k : Nat) : DoubleRoot 5 3125 k ↔ k = 6 := by
  suffices key : ∀ k, DoubleRoot 5 3125 k → k = 6 by
    refine ⟨key k, ?_⟩
    rintro rfl
    obtain ⟨k, hk⟩ := doubleRoot_exists 5 3125
    rwa [← key k hk]
  rintro k ⟨a, q, x, ha, hq, hx, rfl⟩
  obtain rfl : a = 3125 := by
    rw [ha.self (isDouble_nat (n := 3125) (by norm_num))]
    norm_num
  -- the rounded 1 / 5
  obtain rfl : q = 3602879701896397 / 2 ^ 54 := by
    have h1 := hq.2 (3602879701896397 / 2 ^ 54) ⟨3602879701896397, -54, by norm_num, by norm_num⟩
    have h2 : |(1 : ℝ) / ((5 : ℕ) : ℝ) - 3602879701896397 / 2 ^ 54| = 1 / (5 * 2 ^ 54) := by
      rw [abs_of_neg (by norm_num)]; norm_num
    rw [h2] at h1
    obtain ⟨h3, h4⟩ := abs_le.1 h1
    obtain ⟨c, hc⟩ := isDouble_above hq.1 (p := -3) (by norm_num at h3 h4 ⊢; linarith)
    rw [hc] at h3 h4 ⊢
    norm_num at h3 h4 ⊢
    have h5 : (7205759403792793 : ℝ) < c := by linarith
    have h6 : (c : ℝ) < 7205759403792795 := by linarith
    have h5' : (7205759403792793 : ℤ) < c := by exact_mod_cast h5
    have h6' : c < (7205759403792795 : ℤ) := by exact_mod_cast h6
    have : c = 7205759403792794 := by omega
    rw [this]
    norm_num
  -- 3125 ^ q is nearer to the next double than to 5
  have hpow : ((3125 : ℝ)) ^ ((3602879701896397 : ℝ) / 2 ^ 54) = 5 * Real.exp (Real.log 5 / 2 ^ 54) := by
    have e : (3125 : ℝ) = (5 : ℝ) ^ (5 : ℝ) := by norm_num
    rw [e, ← Real.rpow_mul (by norm_num)]
    have e2 : (5 : ℝ) * (3602879701896397 / 2 ^ 54) = 1 + 1 / 2 ^ 54 := by norm_num
    rw [e2, Real.rpow_add (by norm_num), Real.rpow_one, Real.rpow_def_of_pos (by norm_num)]
    congr 2
    ring
  rw [hpow] at hx
  clear hpow ha hq
  have hlog : (8 : ℝ) / 5 < Real.log 5 := by
    rw [Real.lt_log_iff_exp_lt (by norm_num)]
    have h1 : Real.exp (8 / 5) ^ 5 < 5 ^ 5 := by
      rw [← Real.exp_nat_mul]
      have : ((5 : ℕ) : ℝ) * (8 / 5) = ((8 : ℕ) : ℝ) * 1 := by norm_num
      rw [this, Real.exp_nat_mul]
      calc Real.exp 1 ^ 8 < 2.7182818286 ^ 8 := pow_lt_pow_left₀ Real.exp_one_lt_d9 (Real.exp_pos _).le (by norm_num)
        _ < 5 ^ 5 := by norm_num
    exact lt_of_pow_lt_pow_left₀ 5 (by norm_num) h1
  have hlog2 : Real.log 5 ≤ 4 := (Real.log_le_sub_one_of_pos (by norm_num)).trans (by norm_num)
  have hlo : 5 + 1 / 2 ^ 51 < 5 * Real.exp (Real.log 5 / 2 ^ 54) := by
    have := Real.add_one_le_exp (Real.log 5 / 2 ^ 54)
    have h1 : (8 : ℝ) / 5 / 2 ^ 54 < Real.log 5 / 2 ^ 54 := div_lt_div_of_pos_right hlog (by positivity)
    have h2 : (8 : ℝ) / 5 / 2 ^ 54 * 5 = 1 / 2 ^ 51 := by norm_num
    linarith
  have hhi : 5 * Real.exp (Real.log 5 / 2 ^ 54) ≤ 6 := by
    have h1 : Real.log 5 / 2 ^ 54 ≤ 4 / 2 ^ 54 := div_le_div_of_nonneg_right hlog2 (by positivity)
    have h2 := Real.add_one_le_exp (-(4 / 2 ^ 54 : ℝ))
    rw [Real.exp_neg] at h2
    have h3 : Real.exp (4 / 2 ^ 54) ≤ 6 / 5 := by
      have h4 := inv_anti₀ (by norm_num) h2
      rw [inv_inv] at h4
      exact h4.trans (by norm_num)
    have := (Real.exp_le_exp.2 h1).trans h3
    linarith
  have hx6 : x ≤ 6 := hx.le ⟨6, 0, by norm_num, by norm_num⟩ hhi
  have hx5 : 5 < x := by
    by_contra hc
    push Not at hc
    have h1 := hx.2 (5 + 1 / 2 ^ 50) ⟨5 * 2 ^ 50 + 1, -50, by norm_num, by norm_num⟩
    rw [abs_of_nonneg (by linarith [show (0 : ℝ) < 1 / 2 ^ 51 by positivity])] at h1
    have h2 : (1 : ℝ) / 2 ^ 50 = 2 * (1 / 2 ^ 51) := by norm_num
    have h3 : (0 : ℝ) < 1 / 2 ^ 51 := by positivity
    rcases abs_cases (5 * Real.exp (Real.log 5 / 2 ^ 54) - (5 + 1 / 2 ^ 50)) with ⟨h4, -⟩ | ⟨h4, -⟩ <;> rw [h4] at h1 <;> linarith
  refine le_antisymm (Nat.ceil_le.2 (by exact_mod_cast hx6)) (Nat.lt_ceil.2 (by exact_mod_cast hx5))

/-- **C70** the width `int(np.ceil(np.sqrt(n)))` of the figure grid (plotting.py:304) is the exact one with a correctly rounded square root, too. -/
theorem C70_rounded {n : Nat} (hn : 1 ≤ n) (hsize : n * (n + 2) < 2 ^ 53) {r : ℝ} (h : Nearest (Real.sqrt n) r) : ⌈r⌉₊ = ⌈Real.sqrt n⌉₊ := by
  have hr : DoubleRoot 2 n ⌈r⌉₊ :=
    ⟨n, 1 / 2, r, ⟨isDouble_nat (by nlinarith), fun _ _ => by simp⟩, ⟨⟨1, -1, by norm_num, by norm_num⟩, fun _ _ => by simp⟩,
      by rwa [← Real.sqrt_eq_rpow], rfl⟩
  obtain ⟨h1, h2, -⟩ := C136_root_partial (by norm_num) hn hsize (fun q hq => reciprocal_small (by norm_num) (by norm_num) hq) hr
  refine le_antisymm (h2 _ ?_) (Nat.ceil_le.2 ?_)
  · have := Nat.le_ceil (Real.sqrt n)
    rw [Real.sqrt_le_left (by positivity)] at this
    exact_mod_cast this
  · rw [Real.sqrt_le_left (by positivity)]
    exact_mod_cast h1

/-! ### the sampler -/

section sampler
variable {K G : Type}

open Classical in
/-- **C136** the first call of a new GridSampler with floating-point numbers, for `n` points on `d` float hyperparameters, `n (n + d) < 2^53`: it succeeds, and the
recorded configurations are `n` points of a regular grid with `j` or `j + 1` steps per axis, where `j` is the smallest number of steps that gives `n` points. -/
theorem C136_first_call (o : Objective (List (Val ℝ)) K) (hno : ∀ t c, o.raises t c = none)
    (intGrid : Hp ℝ → Nat → List (Val ℝ)) (cs : ConfigSpace ℝ)
    (hfloat : ∀ hp ∈ cs, ∃ l u b, hp.kind = .float l u b ∧ l < u ∧ (b = true → 0 < l)) (hne : cs ≠ [])
    (perAxis : Nat → Nat) (shuffle : G → List (List (Val ℝ)) → List (List (Val ℝ)) × G) (hperm : ∀ r l, (shuffle r l).1.Perm l) (r : G) (n : Nat) (hn : 1 ≤ n)
    (hsize : n * (n + cs.length) < 2 ^ 53) (hdouble : DoubleRoot cs.length n (perAxis n)) :
    let res := gridSampler o (spaceGridEnv intGrid cs perAxis shuffle) ⟨[], [], [], 0, ⟨none, r⟩⟩ n
    ∃ j k, (n ≤ j ^ cs.length ∧ ∀ i, n ≤ i ^ cs.length → j ≤ i) ∧ (k = j ∨ k = j + 1) ∧
      res.2 = none ∧ res.1.configs.length = n ∧ res.1.configs.Nodup ∧ ∀ c ∈ res.1.configs, c ∈ generateGrid intGrid cs k := by
  intro res
  have hd : 1 ≤ cs.length := List.length_pos_of_ne_nil hne
  have hroot := C136_enough hd hn hsize hdouble
  obtain ⟨h1, h2, ⟨left, -, h4, -⟩, -⟩ := C27_first_call o hno intGrid cs hfloat hne perAxis shuffle hperm r n hn hroot
  have hnd := h4.nodup_iff.2 (C28_grid_size intGrid cs hfloat (perAxis n)).2
  refine ⟨ceilRoot cs.length n, perAxis n, ⟨le_ceilRoot_pow (by omega), fun i => ceilRoot_le⟩, ?_, h1, h2, (List.nodup_append.1 hnd).1,
    fun c hc => h4.mem_iff.1 (List.mem_append_left _ hc)⟩
  have e1 := C136_off_by_one hd hn hsize hdouble _ (le_ceilRoot_pow (d := cs.length) (n := n) (by omega))
  have e2 := ceilRoot_le hroot
  omega

open Classical in
/-- **C136**, partial: if `n = m^d` with `m ≥ 2`, and the root is computed exactly, or with floating-point numbers on at most four hyperparameters and
`n (n + d) < 2^53`, then the first call of a new GridSampler for `n` points evaluates every point of the grid with `m` steps exactly once. Missing (false, see
`C136_counterexample`): other numbers of hyperparameters. -/
theorem C136_full_grid_partial (o : Objective (List (Val ℝ)) K) (hno : ∀ t c, o.raises t c = none)
    (intGrid : Hp ℝ → Nat → List (Val ℝ)) (cs : ConfigSpace ℝ)
    (hfloat : ∀ hp ∈ cs, ∃ l u b, hp.kind = .float l u b ∧ l < u ∧ (b = true → 0 < l)) (hne : cs ≠ [])
    (perAxis : Nat → Nat) (shuffle : G → List (List (Val ℝ)) → List (List (Val ℝ)) × G) (hperm : ∀ r l, (shuffle r l).1.Perm l) (r : G) (m : Nat) (hm : 2 ≤ m)
    (n : Nat) (hnm : n = m ^ cs.length)
    (hroot : perAxis n = ⌈(n : ℝ) ^ ((1 : ℝ) / cs.length)⌉₊ ∨ (DoubleRoot cs.length n (perAxis n) ∧ cs.length ≤ 4 ∧ n * (n + cs.length) < 2 ^ 53)) :
    let res := gridSampler o (spaceGridEnv intGrid cs perAxis shuffle) ⟨[], [], [], 0, ⟨none, r⟩⟩ n
    res.2 = none ∧ res.1.configs.length = n ∧
    ∀ vs, List.Forall₂ (fun hp v => ∃ i < m, StepValue m i hp v) cs vs → res.1.configs.count vs = 1 := by
  intro res
  have hd : 1 ≤ cs.length := List.length_pos_of_ne_nil hne
  have hn : 1 ≤ n := by rw [hnm]; exact Nat.one_le_pow _ _ (by omega)
  have hk : perAxis n = m := by
    rcases hroot with h | ⟨h, h4, hs⟩
    · have hc : (cs.length : ℝ) ≠ 0 := by positivity
      rw [h, hnm, Nat.cast_pow, ← Real.rpow_natCast, ← Real.rpow_mul (Nat.cast_nonneg m), mul_one_div, div_self hc, Real.rpow_one, Nat.ceil_natCast]
    · exact (C136_root_partial hd hn hs (fun q hq => reciprocal_small hd h4 hq) h).2.2 m hnm
  obtain ⟨h1, h2, -, h3⟩ := C27_first_call o hno intGrid cs hfloat hne perAxis shuffle hperm r n hn (by rw [hk, hnm])
  exact ⟨h1, h2, fun vs hvs => h3 m hm hnm hk vs hvs⟩

/-- a space of five floats -/
def fiveFloats : ConfigSpace ℝ := ["a", "b", "c", "d", "e"].map fun s => ⟨s, .float 0 1 false⟩

open Classical in
/-- **C136** fails: on five float hyperparameters, with floating-point numbers, `sample(5^5)` of a new GridSampler succeeds, but does not evaluate the point in which every value is a quarter of the way
from bound to bound, which is a point of the grid with five steps. -/
theorem C136_counterexample (o : Objective (List (Val ℝ)) K) (hno : ∀ t c, o.raises t c = none)
    (intGrid : Hp ℝ → Nat → List (Val ℝ)) (perAxis : Nat → Nat) (n : Nat) (hn : n = 5 ^ fiveFloats.length)
    (hdouble : DoubleRoot fiveFloats.length n (perAxis n))
    (shuffle : G → List (List (Val ℝ)) → List (List (Val ℝ)) × G) (hperm : ∀ r l, (shuffle r l).1.Perm l) (r : G) :
    let res := gridSampler o (spaceGridEnv intGrid fiveFloats perAxis shuffle) ⟨[], [], [], 0, ⟨none, r⟩⟩ n
    res.2 = none ∧ res.1.configs.length = n ∧
    List.Forall₂ (fun hp v => ∃ i < 5, StepValue 5 i hp v) fiveFloats (List.replicate 5 (.num (1 / 4))) ∧
    List.replicate 5 (.num (1 / 4)) ∉ res.1.configs := by
  intro res
  have hfloat : ∀ hp ∈ fiveFloats, ∃ l u b, hp.kind = .float l u b ∧ l < u ∧ (b = true → 0 < l) := by
    intro hp hm
    obtain ⟨s, -, rfl⟩ := List.mem_map.1 hm
    exact ⟨0, 1, false, rfl, by norm_num, by simp⟩
  have hl : fiveFloats.length = 5 := rfl
  have hn' : n = 3125 := by rw [hn, hl]; norm_num
  have hk : perAxis n = 6 := (C136_root_counterexample _).1 (by rw [hl, hn'] at hdouble; rwa [hn'])
  obtain ⟨h1, h2, ⟨left, -, h4, -⟩, -⟩ := C27_first_call o hno intGrid fiveFloats hfloat (by simp [fiveFloats]) perAxis shuffle hperm r n (by omega)
    (by rw [hk, hl, hn']; norm_num)
  refine ⟨h1, h2, ?_, fun hmem => ?_⟩
  · have : ∀ s, ∃ i < 5, StepValue 5 i ⟨s, .float 0 1 false⟩ (.num (1 / 4)) := by
      intro s
      refine ⟨1, by norm_num, 0, 1, false, rfl, ?_⟩
      norm_num
    exact .cons (this _) (.cons (this _) (.cons (this _) (.cons (this _) (.cons (this _) .nil))))
  · have h5 := h4.mem_iff.1 (List.mem_append_left left hmem)
    rw [hk, C27_grid_points intGrid fiveFloats hfloat (by norm_num)] at h5
    have h6 : ∃ i < 6, StepValue 6 i ⟨"a", .float 0 1 false⟩ (.num (1 / 4)) := by
      unfold fiveFloats at h5
      cases h5 with
      | cons h _ => exact h
    obtain ⟨i, hi, l, u, b, hkind, hv⟩ := h6
    cases hkind
    simp only [Bool.false_eq_true, if_false, Val.num.injEq] at hv
    have h7 : (4 * i : ℝ) = 5 := by norm_num at hv; linarith
    have h8 : 4 * i = 5 := by exact_mod_cast h7
    omega

/-- the hypotheses can be met: every number of steps is computed somehow, and 64 points on two hyperparameters take eight steps -/
example : (∃ perAxis : Nat → Nat, ∀ n, DoubleRoot 5 n (perAxis n)) ∧ ∀ k, DoubleRoot 2 64 k → k = 8 :=
  ⟨Classical.axiomOfChoice fun n => doubleRoot_exists 5 n, fun _ h =>
    (C136_root_partial (by norm_num) (by norm_num) (by norm_num) (fun _ hq => reciprocal_small (by norm_num) (by norm_num) hq) h).2.2 8 (by norm_num)⟩

end sampler

end PyPDP
