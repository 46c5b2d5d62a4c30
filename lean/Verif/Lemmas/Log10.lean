/-
Logarithms of 2 and 10 to nineteen digits.
-/
import Mathlib.Analysis.SpecialFunctions.Log.Deriv
import Mathlib.Analysis.SpecialFunctions.Log.Base
import Mathlib.Tactic.Linarith
import Mathlib.Tactic.NormNum

namespace PyPDP

/-- partial sum of the series of `-log (1 - x)` -/
def logSeries (x : ℚ) : Nat → ℚ
  | 0 => 0
  | n + 1 => logSeries x n + x ^ (n + 1) / (n + 1)

theorem logSeries_cast (x : ℚ) (n : Nat) : (∑ i ∈ Finset.range n, (x : ℝ) ^ (i + 1) / (i + 1)) = (logSeries x n : ℝ) := by
  induction n with
  | zero => simp [logSeries]
  | succ n ih => rw [Finset.sum_range_succ, ih, logSeries]; push_cast; rfl

theorem logSeries_bounds {x lo hi : ℚ} (h0 : 0 < x) (h1 : x < 1) (n : Nat) (hlo : lo < logSeries x n - x ^ (n + 1) / (1 - x))
    (hhi : logSeries x n + x ^ (n + 1) / (1 - x) < hi) : (lo : ℝ) < -Real.log (1 - x) ∧ -Real.log (1 - x) < (hi : ℝ) := by
  have hx0 : (0 : ℝ) < x := by exact_mod_cast h0
  have hx1 : (x : ℝ) < 1 := by exact_mod_cast h1
  have := Real.abs_log_sub_add_sum_range_le (x := (x : ℝ)) (by rw [abs_of_pos hx0]; exact hx1) n
  rw [logSeries_cast, abs_of_pos hx0, abs_le] at this
  have hlo' : (lo : ℝ) < (logSeries x n : ℝ) - (x : ℝ) ^ (n + 1) / (1 - x) := by exact_mod_cast hlo
  have hhi' : (logSeries x n : ℝ) + (x : ℝ) ^ (n + 1) / (1 - x) < (hi : ℝ) := by exact_mod_cast hhi
  constructor <;> linarith [this.1, this.2]

theorem log_two_digits : (0.6931471805599453094 : ℝ) < Real.log 2 ∧ Real.log 2 < 0.6931471805599453095 := by
  have h := logSeries_bounds (x := 1 / 2) (lo := 6931471805599453094 / 10 ^ 19) (hi := 6931471805599453095 / 10 ^ 19) (by norm_num) (by norm_num) 70
    (by decide +kernel) (by decide +kernel)
  have e : -Real.log (1 - ((1 / 2 : ℚ) : ℝ)) = Real.log 2 := by
    rw [← Real.log_inv]; norm_num
  rw [e] at h
  norm_num at h ⊢
  exact h

theorem log_five_quarters_digits : (0.2231435513142097557 : ℝ) < Real.log (5 / 4) ∧ Real.log (5 / 4) < 0.2231435513142097558 := by
  have h := logSeries_bounds (x := 1 / 5) (lo := 2231435513142097557 / 10 ^ 19) (hi := 2231435513142097558 / 10 ^ 19) (by norm_num) (by norm_num) 40
    (by decide +kernel) (by decide +kernel)
  have e : -Real.log (1 - ((1 / 5 : ℚ) : ℝ)) = Real.log (5 / 4) := by
    rw [← Real.log_inv]; norm_num
  rw [e] at h
  norm_num at h ⊢
  exact h

theorem log_ten : Real.log 10 = 3 * Real.log 2 + Real.log (5 / 4) := by
  rw [show (10 : ℝ) = 2 ^ 3 * (5 / 4) by norm_num, Real.log_mul (by norm_num) (by norm_num), Real.log_pow]
  norm_num

end PyPDP
