/-
Facts about rounding to 53 significant bits.
-/
import Verif.Spec.Double
import Mathlib.Data.Int.Log
import Mathlib.Algebra.Order.Round

namespace PyPDP
open Spec

theorem isDouble_int {m : ℤ} (h : |m| ≤ 2 ^ 53) : IsDouble m := ⟨m, 0, h, by simp⟩

theorem isDouble_nat {n : Nat} (h : n ≤ 2 ^ 53) : IsDouble n := by
  have := isDouble_int (m := (n : ℤ)) (by rw [abs_of_nonneg (by positivity)]; exact_mod_cast h)
  simpa using this

/-- a double stays as it is -/
theorem Spec.Nearest.self {x r : ℝ} (h : Nearest x r) (hx : IsDouble x) : r = x := by
  have := h.2 x hx
  simp only [sub_self, abs_zero] at this
  have h0 := abs_nonpos_iff.1 this
  linarith

/-- rounding does not pass a double -/
theorem Spec.Nearest.le {x r b : ℝ} (h : Nearest x r) (hb : IsDouble b) (hx : x ≤ b) : r ≤ b := by
  by_contra hc
  have h1 := h.2 b hb
  rw [abs_of_nonpos (by linarith), abs_of_nonpos (by linarith)] at h1
  linarith

theorem Spec.Nearest.ge {x r b : ℝ} (h : Nearest x r) (hb : IsDouble b) (hx : b ≤ x) : b ≤ r := by
  by_contra hc
  have h1 := h.2 b hb
  rw [abs_of_nonneg (by linarith), abs_of_nonneg (by linarith)] at h1
  linarith

/-- the rounding to a multiple of the right power of two -/
noncomputable def roundDouble (x : ℝ) : ℝ :=
  (round (x * (2 : ℝ) ^ (52 - Int.log 2 |x|)) : ℝ) * (2 : ℝ) ^ (Int.log 2 |x| - 52)

theorem roundDouble_spec (x : ℝ) : Nearest x (roundDouble x) ∧ |x - roundDouble x| ≤ |x| * (2 : ℝ) ^ (-53 : ℤ) := by
  by_cases hx0 : x = 0
  · subst hx0
    have h0 : roundDouble 0 = 0 := by simp [roundDouble]
    rw [h0]
    exact ⟨⟨⟨0, 0, by norm_num, by simp⟩, fun r' _ => by simp⟩, by simp⟩
  have hpos : 0 < |x| := abs_pos.2 hx0
  obtain ⟨e, he⟩ : ∃ e, e = Int.log 2 |x| := ⟨_, rfl⟩
  have hlo : (2 : ℝ) ^ e ≤ |x| := by rw [he]; exact_mod_cast Int.zpow_log_le_self (b := 2) (by norm_num) hpos
  have hhi : |x| < (2 : ℝ) ^ (e + 1) := by rw [he]; exact_mod_cast Int.lt_zpow_succ_log_self (b := 2) (by norm_num) |x|
  obtain ⟨s, hs⟩ : ∃ s : ℝ, s = (2 : ℝ) ^ (52 - e) := ⟨_, rfl⟩
  obtain ⟨t, ht⟩ : ∃ t : ℝ, t = (2 : ℝ) ^ (e - 52) := ⟨_, rfl⟩
  have hst : s * t = 1 := by rw [hs, ht, ← zpow_add₀ (by norm_num)]; simp
  have hs0 : 0 < s := by rw [hs]; positivity
  have ht0 : 0 < t := by rw [ht]; positivity
  have het : (2 : ℝ) ^ e = 2 ^ 52 * t := by
    rw [ht, ← zpow_natCast, ← zpow_add₀ (by norm_num)]
    congr 1
    norm_num
  have het1 : (2 : ℝ) ^ (e + 1) = 2 ^ 53 * t := by
    rw [zpow_add_one₀ (by norm_num), het]; ring
  obtain ⟨m, hm⟩ : ∃ m : ℤ, m = round (x * s) := ⟨_, rfl⟩
  have hr : roundDouble x = m * t := by unfold roundDouble; rw [← he, ← hs, ← ht, ← hm]
  have hxs : x = x * s * t := by rw [mul_assoc, hst, mul_one]
  have herr : |x - m * t| = |x * s - m| * t := by
    rw [← abs_of_pos ht0, ← abs_mul, abs_of_pos ht0, sub_mul, ← hxs]
  have hhalf : |x * s - m| ≤ 1 / 2 := by rw [hm]; exact abs_sub_round _
  have habs : |x * s| < 2 ^ 53 := by
    rw [abs_mul, abs_of_pos hs0]
    have : |x| * s < 2 ^ 53 * t * s := by rw [← het1]; exact mul_lt_mul_of_pos_right hhi hs0
    rwa [mul_assoc, mul_comm t, hst, mul_one] at this
  have hm53 : |m| ≤ 2 ^ 53 := by
    have h1 : |(m : ℝ)| ≤ 2 ^ 53 + 1 / 2 := by
      have h2 := abs_sub_abs_le_abs_sub (m : ℝ) (x * s)
      rw [abs_sub_comm] at h2
      linarith
    have h2 : ((|m| : ℤ) : ℝ) < ((2 ^ 53 + 1 : ℤ) : ℝ) := by push_cast; linarith
    have := Int.cast_lt.1 h2
    omega
  rw [hr]
  refine ⟨⟨⟨m, e - 52, hm53, by rw [ht]⟩, ?_⟩, ?_⟩
  · rintro r' ⟨m', e', hm', rfl⟩
    rw [herr]
    by_cases hle : e - 52 ≤ e'
    · -- a multiple of `t`
      obtain ⟨c, hc⟩ : ∃ c : ℤ, (m' : ℝ) * (2 : ℝ) ^ e' = c * t := by
        refine ⟨m' * 2 ^ (e' - (e - 52)).toNat, ?_⟩
        rw [ht]
        push_cast
        rw [mul_assoc, ← zpow_natCast, ← zpow_add₀ (by norm_num)]
        congr 2
        omega
      rw [hc]
      have : |x - c * t| = |x * s - c| * t := by
        rw [← abs_of_pos ht0, ← abs_mul, abs_of_pos ht0, sub_mul, ← hxs]
      rw [this]
      refine mul_le_mul_of_nonneg_right ?_ ht0.le
      rw [hm]
      exact round_le _ _
    · -- a smaller number
      push Not at hle
      have hsmall : |(m' : ℝ) * (2 : ℝ) ^ e'| ≤ 2 ^ 52 * t := by
        rw [abs_mul, abs_of_pos (show (0 : ℝ) < (2 : ℝ) ^ e' by positivity)]
        have h1 : |(m' : ℝ)| ≤ 2 ^ 53 := by
          have : ((|m'| : ℤ) : ℝ) ≤ ((2 ^ 53 : ℤ) : ℝ) := Int.cast_le.2 hm'
          push_cast at this
          exact this.trans (by norm_num)
        have h2 : (2 : ℝ) ^ e' ≤ t / 2 := by
          have h3 : (2 : ℝ) ^ e' ≤ (2 : ℝ) ^ (e - 52 - 1) := zpow_le_zpow_right₀ (by norm_num) (by omega)
          rw [zpow_sub_one₀ (by norm_num), ← ht] at h3
          linarith
        calc |(m' : ℝ)| * (2 : ℝ) ^ e' ≤ 2 ^ 53 * (t / 2) := mul_le_mul h1 h2 (by positivity) (by positivity)
          _ = 2 ^ 52 * t := by ring
      have hge : |x| - 2 ^ 52 * t ≤ |x - (m' : ℝ) * (2 : ℝ) ^ e'| := by
        have := abs_sub_abs_le_abs_sub x ((m' : ℝ) * (2 : ℝ) ^ e')
        linarith
      refine le_trans ?_ hge
      -- `2 ^ 52 * t` with the sign of `x` is a multiple of `t`
      have key : ∀ c : ℤ, |x * s - m| ≤ |x * s - c| := fun c => by rw [hm]; exact round_le _ _
      have hxs52 : 2 ^ 52 ≤ |x| * s := by
        have : 2 ^ 52 * t * s ≤ |x| * s := by rw [← het]; exact mul_le_mul_of_nonneg_right hlo hs0.le
        rwa [mul_assoc, mul_comm t, hst, mul_one] at this
      have hfin : |x * s - m| ≤ |x| * s - 2 ^ 52 := by
        rcases lt_or_gt_of_ne hx0 with hneg | hp
        · have := key (-(2 ^ 52))
          rw [abs_of_neg hneg] at hxs52 ⊢
          refine this.trans (le_of_eq ?_)
          push_cast
          rw [abs_of_nonpos (by linarith)]
          ring
        · have := key (2 ^ 52)
          rw [abs_of_pos hp] at hxs52 ⊢
          refine this.trans (le_of_eq ?_)
          push_cast
          rw [abs_of_nonneg (by linarith)]
          norm_num
      calc |x * s - m| * t ≤ (|x| * s - 2 ^ 52) * t := mul_le_mul_of_nonneg_right hfin ht0.le
        _ = |x| * (s * t) - 2 ^ 52 * t := by ring
        _ = |x| - 2 ^ 52 * t := by rw [hst, mul_one]
  · rw [herr]
    have h1 : |x * s - m| * t ≤ 1 / 2 * t := mul_le_mul_of_nonneg_right hhalf ht0.le
    have h2 : 2 ^ 52 * t ≤ |x| := by rw [← het]; exact hlo
    have h3 : (2 : ℝ) ^ (-53 : ℤ) = 1 / 2 ^ 53 := by rw [zpow_neg]; norm_num
    rw [h3]
    have : |x| * (1 / 2 ^ 53) = |x| / 2 ^ 52 / 2 := by ring
    rw [this]
    have : t ≤ |x| / 2 ^ 52 := by rw [le_div_iff₀ (by positivity)]; linarith
    linarith

theorem nearest_exists (x : ℝ) : ∃ r, Nearest x r := ⟨_, (roundDouble_spec x).1⟩

/-- the relative error of a rounding is at most 2⁻⁵³ -/
theorem Spec.Nearest.error {x r : ℝ} (h : Nearest x r) : |x - r| ≤ |x| * (2 : ℝ) ^ (-53 : ℤ) :=
  (h.2 _ (roundDouble_spec x).1.1).trans (roundDouble_spec x).2

end PyPDP
