/-
C146: scaling and unscaling again, with doubles.
-/
import Verif.Model.MachineCondition
import Verif.Props.RoundedMachine
import Verif.Props.RoundingSame

namespace PyPDP
open Spec

/-- what `scale_float` computes on a linear axis -/
theorem rounded_scale {c : ComputedExp} {sum : List ℝ → ℝ} {cs : ConfigSpace ℝ} {name : String} {hp : Hp ℝ} {l u : ℝ}
    (hget : cs.get name = .ok hp) (hb : hp.numerical? = some (l, u, false)) (v : ℝ) :
    @scaleFloatM ℝ (roundedMachine c sum) v cs name = .ok (max 0 (min 1 (c.fl (c.fl (v - l) / c.fl (u - l))))) := by
  have hbd : hp.bounds = .ok (l, u, false) := by rw [Hp.bounds, hb]
  unfold scaleFloatM
  rw [hget, Py.ok_bind, hbd, Py.ok_bind]
  simp only [Bool.false_eq_true, if_false, (rounded_min_max c sum _ _).1, (rounded_min_max c sum _ _).2, Machine.div, Machine.sub, Machine.ofInt]
  change Except.ok _ = _
  push_cast
  rfl

/-- rounded scaling on a linear axis is off by at most four units of rounding -/
theorem scale_linear_error {c : ComputedExp} (hc : CorrectlyRoundedExp c) {l u v : ℝ} (hlu : l < u) (h1 : l ≤ v) (h2 : v ≤ u) :
    |max 0 (min 1 (c.fl (c.fl (v - l) / c.fl (u - l)))) - (v - l) / (u - l)| ≤ 4 * (2 : ℝ) ^ (-53 : ℤ) := by
  have he : (2 : ℝ) ^ (-53 : ℤ) = 1 / 9007199254740992 := by rw [zpow_neg]; norm_num
  have e1 := (hc.fl (v - l)).error
  have e2 := (hc.fl (u - l)).error
  have e3 := (hc.fl (c.fl (v - l) / c.fl (u - l))).error
  have hEpos := (hc.fl (u - l)).pos (sub_pos.2 hlu)
  rw [abs_of_nonneg (sub_nonneg.2 h1)] at e1
  rw [abs_of_pos (sub_pos.2 hlu)] at e2
  rw [he] at *
  generalize c.fl (c.fl (v - l) / c.fl (u - l)) = q at *
  generalize c.fl (v - l) = A at *
  generalize c.fl (u - l) = E at *
  have hD : 0 < u - l := sub_pos.2 hlu
  obtain ⟨r, hr⟩ : ∃ r, r = (v - l) / (u - l) := ⟨_, rfl⟩
  have hr0 : 0 ≤ r := by rw [hr]; exact div_nonneg (by linarith) hD.le
  have hr1 : r ≤ 1 := by rw [hr, div_le_one hD]; linarith
  have ha : v - l = r * (u - l) := by rw [hr, div_mul_cancel₀ _ hD.ne']
  rw [← hr]
  rw [ha] at e1
  have b1 := abs_le.1 e1
  have b2 := abs_le.1 e2
  have hrD : r * (u - l) ≤ u - l := by nlinarith
  have hnum : |A - r * E| ≤ 2 * (u - l) * (1 / 9007199254740992) := by
    have hx : |r * (u - l) - r * E| ≤ (u - l) * (1 / 9007199254740992) := by
      rw [← mul_sub, abs_mul, abs_of_nonneg hr0]
      calc r * |u - l - E| ≤ 1 * |u - l - E| := mul_le_mul_of_nonneg_right hr1 (abs_nonneg _)
        _ ≤ _ := by rw [one_mul]; exact e2
    have b3 := abs_le.1 hx
    rw [abs_le]
    constructor <;> linarith
  have hT : |A / E - r| ≤ 5 / 2 * (1 / 9007199254740992) := by
    have : A / E - r = (A - r * E) / E := by rw [sub_div, mul_div_cancel_right₀ _ hEpos.ne']
    rw [this, abs_div, abs_of_pos hEpos, div_le_iff₀ hEpos]
    linarith
  have b4 := abs_le.1 hT
  have hTa : |A / E| ≤ 11 / 10 := by rw [abs_le]; constructor <;> linarith
  have hq : |q - r| ≤ 4 * (1 / 9007199254740992) := by
    have b5 := abs_le.1 e3
    rw [abs_le]
    constructor <;> linarith
  have b6 := abs_le.1 hq
  rw [abs_le]
  constructor
  · rcases le_total 1 q with h | h
    · rw [min_eq_left h]
      have := le_max_right (0 : ℝ) 1
      linarith
    · rw [min_eq_right h]
      have := le_max_right (0 : ℝ) q
      linarith
  · rw [tsub_le_iff_right]
    refine max_le (by positivity) ((min_le_right _ _).trans (by linarith))

variable {c : ComputedExp} {sum : List ℝ → ℝ} {cs : ConfigSpace ℝ} {name : String} {hp : Hp ℝ} {l u v : ℝ}

/-- **C146** on a linear axis, scaling and unscaling a value gives a number within the bounds that is off by at most `2⁻⁴⁹` of the larger bound. -/
theorem C146_error (hc : CorrectlyRoundedExp c) (hlu : l < u) (hget : cs.get name = .ok hp) (hb : hp.numerical? = some (l, u, false)) (h1 : l ≤ v)
    (h2 : v ≤ u) :
    ∃ t v', @scaleFloatM ℝ (roundedMachine c sum) v cs name = .ok t ∧ 0 ≤ t ∧ t ≤ 1 ∧
      @unscaleFloatM ℝ (roundedMachine c sum) t cs name = .ok v' ∧ l ≤ v' ∧ v' ≤ u ∧ |v' - v| ≤ max |l| |u| * (2 : ℝ) ^ (-49 : ℤ) := by
  refine ⟨_, _, rounded_scale hget hb v, le_max_left _ _, max_le zero_le_one (min_le_left _ _), rounded_unscale hlu.le hget hb _,
    le_min hlu.le (le_max_left _ _), min_le_left _ _, ?_⟩
  obtain ⟨M, hM⟩ : ∃ M, M = max |l| |u| := ⟨_, rfl⟩
  have hl : |l| ≤ M := by rw [hM]; exact le_max_left _ _
  have hu : |u| ≤ M := by rw [hM]; exact le_max_right _ _
  rw [← hM]
  have s := scale_linear_error hc hlu h1 h2
  have t0 : 0 ≤ max 0 (min 1 (c.fl (c.fl (v - l) / c.fl (u - l)))) := le_max_left _ _
  have t1 : max 0 (min 1 (c.fl (c.fl (v - l) / c.fl (u - l)))) ≤ 1 := max_le zero_le_one (min_le_left _ _)
  generalize max 0 (min 1 (c.fl (c.fl (v - l) / c.fl (u - l)))) = t at *
  have e := abs_le.1 (unscale_linear_error hc hlu hl hu t0 t1)
  have he : (2 : ℝ) ^ (-53 : ℤ) = 1 / 9007199254740992 := by rw [zpow_neg]; norm_num
  have he' : (2 : ℝ) ^ (-49 : ℤ) = 16 / 9007199254740992 := by rw [zpow_neg]; norm_num
  rw [he] at e s
  rw [he']
  have hl' := abs_le.1 hl
  have hu' := abs_le.1 hu
  have hD : 0 < u - l := sub_pos.2 hlu
  have hM0 : 0 ≤ M := (abs_nonneg l).trans hl
  have hs : |t * (u - l) - (v - l)| ≤ 8 * M * (1 / 9007199254740992) := by
    have : t * (u - l) - (v - l) = (t - (v - l) / (u - l)) * (u - l) := by rw [sub_mul, div_mul_cancel₀ _ hD.ne']
    rw [this, abs_mul, abs_of_pos hD]
    calc _ ≤ 4 * (1 / 9007199254740992) * (2 * M) := mul_le_mul s (by linarith) hD.le (by norm_num)
      _ = _ := by ring
  have hs' := abs_le.1 hs
  generalize unscaleNumF c l u false t = w at *
  rw [abs_le]
  constructor
  · have : v - M * (16 / 9007199254740992) ≤ min u (max l w) := le_min (by linarith [mul_nonneg hM0 (by norm_num : (0 : ℝ) ≤ 16 / 9007199254740992)]) ((le_max_right l w).trans' (by linarith))
    linarith
  · have : min u (max l w) ≤ v + M * (16 / 9007199254740992) :=
      (min_le_right _ _).trans (max_le (by linarith [mul_nonneg hM0 (by norm_num : (0 : ℝ) ≤ 16 / 9007199254740992)]) (by linarith))
    linarith

/-- **C146** the condition built from a value decides all configurations that are not too close to the value as the comparison with that value.
Full statement: also those close to it. -/
theorem C146_condition_partial (hc : CorrectlyRoundedExp c) (hlu : l < u) (hget : cs.get hp.name = .ok hp) (hb : hp.numerical? = some (l, u, false))
    (h1 : l ≤ v) (h2 : v ≤ u) (b : Bool) :
    ∃ cond, @condFromValueM ℝ (roundedMachine c sum) cs hp v (some b) = .ok cond ∧
      ∀ (cfg : Config ℝ) x, cfg.get? hp.name = some (.num x) → max |l| |u| * (2 : ℝ) ^ (-49 : ℤ) < |x - v| →
        ∃ r, @isSatisfiedM ℝ (roundedMachine c sum) cs cond cfg = .ok r ∧ (r = true ↔ if b then x ≤ v else v < x) := by
  obtain ⟨t, w, e1, -, -, e2, -, -, e3⟩ := C146_error (sum := sum) hc hlu hget hb h1 h2
  refine ⟨⟨hp, .flt t, some b⟩, by unfold condFromValueM; rw [e1]; rfl, fun cfg x hx hd => ?_⟩
  refine ⟨if b then decide (x ≤ w) else decide (w < x), ?_, ?_⟩
  · simp only [isSatisfiedM, condValueM, e2, Py.map_ok, Py.ok_bind, hx]
    cases b <;> rfl
  · have e3' := abs_le.1 e3
    rcases lt_abs.1 hd with h | h
    · cases b <;> simp <;> constructor <;> intro hh <;> linarith
    · cases b <;> simp <;> constructor <;> intro hh <;> linarith

/-- **C146** the lower bound is reproduced exactly. -/
theorem C146_lower (hc : CorrectlyRoundedExp c) (hlu : l < u) (hl : IsDouble l) (hget : cs.get name = .ok hp) (hb : hp.numerical? = some (l, u, false)) :
    @scaleFloatM ℝ (roundedMachine c sum) l cs name = .ok 0 ∧ @unscaleFloatM ℝ (roundedMachine c sum) 0 cs name = .ok l := by
  have hz : c.fl 0 = 0 := (hc.fl 0).self isDouble_zero
  constructor
  · rw [rounded_scale hget hb, sub_self, hz, zero_div, hz]
    simp
  · rw [rounded_unscale hlu.le hget hb, C141_zero hc hl, max_self, min_eq_right hlu.le]

/-- **C146** if the width of the range is a power of two, every value whose distance from the lower bound is a double is reproduced exactly. -/
theorem C146_exact {k : ℤ} (hc : CorrectlyRoundedExp c) (hk : u - l = (2 : ℝ) ^ k) (hget : cs.get name = .ok hp)
    (hb : hp.numerical? = some (l, u, false)) (h1 : l ≤ v) (h2 : v ≤ u) (hv : IsDouble v) (hd : IsDouble (v - l)) :
    ∃ t, @scaleFloatM ℝ (roundedMachine c sum) v cs name = .ok t ∧ t = (v - l) / (u - l) ∧ @unscaleFloatM ℝ (roundedMachine c sum) t cs name = .ok v := by
  have hw : (0 : ℝ) < 2 ^ k := by positivity
  have hlu : l < u := by linarith
  have f1 : c.fl (v - l) = v - l := (hc.fl _).self hd
  have f2 : c.fl (u - l) = u - l := (hc.fl _).self (by rw [hk]; exact ⟨1, k, by norm_num, by simp⟩)
  have f3 : c.fl ((v - l) / (u - l)) = (v - l) / (u - l) := by
    refine (hc.fl _).self ?_
    have := hd.scale (-k)
    rwa [zpow_neg, ← div_eq_mul_inv, ← hk] at this
  have hD : u - l ≠ 0 := by linarith
  have b0 : 0 ≤ (v - l) / (u - l) := div_nonneg (by linarith) (by linarith)
  have b1 : (v - l) / (u - l) ≤ 1 := by rw [div_le_one (by linarith)]; linarith
  refine ⟨(v - l) / (u - l), ?_, rfl, ?_⟩
  · rw [rounded_scale hget hb, f1, f2, f3, min_eq_right b1, max_eq_right b0]
  · rw [rounded_unscale hlu.le hget hb]
    simp only [unscaleNumF, Bool.false_eq_true, if_false, f2]
    rw [div_mul_cancel₀ _ hD, f1, sub_add_cancel, (hc.fl _).self hv, max_eq_right h1, min_eq_right h2]

/-- `x` between 0 and 49 -/
private noncomputable def x49 : Hp ℝ := ⟨"x", .float 0 49 false⟩

/-- **C146** `x` is between 0 and 49; the condition `x <= 1`, made from the value 1, is not satisfied by `x = 1`: it has the value 0.9999999999999999. -/
theorem C146_counterexample : ∃ hp : Hp ℝ, hp.kind = .float 0 49 false ∧ ∀ (c : ComputedExp) (sum : List ℝ → ℝ), CorrectlyRoundedExp c →
    ∃ cond, @condFromValueM ℝ (roundedMachine c sum) [hp] hp 1 (some true) = .ok cond ∧
      @condValueM ℝ (roundedMachine c sum) [hp] cond = .ok (.flt (1 - (2 : ℝ) ^ (-53 : ℤ))) ∧
      ∀ cfg : Config ℝ, cfg.get? hp.name = some (.num 1) → @isSatisfiedM ℝ (roundedMachine c sum) [hp] cond cfg = .ok false := by
  refine ⟨x49, rfl, fun c sum hc => ?_⟩
  have hget : ConfigSpace.get [x49] x49.name = .ok x49 := by simp [ConfigSpace.get, x49]
  have hb : x49.numerical? = some (0, 49, false) := rfl
  have he53 : (2 : ℝ) ^ (-53 : ℤ) = 1 / 9007199254740992 := by rw [zpow_neg]; norm_num
  have he58 : (2 : ℝ) ^ (-58 : ℤ) = 1 / 288230376151711744 := by rw [zpow_neg]; norm_num
  have f1 : c.fl (1 - 0) = 1 := by rw [sub_zero]; exact (hc.fl _).self ⟨1, 0, by norm_num, by norm_num⟩
  have f2 : c.fl (49 - 0) = 49 := by rw [sub_zero]; exact (hc.fl _).self ⟨49, 0, by norm_num, by norm_num⟩
  have f3 : c.fl (1 / 49) = 5882252574524729 / 288230376151711744 := by
    have h := (hc.fl (1 / 49)).eq_of_close (m := 5882252574524729) (e := -58) ⟨5882252574524729, -58, by norm_num, rfl⟩ (by norm_num)
      (by rw [he58, abs_lt]; norm_num)
    rw [h, he58]
    norm_num
  have f4 : c.fl (5882252574524729 / 288230376151711744 * 49) = 1 - 1 / 9007199254740992 := by
    have h := (hc.fl (5882252574524729 / 288230376151711744 * 49)).eq_of_close (m := 9007199254740991) (e := -53)
      ⟨9007199254740991, -53, by norm_num, rfl⟩ (by norm_num) (by rw [he53, abs_lt]; norm_num)
    rw [h, he53]
    norm_num
  have f5 : c.fl (1 - 1 / 9007199254740992 + 0) = 1 - 1 / 9007199254740992 := by
    rw [add_zero]
    exact (hc.fl _).self ⟨9007199254740991, -53, by norm_num, by rw [he53]; norm_num⟩
  have hs : @scaleFloatM ℝ (roundedMachine c sum) 1 [x49] x49.name = .ok (5882252574524729 / 288230376151711744) := by
    rw [rounded_scale hget hb, f1, f2, f3]
    norm_num
  have hv : @unscaleFloatM ℝ (roundedMachine c sum) (5882252574524729 / 288230376151711744) [x49] x49.name = .ok (1 - 1 / 9007199254740992) := by
    rw [rounded_unscale (by norm_num) hget hb]
    simp only [unscaleNumF, Bool.false_eq_true, if_false, f2, f4, f5]
    norm_num
  refine ⟨⟨x49, .flt (5882252574524729 / 288230376151711744), some true⟩, ?_, ?_, ?_⟩
  · unfold condFromValueM
    rw [hs]
    rfl
  · simp only [condValueM, hv, Py.map_ok, he53]
  · intro cfg hcfg
    simp only [isSatisfiedM, condValueM, hv, Py.map_ok, Py.ok_bind, hcfg, compareFloatM, if_true]
    congr 1
    simp only [Machine.le, decide_eq_false_iff_not, not_le]
    norm_num

/-- non-trivial case: between 1 and 5 the value 2.5 is reproduced -/
example (hc : CorrectlyRoundedExp c) : ∃ t, @scaleFloatM ℝ (roundedMachine c sum) (5 / 2) [⟨"x", .float 1 5 false⟩] "x" = .ok t ∧ t = 3 / 8 ∧
    @unscaleFloatM ℝ (roundedMachine c sum) t [⟨"x", .float 1 5 false⟩] "x" = .ok (5 / 2) := by
  obtain ⟨t, h1, h2, h3⟩ := C146_exact (sum := sum) (k := 2) (l := 1) (u := 5) (v := 5 / 2) (cs := [⟨"x", .float 1 5 false⟩]) (name := "x")
    (hp := ⟨"x", .float 1 5 false⟩) hc (by norm_num) (by simp [ConfigSpace.get]) rfl (by norm_num) (by norm_num)
    ⟨5, -1, by norm_num, by rw [zpow_neg]; norm_num⟩ ⟨3, -1, by norm_num, by rw [zpow_neg]; norm_num⟩
  exact ⟨t, h1, by rw [h2]; norm_num, h3⟩

end PyPDP
