/-
C140: the values at which `plot_function` evaluates a function, with rounded arithmetic.
-/
import Verif.Model.RoundedRanges
import Verif.Spec.RoundedRanges
import Verif.Lemmas.Double
import Verif.Lemmas.Log10
import Verif.Props.PlotFunction
import Verif.Props.Blackbox

namespace PyPDP
open Spec

/-! ### exact functions: the model of C07 and C73 -/

/-- the exact functions -/
noncomputable def exactly : Computed := ⟨id, Real.logb 10, fun y => (10 : ℝ) ^ y⟩

theorem linspaceF_id (a b : ℝ) (n : Nat) : linspaceF id a b n = linspace a b n := by
  unfold linspaceF linspace
  refine List.map_congr_left fun i _ => ?_
  simp only [id, add_comm a]

theorem uniformRangeF_exactly (n : Nat) (scaled : Bool) : uniformRangeF exactly n scaled = uniformRange n scaled := by
  funext hp
  unfold uniformRangeF uniformRange exactly
  simp only [linspaceF_id]
  rfl

/-- **C140** (exact) without rounding this is the plot of C73. -/
theorem C140_exact (f : List (String × Val ℝ) → Py ℝ) (cs : ConfigSpace ℝ) (n : Nat) (color : String) :
    plotFunctionF exactly f cs n color = plotFunction f cs n color := by
  unfold plotFunctionF plotFunction getUniformDistributedRangesF getUniformDistributedRanges
  rw [uniformRangeF_exactly]

/-! ### rounding -/

theorem Spec.Nearest.mono {x y r s : ℝ} (hx : Nearest x r) (hy : Nearest y s) (h : x < y) : r ≤ s := by
  by_contra hc
  push Not at hc
  have h1 : s < x := by
    by_contra hh
    exact absurd (hx.le hy.1 (not_lt.1 hh)) (not_le.2 hc)
  have h2 : y < r := by
    by_contra hh
    exact absurd (hy.ge hx.1 (not_lt.1 hh)) (not_le.2 hc)
  have h3 := hx.2 s hy.1
  have h4 := hy.2 r hx.1
  rw [abs_of_neg (by linarith), abs_of_pos (by linarith)] at h3
  rw [abs_of_pos (by linarith), abs_of_neg (by linarith)] at h4
  linarith

/-- a function that rounds correctly an increasing function is increasing -/
theorem rounded_mono {f g : ℝ → ℝ} {x y : ℝ} (hx : Nearest (f x) (g x)) (hy : Nearest (f y) (g y)) (hf : x < y → f x < f y) (h : x ≤ y) :
    g x ≤ g y := by
  rcases h.lt_or_eq with h | rfl
  · exact hx.mono hy (hf h)
  · exact le_refl _

/-- a multiple of `2 ^ e` that is near enough and not too small is the rounded number -/
theorem Spec.Nearest.eq_of_close {y r : ℝ} (h : Nearest y r) {m e : ℤ} (hq : IsDouble (m * (2 : ℝ) ^ e))
    (hbig : 2 ^ 52 < |m| - 1) (hy : |y - m * (2 : ℝ) ^ e| < (2 : ℝ) ^ e / 2) : r = m * (2 : ℝ) ^ e := by
  have hg : (0 : ℝ) < (2 : ℝ) ^ e := by positivity
  have h1 := h.2 _ hq
  have h2 : |r - m * (2 : ℝ) ^ e| < (2 : ℝ) ^ e := by
    have := abs_sub_le r y (m * (2 : ℝ) ^ e)
    rw [abs_sub_comm r y] at this
    linarith
  obtain ⟨m', e', hm', rfl⟩ := h.1
  have hge : e ≤ e' := by
    by_contra hlt
    have h3 : (2 : ℝ) ^ e' ≤ (2 : ℝ) ^ e / 2 := by
      have : (2 : ℝ) ^ e' ≤ (2 : ℝ) ^ (e - 1) := zpow_le_zpow_right₀ (by norm_num) (by omega)
      rwa [zpow_sub_one₀ (by norm_num), ← div_eq_mul_inv] at this
    have h4 : |(m' : ℝ) * (2 : ℝ) ^ e'| ≤ 2 ^ 52 * (2 : ℝ) ^ e := by
      rw [abs_mul, abs_of_pos (show (0 : ℝ) < (2 : ℝ) ^ e' by positivity)]
      have h5 : |(m' : ℝ)| ≤ 2 ^ 53 := by exact_mod_cast hm'
      calc |(m' : ℝ)| * (2 : ℝ) ^ e' ≤ 2 ^ 53 * ((2 : ℝ) ^ e / 2) := mul_le_mul h5 h3 (by positivity) (by positivity)
        _ = 2 ^ 52 * (2 : ℝ) ^ e := by ring
    have h6 : |(m : ℝ) * (2 : ℝ) ^ e| = |(m : ℝ)| * (2 : ℝ) ^ e := by rw [abs_mul, abs_of_pos hg]
    have h7 : (2 : ℝ) ^ 52 + 1 < |(m : ℝ)| := by
      have : ((2 ^ 52 : ℤ) : ℝ) < ((|m| - 1 : ℤ) : ℝ) := Int.cast_lt.2 hbig
      push_cast at this
      linarith
    have h8 : ((2 : ℝ) ^ 52 + 1) * (2 : ℝ) ^ e < |(m : ℝ)| * (2 : ℝ) ^ e := mul_lt_mul_of_pos_right h7 hg
    have h9 := abs_sub_abs_le_abs_sub ((m : ℝ) * (2 : ℝ) ^ e) ((m' : ℝ) * (2 : ℝ) ^ e')
    rw [abs_sub_comm ((m : ℝ) * (2 : ℝ) ^ e)] at h9
    linarith
  obtain ⟨c, hc⟩ : ∃ c : ℤ, (m' : ℝ) * (2 : ℝ) ^ e' = c * (2 : ℝ) ^ e := by
    refine ⟨m' * 2 ^ (e' - e).toNat, ?_⟩
    push_cast
    rw [mul_assoc, ← zpow_natCast, ← zpow_add₀ (by norm_num)]
    congr 2
    omega
  rw [hc, ← sub_mul, abs_mul, abs_of_pos hg] at h2
  have h3 : |(c : ℝ) - m| < 1 := by
    by_contra hh
    have := mul_le_mul_of_nonneg_right (not_lt.1 hh) hg.le
    linarith
  have h4 : |c - m| < 1 := by exact_mod_cast h3
  have h5 : c = m := by have := Int.abs_lt_one_iff.1 h4; omega
  rw [hc, h5]

theorem Spec.Nearest.upper {x r : ℝ} (h : Nearest x r) (hx : 0 ≤ x) : r ≤ x * (1 + 1 / 2 ^ 53) := by
  have := h.error
  rw [abs_of_nonneg hx, zpow_neg] at this
  have h2 := (abs_le.1 this).1
  norm_num at h2 ⊢
  linarith

/-! ### linspace -/

theorem mem_linspaceF {fl : ℝ → ℝ} {a b x : ℝ} {n : Nat} (h : x ∈ linspaceF fl a b n) :
    ∃ i < n, x = if i + 1 = n ∧ 1 < n then b else fl (fl ((i : ℝ) * fl (fl (b - a) / ((n : ℝ) - 1))) + a) := by
  obtain ⟨i, hi, rfl⟩ := List.mem_map.1 h
  exact ⟨i, List.mem_range.1 hi, rfl⟩

theorem linspaceF_within {fl : ℝ → ℝ} (hfl : RoundsToNearest fl) {a b : ℝ} (ha : IsDouble a) (hb : IsDouble b)
    (hab : a ≤ b) {n : Nat} (hn : n ≤ 2 ^ 51) : InBounds a b (linspaceF fl a b n) := by
  intro x hx
  obtain ⟨i, hi, rfl⟩ := mem_linspaceF hx
  split
  · exact ⟨hab, le_refl _⟩
  rename_i hlast
  have h0 : IsDouble 0 := ⟨0, 0, by norm_num, by simp⟩
  rcases Nat.lt_or_ge 1 n with h1 | h1
  · have hi2 : i + 2 ≤ n := by omega
    obtain ⟨D, hD⟩ : ∃ D, D = b - a := ⟨_, rfl⟩
    have hD0 : 0 ≤ D := by rw [hD]; linarith
    have hn1 : (1 : ℝ) ≤ (n : ℝ) - 1 := by
      have : (2 : ℝ) ≤ n := by exact_mod_cast h1
      linarith
    rw [← hD]
    have d0 : 0 ≤ fl D := (hfl D).ge h0 hD0
    have d1 := (hfl D).upper hD0
    have s0 : 0 ≤ fl D / ((n : ℝ) - 1) := by positivity
    have s0' := (hfl _).ge h0 s0
    have s1 := (hfl (fl D / ((n : ℝ) - 1))).upper s0
    generalize fl (fl D / ((n : ℝ) - 1)) = st at *
    have p0 : 0 ≤ (i : ℝ) * st := by positivity
    have p0' := (hfl _).ge h0 p0
    have p1 := (hfl ((i : ℝ) * st)).upper p0
    generalize fl ((i : ℝ) * st) = p at *
    have hy := hfl (p + a)
    have hpD : p ≤ D := by
      have hi' : (i : ℝ) ≤ (n : ℝ) - 1 - 1 := by
        have : (i : ℝ) + 2 ≤ n := by exact_mod_cast hi2
        linarith
      have hn' : (n : ℝ) - 1 ≤ 2 ^ 51 := by
        have : (n : ℝ) ≤ 2 ^ 51 := by exact_mod_cast hn
        linarith
      clear hx
      generalize (n : ℝ) - 1 = N at *
      have hN0 : 0 < N := by linarith
      have e1 : st ≤ D * (1 + 1 / 2 ^ 53) / N * (1 + 1 / 2 ^ 53) :=
        s1.trans (mul_le_mul_of_nonneg_right (div_le_div_of_nonneg_right d1 hN0.le) (by positivity))
      have e2 : p ≤ (N - 1) * (D * (1 + 1 / 2 ^ 53) / N * (1 + 1 / 2 ^ 53)) * (1 + 1 / 2 ^ 53) :=
        p1.trans (mul_le_mul_of_nonneg_right (mul_le_mul hi' e1 s0' (by linarith)) (by positivity))
      refine e2.trans ?_
      have e3 : (N - 1) * (D * (1 + 1 / 2 ^ 53) / N * (1 + 1 / 2 ^ 53)) * (1 + 1 / 2 ^ 53) = D * ((N - 1) * (1 + 1 / 2 ^ 53) ^ 3 / N) := by ring
      rw [e3]
      refine mul_le_of_le_one_right hD0 ?_
      rw [div_le_one hN0]
      have e4 : ((1 : ℝ) + 1 / 2 ^ 53) ^ 3 ≤ 1 + 1 / 2 ^ 51 := by norm_num
      have e5 : (N - 1) * (1 + 1 / 2 ^ 53) ^ 3 ≤ (N - 1) * (1 + 1 / 2 ^ 51) := mul_le_mul_of_nonneg_left e4 (by linarith)
      have e6 : (N - 1) * (1 + 1 / 2 ^ 51) = N - 1 + (N - 1) / 2 ^ 51 := by ring
      have e7 : (N - 1) / 2 ^ 51 ≤ 1 := by rw [div_le_one (by positivity)]; linarith
      linarith
    exact ⟨hy.ge ha (by linarith), hy.le hb (by linarith)⟩
  · have hi0 : i = 0 := by omega
    subst hi0
    have z : fl 0 = 0 := (hfl 0).self h0
    have aa : fl a = a := (hfl a).self ha
    simp only [Nat.cast_zero, zero_mul, z, zero_add, aa]
    exact ⟨le_refl _, hab⟩

theorem linspaceF_first {fl : ℝ → ℝ} (hfl : RoundsToNearest fl) {a b : ℝ} (ha : IsDouble a) {n : Nat} (hn : 1 ≤ n) :
    (linspaceF fl a b n)[0]? = some a := by
  have h0 : IsDouble 0 := ⟨0, 0, by norm_num, by simp⟩
  have z : fl 0 = 0 := (hfl 0).self h0
  have aa : fl a = a := (hfl a).self ha
  unfold linspaceF
  rw [List.getElem?_map, List.getElem?_range (by omega)]
  simp only [Option.map_some]
  rw [if_neg (by omega)]
  simp [z, aa]

theorem linspaceF_last (fl : ℝ → ℝ) (a b : ℝ) {n : Nat} (hn : 2 ≤ n) : (linspaceF fl a b n)[n - 1]? = some b := by
  unfold linspaceF
  rw [List.getElem?_map, List.getElem?_range (by omega)]
  simp only [Option.map_some]
  rw [if_pos (by omega)]

/-- **C140** (linear) the values of a hyperparameter that is not logarithmic lie within its bounds, with every rounding; the first is
the lower bound, the last the upper bound. -/
theorem C140_linear {c : Computed} (hc : CorrectlyRounded c) {hp : Hp ℝ} {l u : ℝ} (hhp : hp.numerical? = some (l, u, false))
    (hl : IsDouble l) (hu : IsDouble u) (hlu : l ≤ u) {n : Nat} (hn : n ≤ 2 ^ 51) :
    ∃ row, uniformRangeF c n false hp = .ok row ∧ row.length = n ∧ InBounds l u row ∧ (1 ≤ n → row[0]? = some l) ∧
      (2 ≤ n → row[n - 1]? = some u) :=
  ⟨linspaceF c.fl l u n, by simp [uniformRangeF, hhp], by simp [linspaceF], linspaceF_within hc.fl hl hu hlu hn, linspaceF_first hc.fl hl,
    linspaceF_last _ _ _⟩

/-- **C140** (logarithmic) the values of a logarithmic hyperparameter lie within its bounds if and only if taking the logarithm of each
bound and then the power does not leave them; they are the first and the last value. -/
theorem C140_log_exact {c : Computed} (hc : CorrectlyRounded c) {hp : Hp ℝ} {l u : ℝ} (hhp : hp.numerical? = some (l, u, true))
    (hl : 0 < l) (hlu : l ≤ u) {n : Nat} (hn2 : 2 ≤ n) (hn : n ≤ 2 ^ 51) :
    ∃ row, uniformRangeF c n false hp = .ok row ∧ row.length = n ∧ row[0]? = some (c.pow10 (c.log10 l)) ∧
      row[n - 1]? = some (c.pow10 (c.log10 u)) ∧ (InBounds l u row ↔ l ≤ c.pow10 (c.log10 l) ∧ c.pow10 (c.log10 u) ≤ u) := by
  have hL := hc.log10 l hl
  have hU := hc.log10 u (by linarith)
  have hLU : c.log10 l ≤ c.log10 u := rounded_mono hL hU (fun h => Real.logb_lt_logb (by norm_num) hl h) hlu
  have hw := linspaceF_within hc.fl hL.1 hU.1 hLU hn
  have hpow : ∀ {x y}, x ≤ y → c.pow10 x ≤ c.pow10 y := fun {x y} h =>
    rounded_mono (f := fun y => (10 : ℝ) ^ y) (hc.pow10 x) (hc.pow10 y) (fun h => Real.rpow_lt_rpow_of_exponent_lt (by norm_num) h) h
  have hf := linspaceF_first (b := c.log10 u) hc.fl hL.1 (n := n) (by omega)
  have hla := linspaceF_last c.fl (c.log10 l) (c.log10 u) hn2
  refine ⟨(linspaceF c.fl (c.log10 l) (c.log10 u) n).map c.pow10, by simp [uniformRangeF, hhp], by simp [linspaceF],
    by rw [List.getElem?_map, hf]; rfl, by rw [List.getElem?_map, hla]; rfl, ?_, ?_⟩
  · intro h
    exact ⟨(h _ (List.mem_map_of_mem (List.mem_of_getElem? hf))).1, (h _ (List.mem_map_of_mem (List.mem_of_getElem? hla))).2⟩
  · rintro ⟨h1, h2⟩ x hx
    obtain ⟨e, he, rfl⟩ := List.mem_map.1 hx
    exact ⟨h1.trans (hpow (hw e he).1), (hpow (hw e he).2).trans h2⟩

/-! ### powers of ten -/

theorem log_ten_bounds : (2.302 : ℝ) < Real.log 10 ∧ Real.log 10 < 2.303 := by
  rw [log_ten]
  have h1 := log_two_digits
  have h2 := log_five_quarters_digits
  norm_num at h1 h2 ⊢
  constructor <;> linarith [h1.1, h1.2, h2.1, h2.2]

/-- the computed logarithm of a rounded power of ten is the exponent -/
theorem log10_power {c : Computed} (hc : CorrectlyRounded c) {k : ℤ} (hk : |k| ≤ 2 ^ 10) : c.log10 (c.pow10 k) = k := by
  have hp := hc.pow10 k
  have hpos : (0 : ℝ) < (10 : ℝ) ^ (k : ℝ) := by positivity
  have herr := hp.error
  rw [abs_of_pos hpos] at herr
  obtain ⟨x, hx⟩ : ∃ x : ℝ, x = (10 : ℝ) ^ (k : ℝ) := ⟨_, rfl⟩
  obtain ⟨p, hpd⟩ : ∃ p : ℝ, p = c.pow10 k := ⟨_, rfl⟩
  rw [← hx, ← hpd] at herr
  rw [← hx] at hpos
  have hu : (2 : ℝ) ^ (-53 : ℤ) = 1 / 2 ^ 53 := by rw [zpow_neg]; norm_num
  rw [hu] at herr
  -- the ratio
  obtain ⟨t, ht⟩ : ∃ t : ℝ, p = x * (1 + t) := ⟨p / x - 1, by field_simp; ring⟩
  have ht1 : |t| ≤ 1 / 2 ^ 53 := by
    have : |x - p| = x * |t| := by rw [ht, show x - x * (1 + t) = x * -t by ring, abs_mul, abs_of_pos hpos, abs_neg]
    rw [this] at herr
    exact le_of_mul_le_mul_left herr hpos
  have ht2 := abs_le.1 ht1
  have h1t : 0 < 1 + t := by norm_num at ht2 ⊢; linarith [ht2.1]
  have hppos : 0 < p := by rw [ht]; positivity
  have hln := log_ten_bounds
  have hlog10 : 0 < Real.log 10 := by linarith [hln.1]
  have hlogx : Real.log x = k * Real.log 10 := by rw [hx, Real.log_rpow (by norm_num)]
  have hlogb : Real.logb 10 p - k = Real.log (1 + t) / Real.log 10 := by
    rw [Real.logb, ht, Real.log_mul hpos.ne' h1t.ne', hlogx]
    field_simp
    ring
  have hsmall : |Real.logb 10 p - k| < 1 / 2 ^ 54 := by
    rw [hlogb, abs_div, abs_of_pos hlog10, div_lt_iff₀ hlog10]
    have u1 : Real.log (1 + t) ≤ t := by have := Real.log_le_sub_one_of_pos h1t; linarith
    have u2 : -(2 * (1 / 2 ^ 54) * (1 + 1 / 2 ^ 50)) ≤ Real.log (1 + t) := by
      have := Real.log_le_sub_one_of_pos (inv_pos.2 h1t)
      rw [Real.log_inv] at this
      have hinv : (1 + t)⁻¹ ≤ 1 + 2 * (1 / 2 ^ 54) * (1 + 1 / 2 ^ 50) := by
        rw [inv_le_comm₀ h1t (by positivity)]
        refine le_trans ?_ (show 1 - 1 / 2 ^ 53 ≤ 1 + t by linarith [ht2.1])
        norm_num
      linarith
    rw [abs_lt]
    norm_num at u1 u2 ht2 hln ⊢
    constructor <;> linarith [u1, u2, ht2.1, ht2.2, hln.1]
  have hL := hc.log10 p hppos
  rw [← hpd]
  have hkd : IsDouble k := isDouble_int (hk.trans (by norm_num))
  by_cases hk0 : k = 0
  · subst hk0
    have hx1 : x = 1 := by rw [hx]; simp
    have : p = 1 := by
      rw [hpd]
      have h1 : IsDouble 1 := ⟨1, 0, by norm_num, by simp⟩
      rw [← hx, hx1] at hp
      exact hp.self h1
    rw [this] at hL ⊢
    rw [Real.logb_one] at hL
    rw [hL.self ⟨0, 0, by norm_num, by simp⟩]
    simp
  · have hkz : ((k * 2 ^ 53 : ℤ) : ℝ) * (2 : ℝ) ^ (-53 : ℤ) = k := by
      push_cast
      rw [hu, mul_assoc]
      norm_num
    have hk1 : 1 ≤ |k| := Int.one_le_abs hk0
    have := hL.eq_of_close (m := k * 2 ^ 53) (e := -53) (by rw [hkz]; exact hkd) (by
      rw [abs_mul, abs_of_pos (by norm_num : (0 : ℤ) < 2 ^ 53)]
      norm_num
      omega) (by
      rw [hkz, hu]
      norm_num at hsmall ⊢
      exact hsmall)
    rw [this, hkz]

/-- **C140** (powers of ten; partial: not for all bounds) if the bounds of a logarithmic hyperparameter are powers of ten (`1e-5`,
`1000`, …: the doubles nearest to them), all values lie within the bounds, and the first and the last one are the bounds. -/
theorem C140_powers_partial {c : Computed} (hc : CorrectlyRounded c) {hp : Hp ℝ} {i j : ℤ} (hi : |i| ≤ 2 ^ 10) (hj : |j| ≤ 2 ^ 10) (hij : i ≤ j)
    (hhp : hp.numerical? = some (c.pow10 i, c.pow10 j, true)) {n : Nat} (hn2 : 2 ≤ n) (hn : n ≤ 2 ^ 51) :
    ∃ row, uniformRangeF c n false hp = .ok row ∧ row.length = n ∧ row[0]? = some (c.pow10 i) ∧ row[n - 1]? = some (c.pow10 j) ∧
      InBounds (c.pow10 i) (c.pow10 j) row := by
  have hpos : 0 < c.pow10 i := by
    have h := (hc.pow10 i).error
    have hp : (0 : ℝ) < (10 : ℝ) ^ (i : ℝ) := by positivity
    rw [abs_of_pos hp, zpow_neg] at h
    have h2 := (abs_le.1 h).2
    norm_num at h2
    norm_num at hp
    linarith
  have hle : c.pow10 i ≤ c.pow10 j :=
    rounded_mono (f := fun y => (10 : ℝ) ^ y) (hc.pow10 i) (hc.pow10 j) (fun h => Real.rpow_lt_rpow_of_exponent_lt (by norm_num) h)
      (by exact_mod_cast hij)
  obtain ⟨row, h1, h2, h3, h4, h5⟩ := C140_log_exact hc hhp hpos hle hn2 hn
  rw [log10_power hc hi] at h3 h5
  rw [log10_power hc hj] at h4 h5
  exact ⟨row, h1, h2, h3, h4, h5.2 ⟨le_refl _, le_refl _⟩⟩

/-! ### plot_function -/

/-- **C140** (plot) if the values of the only varying hyperparameter lie within the bounds, a function that is defined within the bounds
is drawn, evaluated at exactly those values. -/
theorem C140_plot {c : Computed} {cs : ConfigSpace ℝ} {p : Hp ℝ} (hcs : varying cs = [p]) {l u : ℝ} {n : Nat} {row : List ℝ}
    (hrow : uniformRangeF c n false p = .ok row) (hw : InBounds l u row) {f : List (String × Val ℝ) → Py ℝ} {Y : ℝ → ℝ}
    (hf : ∀ consts, ConstantsOf cs consts → ∀ a, l ≤ a → a ≤ u → f ((p.name, .num a) :: consts) = .ok (Y a)) (color : String) {ax ax' : Ax ℝ}
    (hax : checkAndSetAxis [p] true "Prediction" ax = (ax', .ok ())) :
    plotFunctionF c f cs n color ax = (ax'.draw [.line color row (row.map Y)], .ok ()) := by
  have hpar : parametersOf cs = [p] := by rw [parametersOf_eq, hcs]
  have hmap : row.mapM (fun t => f ((p.name, .num t) :: constantsOf cs)) = .ok (row.map Y) := by
    rw [Py.mapM_eq_ok, List.forall₂_map_right_iff, List.forall₂_same]
    exact fun a ha => hf _ (constantsOf_spec cs) a (hw a ha).1 (hw a ha).2
  have hr : getUniformDistributedRangesF c [p] n false = .ok [row] := by
    simp [getUniformDistributedRangesF, hrow]
  unfold plotFunctionF
  rw [hpar, if_neg (by simp), if_neg (by simp), hr, Plot.lift_bind_ok, Plot.bind_ok hax]
  simp only [plotValues]
  rw [show pyGet [row] 0 = .ok row from rfl, Plot.lift_bind_ok, hmap, Plot.lift_bind_ok]
  unfold drawLine
  rw [if_pos ⟨zero_le_one, le_refl _, by simp⟩, Plot.add_eq]

/-! ### the bounds 2⁻¹⁰ and 2¹⁰ -/

/-- the double that is nearest to the decimal logarithm of 1024 -/
private noncomputable def logKilo : ℝ := ((6778592881498239 : ℤ) : ℝ) * (2 : ℝ) ^ (-51 : ℤ)

private theorem logKilo_eq : logKilo = 6778592881498239 / 2 ^ 51 := by
  unfold logKilo
  rw [zpow_neg, div_eq_mul_inv]
  norm_num

private theorem logb_kilo : Real.logb 10 1024 = 10 * Real.log 2 / Real.log 10 := by
  rw [Real.logb, show (1024 : ℝ) = 2 ^ 10 by norm_num, Real.log_pow]
  norm_num

private theorem logKilo_near : |Real.logb 10 1024 - logKilo| < 1 / 2 ^ 52 := by
  have h1 := log_two_digits
  have h2 := log_five_quarters_digits
  have h3 : 0 < Real.log 10 := by linarith [log_ten_bounds.1]
  rw [logb_kilo, logKilo_eq, show 10 * Real.log 2 / Real.log 10 - 6778592881498239 / 2 ^ 51 =
    (10 * Real.log 2 - 6778592881498239 / 2 ^ 51 * Real.log 10) / Real.log 10 by field_simp, abs_div, abs_of_pos h3, div_lt_iff₀ h3, log_ten, abs_lt]
  norm_num at h1 h2 ⊢
  constructor <;> linarith [h1.1, h1.2, h2.1, h2.2]

private theorem nearest_logKilo {r : ℝ} (h : Nearest (Real.logb 10 1024) r) : r = logKilo := by
  refine h.eq_of_close (m := 6778592881498239) (e := -51) ⟨_, _, by norm_num, rfl⟩ (by norm_num) ?_
  have := logKilo_near
  unfold logKilo at this
  refine this.trans_le (le_of_eq ?_)
  rw [zpow_neg]
  norm_num

theorem Spec.Nearest.neg {x r : ℝ} (h : Nearest x r) : Nearest (-x) (-r) := by
  obtain ⟨⟨m, e, hm, rfl⟩, h2⟩ := h
  refine ⟨⟨-m, e, by rwa [abs_neg], by push_cast; ring⟩, ?_⟩
  rintro _ ⟨m', e', hm', rfl⟩
  have := h2 (-(m' * (2 : ℝ) ^ e')) ⟨-m', e', by rwa [abs_neg], by push_cast; ring⟩
  rw [← abs_neg, ← abs_neg (-x - _)]
  convert this using 2 <;> ring

/-- the rounded logarithm is larger than the exact one -/
private theorem logKilo_gt : 10 * Real.log 2 + 1 / 2 ^ 53 < logKilo * Real.log 10 := by
  have h1 := log_two_digits
  have h2 := log_five_quarters_digits
  rw [logKilo_eq, log_ten]
  norm_num at h1 h2 ⊢
  linarith [h1.1, h1.2, h2.1, h2.2]

private theorem power_gt : 1024 * (1 + 1 / 2 ^ 53) < (10 : ℝ) ^ logKilo := by
  have h0 : (0 : ℝ) < 1 + 1 / 2 ^ 53 := by positivity
  rw [← Real.log_lt_log_iff (by positivity) (by positivity), Real.log_rpow (by norm_num), Real.log_mul (by norm_num) h0.ne',
    show (1024 : ℝ) = 2 ^ 10 by norm_num, Real.log_pow]
  have h1 := Real.log_le_sub_one_of_pos h0
  have h2 := logKilo_gt
  push_cast
  linarith

private theorem power_lt : (10 : ℝ) ^ (-logKilo) < 1 / 1024 * (1 - 1 / 2 ^ 54) := by
  have h0 : (0 : ℝ) < 1 - 1 / 2 ^ 54 := by norm_num
  rw [← Real.log_lt_log_iff (by positivity) (by positivity), Real.log_rpow (by norm_num), Real.log_mul (by norm_num) h0.ne',
    show (1 / 1024 : ℝ) = (2 ^ 10)⁻¹ by norm_num, Real.log_inv, Real.log_pow]
  have h1 := Real.log_le_sub_one_of_pos (inv_pos.2 h0)
  rw [Real.log_inv] at h1
  have h2 := logKilo_gt
  have h3 : ((1 : ℝ) - 1 / 2 ^ 54)⁻¹ - 1 ≤ 1 / 2 ^ 53 := by norm_num
  push_cast
  linarith

/-- the computed bounds leave [2⁻¹⁰, 2¹⁰] on both sides -/
private theorem kilo_leaves {c : Computed} (hc : CorrectlyRounded c) : c.pow10 (c.log10 (1 / 1024)) < 1 / 1024 ∧ 1024 < c.pow10 (c.log10 1024) := by
  have hup : c.log10 1024 = logKilo := nearest_logKilo (hc.log10 1024 (by norm_num))
  have hlo : c.log10 (1 / 1024) = -logKilo := by
    have h := (hc.log10 (1 / 1024) (by norm_num)).neg
    rw [show (1 / 1024 : ℝ) = 1024⁻¹ by norm_num, Real.logb_inv, neg_neg] at h
    rw [show (1 / 1024 : ℝ) = 1024⁻¹ by norm_num, ← nearest_logKilo h, neg_neg]
  rw [hup, hlo]
  constructor
  · have h := hc.pow10 (-logKilo)
    have hx := power_lt
    generalize (10 : ℝ) ^ (-logKilo) = x at *
    generalize c.pow10 (-logKilo) = r at *
    by_contra hr
    push Not at hr
    have h1 := h.2 (1 / 1024 * (1 - 1 / 2 ^ 53)) ⟨2 ^ 53 - 1, -63, by norm_num, by rw [zpow_neg]; norm_num⟩
    rw [abs_of_neg (by norm_num at hr hx ⊢; linarith), le_abs] at h1
    norm_num at h1 hx hr
    rcases h1 with h1 | h1 <;> linarith
  · have h := hc.pow10 logKilo
    have hx := power_gt
    generalize (10 : ℝ) ^ logKilo = x at *
    generalize c.pow10 logKilo = r at *
    by_contra hr
    push Not at hr
    have h1 := h.2 (1024 * (1 + 1 / 2 ^ 52)) ⟨2 ^ 52 + 1, -42, by norm_num, by rw [zpow_neg]; norm_num⟩
    rw [abs_of_pos (by norm_num at hr hx ⊢; linarith), le_abs] at h1
    norm_num at h1 hx hr
    rcases h1 with h1 | h1 <;> linarith

/-- a logarithmic hyperparameter with the bounds 2⁻¹⁰ and 2¹⁰ -/
private noncomputable def kiloHp : Hp ℝ := ⟨"C", .float (1 / 1024) 1024 true⟩

/-- **C140** fails for logarithmic hyperparameters: with the bounds 2⁻¹⁰ and 2¹⁰ (those of the support vector machine benchmark) the first
value lies below the lower and the last one above the upper bound, however ties are broken; `plot_function` of any blackbox function
of that hyperparameter raises ValueError and draws nothing, although the exact plot succeeds if the function has values. -/
theorem C140_log_counterexample : ∃ hp : Hp ℝ, (∃ l u, hp.numerical? = some (l, u, true) ∧ IsDouble l ∧ IsDouble u ∧ 0 < l ∧ l < u ∧
    ∀ c, CorrectlyRounded c → ∀ n, 2 ≤ n → n ≤ 2 ^ 51 → ∃ row x y, uniformRangeF c n false hp = .ok row ∧
      row[0]? = some x ∧ x < l ∧ row[n - 1]? = some y ∧ u < y) ∧
    (∀ c, CorrectlyRounded c → ∀ (inv : Hp ℝ → Val ℝ → ℝ) (f : BlackboxFn ℝ), f.cs = [hp] → ∀ n, 2 ≤ n → n ≤ 2 ^ 51 → ∀ color,
      ∃ ax, plotFunctionF c (f.call inv) f.cs n color Ax.new = (ax, .error .value) ∧ ax.shapes = []) ∧
    (∀ (inv : Hp ℝ → Val ℝ → ℝ) (f : BlackboxFn ℝ), f.cs = [hp] → (∀ config, ∃ y, f.value config = .ok y) → ∀ n, 2 ≤ n → ∀ color,
      ∃ ax xs ys, plotFunctionF exactly (f.call inv) f.cs n color Ax.new = (ax, .ok ()) ∧ ax.shapes = [.line color xs ys] ∧ xs.length = n) := by
  have hvar : varying [kiloHp] = [kiloHp] := rfl
  have hval : ValidNumerical kiloHp (1 / 1024) 1024 true := ⟨Or.inl rfl, by norm_num, fun _ => by norm_num⟩
  have hd : IsDouble (1 / 1024) := ⟨1, -10, by norm_num, by rw [zpow_neg]; norm_num⟩
  have hd' : IsDouble 1024 := ⟨1024, 0, by norm_num, by norm_num⟩
  obtain ⟨ax', hax, hsh⟩ : ∃ ax', checkAndSetAxis [kiloHp] true "Prediction" Ax.new = (ax', .ok ()) ∧ ax'.shapes = [] := by
    refine ⟨(({ (Ax.new : Ax ℝ) with xlabel := kiloHp.name, ylabel := "Prediction" } : Ax ℝ).boundX true kiloHp), ?_, rfl⟩
    unfold checkAndSetAxis
    simp [Ax.new]
  refine ⟨kiloHp, ⟨1 / 1024, 1024, rfl, hd, hd', by norm_num, by norm_num, ?_⟩, ?_, ?_⟩
  · intro c hc n hn2 hn
    obtain ⟨row, h1, -, h3, h4, -⟩ := C140_log_exact hc (hp := kiloHp) rfl (by norm_num) (by norm_num) hn2 hn
    exact ⟨row, _, _, h1, h3, (kilo_leaves hc).1, h4, (kilo_leaves hc).2⟩
  · intro c hc inv f hf n hn2 hn color
    obtain ⟨row, h1, -, h3, h4, -⟩ := C140_log_exact hc (hp := kiloHp) rfl (by norm_num) (by norm_num) hn2 hn
    have hpar : parametersOf f.cs = [kiloHp] := by rw [parametersOf_eq, hf, hvar]
    have hr : getUniformDistributedRangesF c [kiloHp] n false = .ok [row] := by
      simp [getUniformDistributedRangesF, h1]
    have hm : row.mapM (fun t => f.call inv ((kiloHp.name, .num t) :: constantsOf f.cs)) = .error .value := by
      cases row with
      | nil => simp at h3
      | cons a as =>
        have ha : a = c.pow10 (c.log10 (1 / 1024)) := by simpa using h3
        have : f.call inv ((kiloHp.name, .num a) :: constantsOf f.cs) = .error .value := by
          refine C11_illegal inv f fun hleg => ?_
          obtain ⟨v, hv, hl⟩ := hleg.2 kiloHp (by rw [hf]; simp)
          have hv' : v = .num a := by
            rw [hf] at hv
            simpa [constantsOf, Hp.constant?, kiloHp] using hv
          rw [hv'] at hl
          simp only [Hp.legal, kiloHp, decide_eq_true_eq] at hl
          have := (kilo_leaves hc).1
          rw [← ha] at this
          linarith [hl.1]
        rw [List.mapM_cons, this]
        rfl
    refine ⟨ax', ?_, hsh⟩
    unfold plotFunctionF
    rw [hpar, if_neg (by simp), if_neg (by simp), hr, Plot.lift_bind_ok, Plot.bind_ok hax]
    simp only [plotValues]
    rw [show pyGet [row] 0 = .ok row from rfl, Plot.lift_bind_ok, hm, Plot.lift_bind_error]
  · intro inv f hf hv n hn2 color
    rw [C140_exact]
    obtain ⟨xs, consts, hev, hco, hok, -⟩ := C73_one (cs := f.cs) (p := kiloHp) (by rw [hf, hvar]) hval hn2 (f.call inv) color hax
    have hall : ∀ a : ℝ, ∃ y, a ∈ xs → f.call inv ((kiloHp.name, .num a) :: consts) = .ok y := by
      intro a
      by_cases ha : a ∈ xs
      swap
      · exact ⟨0, fun h => absurd h ha⟩
      have hnil : consts = [] := by
        cases consts with
        | nil => rfl
        | cons q qs =>
          have := (hco.2 q.1 q.2).1 (by simp)
          rw [hf] at this
          simp [kiloHp] at this
      subst hnil
      obtain ⟨i, hi, rfl⟩ := List.getElem_of_mem ha
      have hlen := hev.length
      have hlo : 1 / 1024 ≤ xs[i] := by
        have h0 := hev.head
        rw [List.getElem?_eq_getElem (by omega)] at h0
        have h0' : xs[0] = 1 / 1024 := by simpa using h0
        rw [← h0']
        rcases Nat.eq_zero_or_pos i with rfl | hip
        · exact le_refl _
        · exact (List.pairwise_iff_getElem.1 hev.increasing 0 i (by omega) hi hip).le
      have hhi : xs[i] ≤ 1024 := by
        have h0 := hev.last
        rw [List.getElem?_eq_getElem (by omega)] at h0
        have h0' : xs[n - 1] = 1024 := by simpa using h0
        rw [← h0']
        rcases Nat.lt_or_ge i (n - 1) with hip | hip
        · exact (List.pairwise_iff_getElem.1 hev.increasing i (n - 1) hi (by omega) hip).le
        · have : i = n - 1 := by omega
          subst this
          exact le_refl _
      obtain ⟨config, hcall, -⟩ := C11_legal inv f (kwargs := [(kiloHp.name, .num xs[i])]) (by simp) ⟨by
          intro q hq
          rw [List.mem_singleton.1 hq, hf]
          exact ⟨kiloHp, by simp, rfl⟩, by
          intro hp hm
          rw [hf, List.mem_singleton] at hm
          subst hm
          exact ⟨_, List.mem_singleton.2 rfl, by simp only [Hp.legal, kiloHp, decide_eq_true_eq]; exact ⟨hlo, hhi⟩⟩⟩
      obtain ⟨y, hy⟩ := hv config
      exact ⟨y, fun _ => by rw [hcall, hy]⟩
    choose Y hY using hall
    exact ⟨_, xs, xs.map Y, hok Y hY, by simp [Ax.draw, hsh], hev.length⟩

/-- correctly rounded functions exist -/
theorem correctlyRounded_exists : ∃ c, CorrectlyRounded c := by
  choose r hr using nearest_exists
  exact ⟨⟨r, fun x => r (Real.logb 10 x), fun y => r ((10 : ℝ) ^ y)⟩, hr, fun _ _ => hr _, fun _ => hr _⟩

/-- non-trivial case: five values between 0.3 and 0.9 (the doubles) stay within; a logarithmic range from 0.001 to 100 as well -/
example {c : Computed} (hc : CorrectlyRounded c) : (∃ row, uniformRangeF c 5 false ⟨"a", .float (c.fl (3 / 10)) (c.fl (9 / 10)) false⟩ = .ok row ∧
      row.length = 5 ∧ InBounds (c.fl (3 / 10)) (c.fl (9 / 10)) row) ∧
    ∃ row, uniformRangeF c 7 false ⟨"b", .float (c.pow10 (-3 : ℤ)) (c.pow10 (2 : ℤ)) true⟩ = .ok row ∧ row.length = 7 ∧
      InBounds (c.pow10 (-3 : ℤ)) (c.pow10 (2 : ℤ)) row := by
  obtain ⟨r1, a1, b1, c1, -⟩ := C140_linear hc (hp := ⟨"a", .float (c.fl (3 / 10)) (c.fl (9 / 10)) false⟩) rfl (hc.fl _).1 (hc.fl _).1
    ((hc.fl _).mono (hc.fl _) (by norm_num)) (n := 5) (by norm_num)
  obtain ⟨r2, a2, b2, -, -, c2⟩ := C140_powers_partial hc (hp := ⟨"b", .float (c.pow10 (-3 : ℤ)) (c.pow10 (2 : ℤ)) true⟩) (i := -3) (j := 2)
    (by norm_num) (by norm_num) (by norm_num) rfl (n := 7) (by norm_num) (by norm_num)
  exact ⟨⟨r1, a1, b1, c1⟩, r2, a2, b2, c2⟩

end PyPDP
