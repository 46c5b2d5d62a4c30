/-
C138: averages and losses with floating-point numbers.
-/
import Verif.Model.Rounding
import Verif.Spec.Rounding
import Verif.Spec.Ice
import Verif.Lemmas.Double
import Mathlib.Tactic.Linarith
import Mathlib.Tactic.Ring
import Mathlib.Tactic.FieldSimp
import Mathlib.Tactic.Positivity

namespace PyPDP
open Spec

/-- the relative error of one operation -/
noncomputable def unitRoundoff : ℝ := (2 : ℝ) ^ (-53 : ℤ)

theorem unitRoundoff_pos : 0 < unitRoundoff := by unfold unitRoundoff; positivity

theorem Spec.AddedUp.ne_nil {fl : ℝ → ℝ} {l : List ℝ} {s : ℝ} (h : AddedUp fl l s) : l ≠ [] := by
  induction h with
  | one a => simp
  | add h1 h2 hp ih1 ih2 =>
    rintro rfl
    have := hp.length_eq
    rw [List.length_nil, List.length_append] at this
    exact ih1 (List.length_eq_zero_iff.1 (by omega))

/-- the error of a rounded sum, in any order -/
theorem Spec.AddedUp.error {fl : ℝ → ℝ} (hfl : RoundsToNearest fl) {l : List ℝ} {s : ℝ} (h : AddedUp fl l s) :
    |s - l.sum| ≤ ((1 + unitRoundoff) ^ (l.length - 1) - 1) * (l.map fun x => |x|).sum ∧ 0 ≤ (l.map fun x => |x|).sum ∧
      |l.sum| ≤ (l.map fun x => |x|).sum := by
  induction h with
  | one a => simp
  | @add l r l' a b h1 h2 hp ih1 ih2 =>
    obtain ⟨e1, p1, q1⟩ := ih1
    obtain ⟨e2, p2, q2⟩ := ih2
    have hu := unitRoundoff_pos
    rw [hp.sum_eq, (hp.map _).sum_eq, hp.length_eq, List.map_append, List.sum_append, List.sum_append, List.length_append]
    obtain ⟨A, hA⟩ : ∃ A, A = (l.map fun x => |x|).sum := ⟨_, rfl⟩
    obtain ⟨B, hB⟩ : ∃ B, B = (r.map fun x => |x|).sum := ⟨_, rfl⟩
    rw [← hA] at e1 p1 q1 ⊢
    rw [← hB] at e2 p2 q2 ⊢
    have n1 : 1 ≤ l.length := List.length_pos_iff.2 h1.ne_nil
    have n2 : 1 ≤ r.length := List.length_pos_iff.2 h2.ne_nil
    obtain ⟨m, hm⟩ : ∃ m, l.length + r.length - 1 = m + 1 := ⟨l.length + r.length - 2, by omega⟩
    have hone : (1 : ℝ) ≤ 1 + unitRoundoff := by linarith
    have m1 : (1 + unitRoundoff) ^ (l.length - 1) ≤ (1 + unitRoundoff) ^ m := pow_le_pow_right₀ hone (by omega)
    have m2 : (1 + unitRoundoff) ^ (r.length - 1) ≤ (1 + unitRoundoff) ^ m := pow_le_pow_right₀ hone (by omega)
    rw [hm, pow_succ]
    obtain ⟨E, hE⟩ : ∃ E, E = (1 + unitRoundoff) ^ m := ⟨_, rfl⟩
    rw [← hE] at m1 m2 ⊢
    have f1 : |a - l.sum| ≤ (E - 1) * A := e1.trans (mul_le_mul_of_nonneg_right (by linarith) p1)
    have f2 : |b - r.sum| ≤ (E - 1) * B := e2.trans (mul_le_mul_of_nonneg_right (by linarith) p2)
    have hr := (hfl (a + b)).error
    change |a + b - fl (a + b)| ≤ |a + b| * unitRoundoff at hr
    have hab : |a + b - (l.sum + r.sum)| ≤ (E - 1) * (A + B) := by
      calc |a + b - (l.sum + r.sum)| = |(a - l.sum) + (b - r.sum)| := by congr 1; ring
        _ ≤ |a - l.sum| + |b - r.sum| := abs_add_le _ _
        _ ≤ (E - 1) * (A + B) := by linarith
    have hsum : |l.sum + r.sum| ≤ A + B := (abs_add_le _ _).trans (by linarith)
    have hab' : |a + b| ≤ E * (A + B) := by
      calc |a + b| = |(a + b - (l.sum + r.sum)) + (l.sum + r.sum)| := by congr 1; ring
        _ ≤ |a + b - (l.sum + r.sum)| + |l.sum + r.sum| := abs_add_le _ _
        _ ≤ E * (A + B) := by linarith
    refine ⟨?_, by linarith, hsum⟩
    have hr' : |fl (a + b) - (a + b)| ≤ E * (A + B) * unitRoundoff := by
      rw [abs_sub_comm]
      exact hr.trans (mul_le_mul_of_nonneg_right hab' hu.le)
    calc |fl (a + b) - (l.sum + r.sum)| = |(fl (a + b) - (a + b)) + (a + b - (l.sum + r.sum))| := by congr 1; ring
      _ ≤ |fl (a + b) - (a + b)| + |a + b - (l.sum + r.sum)| := abs_add_le _ _
      _ ≤ (E * (1 + unitRoundoff) - 1) * (A + B) := by linarith

/-- a rounded sum of numbers between 0 and 1 lies between 0 and their number -/
theorem Spec.AddedUp.unit {fl : ℝ → ℝ} (hfl : RoundsToNearest fl) {l : List ℝ} {s : ℝ} (h : AddedUp fl l s) (hn : l.length ≤ 2 ^ 53)
    (h1 : ∀ x ∈ l, x ≤ 1) : s ≤ l.length := by
  induction h with
  | one a => simpa using h1 a (by simp)
  | @add l r l' a b ha hb hp ih1 ih2 =>
    have hlen := hp.length_eq
    rw [List.length_append] at hlen
    have ha' := ih1 (by omega) fun x hx => h1 x (hp.mem_iff.2 (List.mem_append_left _ hx))
    have hb' := ih2 (by omega) fun x hx => h1 x (hp.mem_iff.2 (List.mem_append_right _ hx))
    refine (hfl (a + b)).le (isDouble_nat hn) ?_
    rw [hlen]; push_cast; linarith

theorem isDouble_zero : IsDouble 0 := by simpa using isDouble_nat (n := 0) (by norm_num)

/-- a rounded sum of numbers that are not negative is not negative -/
theorem Spec.AddedUp.nonneg {fl : ℝ → ℝ} (hfl : RoundsToNearest fl) {l : List ℝ} {s : ℝ} (h : AddedUp fl l s) (h0 : ∀ x ∈ l, 0 ≤ x) : 0 ≤ s := by
  induction h with
  | one a => exact h0 a (by simp)
  | @add l r l' a b ha hb hp ih1 ih2 =>
    have ha' := ih1 fun x hx => h0 x (hp.mem_iff.2 (List.mem_append_left _ hx))
    have hb' := ih2 fun x hx => h0 x (hp.mem_iff.2 (List.mem_append_right _ hx))
    exact (hfl (a + b)).ge isDouble_zero (by linarith)

/-- `(1 + u)^n - 1` is at most `2 n u` as long as `n u ≤ 1` -/
theorem pow_roundoff {u : ℝ} (hu : 0 ≤ u) (n : Nat) (hn : n * u ≤ 1) : (1 + u) ^ n - 1 ≤ 2 * (n * u) := by
  have key : ∀ n : Nat, n * u ≤ 1 → (1 + u) ^ n ≤ 1 + n * u + (n * u) ^ 2 := by
    intro n
    induction n with
    | zero => intro _; simp
    | succ n ih =>
      intro h
      push_cast at h ⊢
      have hx : (n : ℝ) * u ≤ 1 := by linarith
      have h0 : (0 : ℝ) ≤ n * u := by positivity
      have := ih hx
      rw [pow_succ]
      calc (1 + u) ^ n * (1 + u) ≤ (1 + n * u + (n * u) ^ 2) * (1 + u) := mul_le_mul_of_nonneg_right this (by linarith)
        _ ≤ 1 + (n + 1) * u + ((n + 1) * u) ^ 2 := by
          have : (n * u) ^ 2 * u ≤ n * u * u := by
            apply mul_le_mul_of_nonneg_right _ hu
            rw [sq]
            exact mul_le_of_le_one_left h0 hx
          nlinarith [mul_nonneg h0 hu, mul_nonneg hu hu]
  have h0 : (0 : ℝ) ≤ n * u := by positivity
  have := key n hn
  have h2 : (n * u) ^ 2 ≤ n * u := by
    rw [sq]
    exact mul_le_of_le_one_left h0 hn
  linarith

/-- the average of one column -/
theorem meanF_error {fl : ℝ → ℝ} (hfl : RoundsToNearest fl) {sum : List ℝ → ℝ} (hs : SumsUp fl sum) {l : List ℝ} (hl : l ≠ []) (hn : l.length ≤ 2 ^ 53) :
    |meanF fl sum l - meanOf l| ≤ l.length * (2 : ℝ) ^ (-52 : ℤ) * meanOf (l.map fun x => |x|) := by
  obtain ⟨e, p, q⟩ := (hs.added l hl).error hfl
  have hlen : 1 ≤ l.length := List.length_pos_iff.2 hl
  have hN : (0 : ℝ) < l.length := by exact_mod_cast hlen
  have hu := unitRoundoff_pos
  obtain ⟨n, hn'⟩ : ∃ n, l.length = n + 1 := ⟨l.length - 1, by omega⟩
  have hr := (hfl (sum l / (l.length : ℝ))).error
  change |sum l / (l.length : ℝ) - fl (sum l / (l.length : ℝ))| ≤ |sum l / (l.length : ℝ)| * unitRoundoff at hr
  have hnu : ((n + 1 : Nat) : ℝ) * unitRoundoff ≤ 1 := by
    have h1 : ((n + 1 : Nat) : ℝ) ≤ 2 ^ 53 := by rw [← hn']; exact_mod_cast hn
    calc ((n + 1 : Nat) : ℝ) * unitRoundoff ≤ 2 ^ 53 * unitRoundoff := mul_le_mul_of_nonneg_right h1 hu.le
      _ = 1 := by unfold unitRoundoff; rw [zpow_neg]; norm_num
  have hpow := pow_roundoff hu.le (n + 1) hnu
  have h52 : (2 : ℝ) ^ (-52 : ℤ) = 2 * unitRoundoff := by unfold unitRoundoff; rw [zpow_neg, zpow_neg]; norm_num
  rw [h52]
  unfold meanF meanOf
  rw [List.length_map]
  obtain ⟨A, hA⟩ : ∃ A, A = (l.map fun x => |x|).sum := ⟨_, rfl⟩
  obtain ⟨E, hE⟩ : ∃ E, E = (1 + unitRoundoff) ^ n := ⟨_, rfl⟩
  rw [pow_succ, ← hE] at hpow
  rw [← hA] at e p q ⊢
  rw [hn', Nat.add_sub_cancel, ← hE] at e
  rw [hn'] at hr hN ⊢
  obtain ⟨N, hNe⟩ : ∃ N : ℝ, N = ((n + 1 : Nat) : ℝ) := ⟨_, rfl⟩
  rw [← hNe] at hr hN hpow ⊢
  have e1 : |sum l / N - l.sum / N| ≤ (E - 1) * (A / N) := by
    rw [← sub_div, abs_div, abs_of_pos hN, ← mul_div_assoc]
    exact div_le_div_of_nonneg_right e hN.le
  have q1 : |l.sum / N| ≤ A / N := by
    rw [abs_div, abs_of_pos hN]
    exact div_le_div_of_nonneg_right q hN.le
  have p1 : 0 ≤ A / N := div_nonneg p hN.le
  have b1 : |sum l / N| ≤ E * (A / N) := by
    calc |sum l / N| = |(sum l / N - l.sum / N) + l.sum / N| := by congr 1; ring
      _ ≤ |sum l / N - l.sum / N| + |l.sum / N| := abs_add_le _ _
      _ ≤ E * (A / N) := by linarith
  have b2 : |fl (sum l / N) - sum l / N| ≤ E * (A / N) * unitRoundoff := by
    rw [abs_sub_comm]
    exact hr.trans (mul_le_mul_of_nonneg_right b1 hu.le)
  calc |fl (sum l / N) - l.sum / N| = |(fl (sum l / N) - sum l / N) + (sum l / N - l.sum / N)| := by congr 1; ring
    _ ≤ |fl (sum l / N) - sum l / N| + |sum l / N - l.sum / N| := abs_add_le _ _
    _ ≤ (E * (1 + unitRoundoff) - 1) * (A / N) := by linarith
    _ ≤ 2 * (N * unitRoundoff) * (A / N) := mul_le_mul_of_nonneg_right hpow p1
    _ = N * (2 * unitRoundoff) * (A / N) := by ring

/-- the average of numbers between 0 and 1, and of numbers that are not negative -/
theorem meanF_unit {fl : ℝ → ℝ} (hfl : RoundsToNearest fl) {sum : List ℝ → ℝ} (hs : SumsUp fl sum) {l : List ℝ} (hl : l ≠ []) (hn : l.length ≤ 2 ^ 53)
    (h : ∀ x ∈ l, x ≤ 1) : meanF fl sum l ≤ 1 := by
  have hN : (0 : ℝ) < l.length := by exact_mod_cast List.length_pos_iff.2 hl
  have := (hs.added l hl).unit hfl hn h
  have h1 : IsDouble 1 := by simpa using isDouble_nat (n := 1) (by norm_num)
  exact (hfl _).le h1 ((div_le_one hN).2 this)

theorem meanF_nonneg {fl : ℝ → ℝ} (hfl : RoundsToNearest fl) {sum : List ℝ → ℝ} (hs : SumsUp fl sum) {l : List ℝ} (hl : l ≠ [])
    (h : ∀ x ∈ l, 0 ≤ x) : 0 ≤ meanF fl sum l := by
  have := (hs.added l hl).nonneg hfl h
  exact (hfl _).ge isDouble_zero (by positivity)

/-! ### the averages of a PDP -/

/-- **C138** exact arithmetic gives the model of C45, C55 and C65 -/
theorem C138_exact {K : Type} [Field K] (a : List (List K)) (b : List (List (List K))) :
    meanRowsF id List.sum a = meanRows a ∧ meanAxis0F id List.sum b = meanAxis0 b ∧ regionLossF id List.sum a = regionLoss a := by
  have h1 : ∀ a : List (List K), meanRowsF id List.sum a = meanRows a := by
    intro a
    simp [meanRowsF, meanRows, mean0, meanF]
  refine ⟨h1 a, ?_, ?_⟩
  · cases b with
    | nil => rfl
    | cons m l => simp [meanAxis0F, meanAxis0, meanF]
  · unfold regionLossF regionLoss
    rw [h1]
    cases meanRows a with
    | error e => rfl
    | ok m =>
      simp only [List.flatMap_def, id_eq]
      rw [List.sum_flatten, List.map_map]
      rfl

theorem meanRowsF_ok {fl : ℝ → ℝ} {sum : List ℝ → ℝ} {n P : Nat} {y : List (List ℝ)} (hy : Shape2 n P y) (hn : n ≠ 0) :
    meanRowsF fl sum y = .ok ((List.range P).map fun c => meanF fl sum (valuesAt y c)) := by
  have h0 : y.length ≠ 0 := by rw [hy.1]; exact hn
  unfold meanRowsF
  rw [if_neg h0]
  cases y with
  | nil => exact absurd rfl h0
  | cons r l => rw [List.headD_cons, hy.2 r (by simp)]; rfl

/-- **C138** for correctly rounded operations and any order of the additions, every averaged value (`y_pdp`, `y_variances`, the PDP of a
region) differs from the exact average over the `n` curves by at most `n 2⁻⁵²` times the average absolute value. -/
theorem C138_error {fl : ℝ → ℝ} (hfl : RoundsToNearest fl) {sum : List ℝ → ℝ} (hs : SumsUp fl sum) {n P : Nat} {y : List (List ℝ)} (hy : Shape2 n P y)
    (hn : n ≠ 0) (hn2 : n ≤ 2 ^ 53) :
    ∃ r, meanRowsF fl sum y = .ok r ∧ r.length = P ∧ ∀ c a, r[c]? = some a →
      |a - meanOf (valuesAt y c)| ≤ n * (2 : ℝ) ^ (-52 : ℤ) * meanOf ((valuesAt y c).map fun x => |x|) := by
  refine ⟨_, meanRowsF_ok hy hn, by simp, fun c a ha => ?_⟩
  rw [List.getElem?_map] at ha
  obtain ⟨c', hc', rfl⟩ := Option.map_eq_some_iff.1 ha
  obtain ⟨hlt, rfl⟩ := List.getElem?_eq_some_iff.1 hc'
  rw [List.getElem_range]
  have hl : (valuesAt y c).length = n := by simp [valuesAt, hy.1]
  have := meanF_error hfl hs (l := valuesAt y c) (by intro h; rw [h] at hl; exact hn hl.symm) (by rw [hl]; exact hn2)
  rwa [hl] at this

/-- **C138** hence averaged variances are not negative: the standard deviations drawn from them are never nan. -/
theorem C138_variances {fl : ℝ → ℝ} (hfl : RoundsToNearest fl) {sum : List ℝ → ℝ} (hs : SumsUp fl sum) {n P : Nat} {v : List (List ℝ)}
    (hv : Shape2 n P v) (hn : n ≠ 0) (h0 : ∀ r ∈ v, ∀ x ∈ r, 0 ≤ x) : ∃ r, meanRowsF fl sum v = .ok r ∧ ∀ a ∈ r, 0 ≤ a := by
  refine ⟨_, meanRowsF_ok hv hn, fun a ha => ?_⟩
  obtain ⟨c, hc, rfl⟩ := List.mem_map.1 ha
  apply meanF_nonneg hfl hs
  · intro h
    have hl : (valuesAt v c).length = n := by simp [valuesAt, hv.1]
    rw [h] at hl
    exact hn hl.symm
  · intro x hx
    obtain ⟨r, hr, rfl⟩ := List.mem_map.1 hx
    have hlt : c < r.length := by rw [hv.2 r hr]; simpa using hc
    simp only [List.getD_eq_getElem?_getD, List.getElem?_eq_getElem hlt, Option.getD_some]
    exact h0 r hr _ (List.getElem_mem hlt)

/-- **C138** `x_pdp` stays in the unit cube if `x_ice` does, for up to 2⁵³ samples. -/
theorem C138_unit {fl : ℝ → ℝ} (hfl : RoundsToNearest fl) {sum : List ℝ → ℝ} (hs : SumsUp fl sum) {n P F : Nat} {x : List (List (List ℝ))}
    (hx : Shape3 n P F x) (hn : n ≠ 0) (hn2 : n ≤ 2 ^ 53) (h01 : ∀ m ∈ x, ∀ r ∈ m, ∀ a ∈ r, 0 ≤ a ∧ a ≤ 1) :
    ∃ m, meanAxis0F fl sum x = .ok m ∧ Shape2 P F m ∧ ∀ r ∈ m, ∀ a ∈ r, 0 ≤ a ∧ a ≤ 1 := by
  obtain ⟨x0, xs, rfl⟩ : ∃ x0 xs, x = x0 :: xs := by
    cases x with
    | nil => exact absurd hx.1.symm hn
    | cons a l => exact ⟨a, l, rfl⟩
  have h0 := hx.2 x0 (by simp)
  have hrow : ∀ p < P, (x0.getD p []).length = F := by
    intro p hp
    have hlt : p < x0.length := by rw [h0.1]; exact hp
    rw [List.getD_eq_getElem?_getD, List.getElem?_eq_getElem hlt, Option.getD_some]
    exact h0.2 _ (List.getElem_mem hlt)
  refine ⟨_, rfl, ⟨by simp [h0.1], ?_⟩, ?_⟩
  · intro r hr
    obtain ⟨p, hp, rfl⟩ := List.mem_map.1 hr
    have hp' : p < P := by rw [← h0.1]; simpa using hp
    rw [List.length_map, List.length_range, hrow p hp']
  · intro r hr a ha
    obtain ⟨p, hp, rfl⟩ := List.mem_map.1 hr
    have hp' : p < P := by rw [← h0.1]; simpa using hp
    rw [hrow p hp'] at ha
    obtain ⟨f, hf, rfl⟩ := List.mem_map.1 ha
    have hf' : f < F := by simpa using hf
    have key : ∀ b ∈ ((x0 :: xs).map fun q => entry q p f), 0 ≤ b ∧ b ≤ 1 := by
      intro b hb
      obtain ⟨q, hq, rfl⟩ := List.mem_map.1 hb
      have hq' := hx.2 q hq
      have h1 : p < q.length := by rw [hq'.1]; exact hp'
      have h2 : f < q[p].length := by rw [hq'.2 _ (List.getElem_mem h1)]; exact hf'
      have : entry q p f = q[p][f] := by simp [entry, List.getD_eq_getElem?_getD, h1, h2]
      rw [this]
      exact h01 q hq _ (List.getElem_mem h1) _ (List.getElem_mem h2)
    refine ⟨meanF_nonneg hfl hs (by simp) fun b hb => (key b hb).1, meanF_unit hfl hs (by simp) ?_ fun b hb => (key b hb).2⟩
    rw [List.length_map, hx.1]; exact hn2

/-- **C138** the computed loss of a region is never negative -/
theorem C138_loss {fl : ℝ → ℝ} (hfl : RoundsToNearest fl) {sum : List ℝ → ℝ} (hs : SumsUp fl sum) (v : List (List ℝ)) : 0 ≤ regionLossF fl sum v := by
  unfold regionLossF
  cases meanRowsF fl sum v with
  | error e => exact le_refl _
  | ok m =>
    dsimp only
    obtain ⟨l, hl⟩ : ∃ l, l = v.flatMap fun row => List.zipWith (fun a b => fl (fl (a - b) ^ 2)) row m := ⟨_, rfl⟩
    rw [← hl]
    by_cases hne : l = []
    · rw [hne, hs.empty]
    · refine (hs.added l hne).nonneg hfl fun x hx => ?_
      rw [hl] at hx
      obtain ⟨row, _, hx⟩ := List.mem_flatMap.1 hx
      rw [List.zipWith_eq_zipWith_take_min] at hx
      obtain ⟨i, hi, rfl⟩ := List.getElem_of_mem hx
      rw [List.getElem_zipWith]
      exact (hfl _).ge isDouble_zero (sq_nonneg _)

/-- one addition after the other is such a summation, and correctly rounding functions exist -/
def sumInOrder (fl : ℝ → ℝ) : List ℝ → ℝ
  | [] => 0
  | a :: rest => rest.foldl (fun s b => fl (s + b)) a

theorem sumInOrder_sums (fl : ℝ → ℝ) : SumsUp fl (sumInOrder fl) := by
  refine ⟨rfl, fun l hl => ?_⟩
  cases l with
  | nil => exact absurd rfl hl
  | cons a rest =>
    suffices h : ∀ (rest pre : List ℝ) (s : ℝ), AddedUp fl pre s → AddedUp fl (pre ++ rest) (rest.foldl (fun s b => fl (s + b)) s) from
      h rest [a] a (.one a)
    intro rest
    induction rest with
    | nil => intro pre s h; simpa using h
    | cons b rest ih =>
      intro pre s h
      have := ih (pre ++ [b]) (fl (s + b)) (.add h (.one b) (List.Perm.refl _))
      simpa using this

example : ∃ fl : ℝ → ℝ, RoundsToNearest fl ∧ SumsUp fl (sumInOrder fl) :=
  ⟨roundDouble, fun x => (roundDouble_spec x).1, sumInOrder_sums _⟩

end PyPDP
