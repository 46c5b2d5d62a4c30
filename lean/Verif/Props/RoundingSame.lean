/-
C139: identical curves with floating-point numbers.
-/
import Verif.Props.Rounding

namespace PyPDP
open Spec

/-- rounded sums of equal numbers whose multiples need no rounding -/
theorem Spec.AddedUp.same {fl : ℝ → ℝ} (hfl : RoundsToNearest fl) {l : List ℝ} {s v : ℝ} (h : AddedUp fl l s) (hv : ∀ x ∈ l, x = v)
    (hd : ∀ k : Nat, k ≤ l.length → IsDouble (k * v)) : s = l.length * v := by
  induction h with
  | one a => simpa using hv a (by simp)
  | @add l r l' a b ha hb hp ih1 ih2 =>
    have hlen := hp.length_eq
    rw [List.length_append] at hlen
    have ha' := ih1 (fun x hx => hv x (hp.mem_iff.2 (List.mem_append_left _ hx))) fun k hk => hd k (by omega)
    have hb' := ih2 (fun x hx => hv x (hp.mem_iff.2 (List.mem_append_right _ hx))) fun k hk => hd k (by omega)
    have e : a + b = (l'.length : ℝ) * v := by rw [ha', hb', hlen]; push_cast; ring
    rw [e]
    exact (hfl _).self (hd _ (le_refl _))

theorem meanF_same {fl : ℝ → ℝ} (hfl : RoundsToNearest fl) {sum : List ℝ → ℝ} (hs : SumsUp fl sum) {l : List ℝ} {v : ℝ} (hl : l ≠ [])
    (hv : ∀ x ∈ l, x = v) (hd : ∀ k : Nat, k ≤ l.length → IsDouble (k * v)) : meanF fl sum l = v := by
  have hN : (l.length : ℝ) ≠ 0 := by exact_mod_cast (List.length_pos_iff.2 hl).ne'
  unfold meanF
  rw [(hs.added l hl).same hfl hv hd, mul_div_cancel_left₀ _ hN]
  have := hd 1 (List.length_pos_iff.2 hl)
  rw [Nat.cast_one, one_mul] at this
  exact (hfl v).self this

/-- multiples of a number with few significant bits need no rounding -/
theorem isDouble_multiple {m e : ℤ} {n k : Nat} (h : n * |m| ≤ 2 ^ 53) (hk : k ≤ n) : IsDouble (k * (m * (2 : ℝ) ^ e)) := by
  refine ⟨k * m, e, ?_, by push_cast; ring⟩
  rw [abs_mul, Nat.abs_cast]
  exact (mul_le_mul_of_nonneg_right (by exact_mod_cast hk) (abs_nonneg m)).trans h

/-- `n` copies of a number with few significant bits, or at most two copies of any double -/
def FewBits (n : Nat) (v : ℝ) : Prop := (∃ m e : ℤ, n * |m| ≤ 2 ^ 53 ∧ v = m * (2 : ℝ) ^ e) ∨ n ≤ 2 ∧ IsDouble v

theorem FewBits.multiple {n : Nat} {v : ℝ} (h : FewBits n v) (k : Nat) (hk : k ≤ n) : IsDouble (k * v) := by
  rcases h with ⟨m, e, h, rfl⟩ | ⟨h2, m, e, hm, rfl⟩
  · exact isDouble_multiple h hk
  · have : k = 0 ∨ k = 1 ∨ k = 2 := by omega
    rcases this with rfl | rfl | rfl
    · simpa using isDouble_zero
    · exact ⟨m, e, hm, by simp⟩
    · refine ⟨m, e + 1, hm, ?_⟩
      rw [zpow_add₀ (by norm_num)]
      push_cast; ring

/-- **C139** what remains of the claim: the average of `n` identical curves is that curve and the loss of the region is 0 if `n` is 1 or
2, or if `n` times every value still fits into 53 bits. -/
theorem C139_identical_partial {fl : ℝ → ℝ} (hfl : RoundsToNearest fl) {sum : List ℝ → ℝ} (hs : SumsUp fl sum) {n : Nat} (hn : n ≠ 0) {row : List ℝ}
    (hrow : ∀ v ∈ row, FewBits n v) :
    meanRowsF fl sum (List.replicate n row) = .ok row ∧ regionLossF fl sum (List.replicate n row) = 0 := by
  have hsh : Shape2 n row.length (List.replicate n row) := ⟨by simp, fun r hr => by rw [(List.mem_replicate.1 hr).2]⟩
  have hm : meanRowsF fl sum (List.replicate n row) = .ok row := by
    rw [meanRowsF_ok hsh hn]
    congr 1
    refine List.ext_getElem (by simp) fun c h1 h2 => ?_
    rw [List.getElem_map, List.getElem_range]
    have hlen : (valuesAt (List.replicate n row) c).length = n := by simp [valuesAt]
    apply meanF_same hfl hs (v := row[c])
    · intro h; rw [h] at hlen; exact hn hlen.symm
    · intro x hx
      obtain ⟨r, hr, rfl⟩ := List.mem_map.1 hx
      rw [(List.mem_replicate.1 hr).2]
      simp [List.getD_eq_getElem?_getD, h2]
    · intro k hk
      rw [hlen] at hk
      exact (hrow _ (List.getElem_mem h2)).multiple k hk
  refine ⟨hm, ?_⟩
  unfold regionLossF
  rw [hm]
  dsimp only
  have h0 : fl 0 = 0 := (hfl 0).self isDouble_zero
  have hz : ∀ x ∈ ((List.replicate n row).flatMap fun r => List.zipWith (fun a b => fl (fl (a - b) ^ 2)) r row), x = 0 := by
    intro x hx
    obtain ⟨r, hr, hx⟩ := List.mem_flatMap.1 hx
    rw [(List.mem_replicate.1 hr).2] at hx
    obtain ⟨i, hi, rfl⟩ := List.getElem_of_mem hx
    rw [List.getElem_zipWith, sub_self, h0]
    simpa using h0
  generalize ((List.replicate n row).flatMap fun r => List.zipWith (fun a b => fl (fl (a - b) ^ 2)) r row) = l at hz
  by_cases hl : l = []
  · rw [hl, hs.empty]
  · rw [(hs.added l hl).same hfl hz fun k _ => by simpa using isDouble_zero, mul_zero]

/-- the double nearest to 0.1 -/
noncomputable def tenth : ℝ := 7205759403792794 * (2 : ℝ) ^ (-56 : ℤ)

theorem isDouble_tenth : IsDouble tenth := ⟨7205759403792794, -56, by norm_num [abs_of_nonneg], by norm_num [tenth]⟩

/-- doubles above 2⁵⁴ are multiples of four -/
theorem isDouble_big {r : ℝ} (h : IsDouble r) (hr : (2 : ℝ) ^ 54 < r) : ∃ j : ℤ, r = 4 * j := by
  obtain ⟨m, e, hm, rfl⟩ := h
  have h2 : (0 : ℝ) < (2 : ℝ) ^ e := by positivity
  have hm' : (m : ℝ) ≤ 2 ^ 53 := by exact_mod_cast (le_abs_self m).trans hm
  have he : 2 ≤ e := by
    by_contra hlt
    have : (2 : ℝ) ^ e ≤ (2 : ℝ) ^ (1 : ℤ) := zpow_le_zpow_right₀ (by norm_num) (by omega)
    have h3 : (m : ℝ) * (2 : ℝ) ^ e ≤ 2 ^ 53 * (2 : ℝ) ^ (1 : ℤ) := by
      calc (m : ℝ) * (2 : ℝ) ^ e ≤ 2 ^ 53 * (2 : ℝ) ^ e := mul_le_mul_of_nonneg_right hm' h2.le
        _ ≤ _ := mul_le_mul_of_nonneg_left this (by norm_num)
    norm_num at h3 hr
    linarith
  obtain ⟨k, rfl⟩ : ∃ k : Nat, e = k + 2 := ⟨(e - 2).toNat, by omega⟩
  refine ⟨m * 2 ^ k, ?_⟩
  rw [zpow_add₀ (by norm_num), zpow_natCast]
  push_cast
  norm_num
  ring

/-- scaling by a power of two -/
theorem Spec.IsDouble.scale {r : ℝ} (h : IsDouble r) (k : ℤ) : IsDouble (r * (2 : ℝ) ^ k) := by
  obtain ⟨m, e, hm, rfl⟩ := h
  exact ⟨m, e + k, hm, by rw [zpow_add₀ (by norm_num)]; ring⟩

theorem Spec.Nearest.scale {x r : ℝ} (h : Nearest x r) (k : ℤ) : Nearest (x * (2 : ℝ) ^ k) (r * (2 : ℝ) ^ k) := by
  refine ⟨h.1.scale k, fun r' hr' => ?_⟩
  have h2 : (0 : ℝ) < (2 : ℝ) ^ k := by positivity
  have := h.2 _ (hr'.scale (-k))
  have e1 : x * (2 : ℝ) ^ k - r * (2 : ℝ) ^ k = (x - r) * (2 : ℝ) ^ k := by ring
  have e2 : x * (2 : ℝ) ^ k - r' = (x - r' * (2 : ℝ) ^ (-k)) * (2 : ℝ) ^ k := by
    rw [sub_mul, mul_assoc r', ← zpow_add₀ (by norm_num)]; simp
  rw [e1, e2, abs_mul, abs_mul]
  exact mul_le_mul_of_nonneg_right this (abs_nonneg _)

/-- a third of the rounded threefold is not what one started with -/
theorem third_of_three {s r : ℝ} (hs : Nearest (3 * tenth) s) (hr : Nearest (s / 3) r) : r ≠ tenth := by
  rintro rfl
  have hS := hs.scale 56
  have hR := hr.scale 56
  have ht : tenth * (2 : ℝ) ^ (56 : ℤ) = 7205759403792794 := by
    unfold tenth
    rw [mul_assoc, ← zpow_add₀ (by norm_num)]; norm_num
  have h3 : 3 * tenth * (2 : ℝ) ^ (56 : ℤ) = 21617278211378382 := by rw [mul_assoc, ht]; norm_num
  rw [h3] at hS
  rw [ht, div_mul_eq_mul_div] at hR
  obtain ⟨S, hSe⟩ : ∃ S, S = s * (2 : ℝ) ^ (56 : ℤ) := ⟨_, rfl⟩
  rw [← hSe] at hS hR
  have herr := hS.error
  have hlow : (2 : ℝ) ^ 54 < S ∧ |21617278211378382 - S| ≤ 4 := by
    have hb : |(21617278211378382 : ℝ)| * (2 : ℝ) ^ (-53 : ℤ) ≤ 4 := by rw [abs_of_pos (by norm_num)]; norm_num
    have := herr.trans hb
    refine ⟨?_, this⟩
    have := (abs_le.1 this).2
    norm_num
    linarith
  obtain ⟨j, rfl⟩ := isDouble_big hS.1 hlow.1
  have hj : |(21617278211378382 : ℤ) - 4 * j| ≤ 4 ∧ 2 ≤ |(21617278211378382 : ℤ) - 4 * j| := by
    refine ⟨by exact_mod_cast hlow.2, ?_⟩
    rcases abs_cases ((21617278211378382 : ℤ) - 4 * j) with ⟨h, h'⟩ | ⟨h, h'⟩ <;> rw [h] <;> omega
  have d1 : IsDouble 7205759403792795 := ⟨7205759403792795, 0, by norm_num [abs_of_nonneg], by norm_num⟩
  have d2 : IsDouble 7205759403792793 := ⟨7205759403792793, 0, by norm_num [abs_of_nonneg], by norm_num⟩
  have g1 := hR.2 _ d1
  have g2 := hR.2 _ d2
  have hcase : 4 * j = 21617278211378384 ∨ 4 * j = 21617278211378380 := by
    obtain ⟨h1, h2⟩ := hj
    rw [abs_le] at h1
    rw [le_abs] at h2
    omega
  rcases hcase with h | h
  · have hr : (4 : ℝ) * j = 21617278211378384 := by exact_mod_cast h
    rw [hr] at g1
    norm_num [abs_of_pos, abs_of_neg] at g1
  · have hr : (4 : ℝ) * j = 21617278211378380 := by exact_mod_cast h
    rw [hr] at g2
    norm_num [abs_of_pos, abs_of_neg] at g2

/-- rounded sums of one, two and three equal numbers -/
theorem Spec.AddedUp.three {fl : ℝ → ℝ} {l : List ℝ} {s v : ℝ} (h : AddedUp fl l s) (hv : ∀ x ∈ l, x = v) :
    (l.length = 1 → s = v) ∧ (l.length = 2 → s = fl (v + v)) ∧ (l.length = 3 → s = fl (fl (v + v) + v)) := by
  induction h with
  | one a => exact ⟨fun _ => hv a (by simp), by simp, by simp⟩
  | @add l r l' a b ha hb hp ih1 ih2 =>
    have hlen := hp.length_eq
    rw [List.length_append] at hlen
    have i1 := ih1 fun x hx => hv x (hp.mem_iff.2 (List.mem_append_left _ hx))
    have i2 := ih2 fun x hx => hv x (hp.mem_iff.2 (List.mem_append_right _ hx))
    have n1 : 1 ≤ l.length := List.length_pos_iff.2 ha.ne_nil
    have n2 : 1 ≤ r.length := List.length_pos_iff.2 hb.ne_nil
    refine ⟨fun h => by omega, fun h => ?_, fun h => ?_⟩
    · rw [i1.1 (by omega), i2.1 (by omega)]
    · have : l.length = 1 ∧ r.length = 2 ∨ l.length = 2 ∧ r.length = 1 := by omega
      rcases this with ⟨h1, h2⟩ | ⟨h1, h2⟩
      · rw [i1.1 h1, i2.2.1 h2, add_comm]
      · rw [i1.2.1 h1, i2.1 h2]

/-- rounding keeps the sign -/
theorem Spec.Nearest.pos {x r : ℝ} (h : Nearest x r) (hx : 0 < x) : 0 < r := by
  have := h.error
  have h2 : x * (2 : ℝ) ^ (-53 : ℤ) < x := by
    have : (2 : ℝ) ^ (-53 : ℤ) < 1 := by rw [zpow_neg]; norm_num
    exact mul_lt_of_lt_one_right hx this
  rw [abs_of_pos hx] at this
  have := (abs_le.1 this).2
  linarith

theorem Spec.Nearest.ne_zero {x r : ℝ} (h : Nearest x r) (hx : x ≠ 0) : r ≠ 0 := by
  rintro rfl
  have := h.error
  rw [sub_zero] at this
  have h2 : (2 : ℝ) ^ (-53 : ℤ) < 1 := by rw [zpow_neg]; norm_num
  have := mul_lt_of_lt_one_right (abs_pos.2 hx) h2
  linarith

theorem Spec.AddedUp.pos {fl : ℝ → ℝ} (hfl : RoundsToNearest fl) {l : List ℝ} {s : ℝ} (h : AddedUp fl l s) (h0 : ∀ x ∈ l, 0 < x) : 0 < s := by
  induction h with
  | one a => exact h0 a (by simp)
  | @add l r l' a b ha hb hp ih1 ih2 =>
    have ha' := ih1 fun x hx => h0 x (hp.mem_iff.2 (List.mem_append_left _ hx))
    have hb' := ih2 fun x hx => h0 x (hp.mem_iff.2 (List.mem_append_right _ hx))
    exact (hfl (a + b)).pos (by linarith)

/-- **C139** three identical curves with the value 0.1: whatever the order of the additions and the rule for ties, the average is not
0.1 (it lies outside the range of the curves), and the loss of the region is positive. -/
theorem C139_identical_counterexample {fl : ℝ → ℝ} (hfl : RoundsToNearest fl) {sum : List ℝ → ℝ} (hs : SumsUp fl sum) :
    (∃ r, meanRowsF fl sum [[tenth], [tenth], [tenth]] = .ok [r] ∧ r ≠ tenth) ∧ 0 < regionLossF fl sum [[tenth], [tenth], [tenth]] := by
  have hm : meanRowsF fl sum [[tenth], [tenth], [tenth]] = .ok [meanF fl sum [tenth, tenth, tenth]] := by
    simp [meanRowsF, List.range_succ]
  have hne : meanF fl sum [tenth, tenth, tenth] ≠ tenth := by
    have h3 := ((hs.added [tenth, tenth, tenth] (by simp)).three (v := tenth) (by simp)).2.2 rfl
    have h2 : fl (tenth + tenth) = 2 * tenth := by
      have : tenth + tenth = tenth * (2 : ℝ) ^ (1 : ℤ) := by rw [zpow_one]; ring
      rw [this, (hfl _).self (isDouble_tenth.scale 1), zpow_one]; ring
    rw [h2] at h3
    have e : 2 * tenth + tenth = 3 * tenth := by ring
    rw [e] at h3
    unfold meanF
    rw [h3]
    simp only [List.length_cons, List.length_nil]
    have : ((0 + 1 + 1 + 1 : Nat) : ℝ) = 3 := by norm_num
    rw [this]
    exact third_of_three (hfl _) (hfl _)
  refine ⟨⟨_, hm, hne⟩, ?_⟩
  unfold regionLossF
  rw [hm]
  dsimp only
  obtain ⟨d, hd⟩ : ∃ d, d = fl (fl (tenth - meanF fl sum [tenth, tenth, tenth]) ^ 2) := ⟨_, rfl⟩
  have hdp : 0 < d := by
    rw [hd]
    apply (hfl _).pos
    have := (hfl (tenth - meanF fl sum [tenth, tenth, tenth])).ne_zero (sub_ne_zero.2 hne.symm)
    positivity
  simp only [List.flatMap_cons, List.flatMap_nil, List.zipWith_cons_cons, List.zipWith_nil_left, List.append_nil, List.cons_append, List.nil_append, ← hd]
  exact (hs.added _ (by simp)).pos hfl fun x hx => by
    simp only [List.mem_cons, List.not_mem_nil, or_false, or_self] at hx
    rw [hx]; exact hdp

/-- a curve the partial statement covers: 1000 copies of the values 3/4 and -5 -/
example : ∀ v ∈ ([3 / 4, -5] : List ℝ), FewBits 1000 v := by
  intro v hv
  simp only [List.mem_cons, List.not_mem_nil, or_false] at hv
  rcases hv with rfl | rfl
  · exact .inl ⟨3, -2, by norm_num [abs_of_nonneg], by norm_num⟩
  · exact .inl ⟨-5, 0, by norm_num, by norm_num⟩

end PyPDP
