/-
C149: the grid of an ICE and the thresholds of a tree with floating-point numbers.
-/
import Verif.Model.RoundedGrid
import Verif.Props.Ice
import Verif.Props.RoundedMachine
import Verif.Props.RoundingSame

namespace PyPDP
open Spec

/-- **C149** (exact) without rounding this is the grid of C40. -/
theorem C149_exact (k perAxis : Nat) : gridPointsF id k perAxis = gridPoints k perAxis := by
  unfold gridPointsF gridPoints
  rw [linspaceF_id]

section axis
variable {fl : ℝ → ℝ} (hfl : RoundsToNearest fl)
include hfl

/-- the numbers of the axis -/
theorem unitAxis_getElem? {n i : Nat} (hi : i < n) : (linspaceF fl 0 1 n)[i]? = some (if i + 1 = n ∧ 1 < n then 1 else fl (i * fl (1 / ((n : ℝ) - 1)))) := by
  have h1 : fl 1 = 1 := (hfl 1).self ⟨1, 0, by norm_num, by simp⟩
  unfold linspaceF
  rw [List.getElem?_map, List.getElem?_range hi]
  simp only [Option.map_some, sub_zero, h1, add_zero]
  congr 2
  exact (hfl _).self (hfl _).1

/-- the step and one number of the axis -/
theorem unitAxis_bounds {N i : ℝ} (hN : 1 ≤ N) (hi : 0 ≤ i) :
    (0 < fl (1 / N) ∧ 1 / N * (1 - 1 / 2 ^ 53) ≤ fl (1 / N) ∧ fl (1 / N) ≤ 1 / N * (1 + 1 / 2 ^ 53)) ∧
    i * fl (1 / N) * (1 - 1 / 2 ^ 53) ≤ fl (i * fl (1 / N)) ∧ fl (i * fl (1 / N)) ≤ i * fl (1 / N) * (1 + 1 / 2 ^ 53) := by
  have hN0 : 0 < 1 / N := by positivity
  have low : ∀ x, 0 ≤ x → x * (1 - 1 / 2 ^ 53) ≤ fl x := by
    intro x hx
    have := (hfl x).error
    rw [abs_of_nonneg hx, zpow_neg] at this
    have h2 := (abs_le.1 this).2
    norm_num at h2 ⊢
    linarith
  have hs := (hfl (1 / N)).pos hN0
  refine ⟨⟨hs, low _ hN0.le, (hfl _).upper hN0.le⟩, low _ (by positivity), (hfl _).upper (by positivity)⟩

theorem unitAxis_lt {n i j : Nat} (hn : n ≤ 2 ^ 51) (hij : i < j) (hj : j < n) {x y : ℝ} (hx : (linspaceF fl 0 1 n)[i]? = some x)
    (hy : (linspaceF fl 0 1 n)[j]? = some y) : x < y := by
  rw [unitAxis_getElem? hfl (by omega), if_neg (by omega)] at hx
  rw [unitAxis_getElem? hfl hj] at hy
  obtain rfl := Option.some.inj hx
  obtain rfl := Option.some.inj hy
  have hn' : (n : ℝ) ≤ 2 ^ 51 := by exact_mod_cast hn
  have hN : (1 : ℝ) ≤ (n : ℝ) - 1 := by
    have : (2 : ℝ) ≤ n := by exact_mod_cast (by omega : 2 ≤ n)
    linarith
  have hijr : (i : ℝ) + 1 ≤ j := by exact_mod_cast hij
  have hjr : (j : ℝ) ≤ (n : ℝ) - 1 := by
    have : (j : ℝ) + 1 ≤ n := by exact_mod_cast hj
    linarith
  have hi0 : (0 : ℝ) ≤ i := by positivity
  obtain ⟨⟨s0, s1, s2⟩, -, a2⟩ := unitAxis_bounds hfl hN hi0
  obtain ⟨-, b1, -⟩ := unitAxis_bounds hfl hN (i := (j : ℝ)) (by positivity)
  generalize fl (1 / ((n : ℝ) - 1)) = s at *
  split
  · refine lt_of_le_of_lt a2 ?_
    have hlast : (i : ℝ) ≤ (n : ℝ) - 1 - 1 := by linarith
    have hN2 : (n : ℝ) - 1 ≤ 2 ^ 51 := by linarith
    generalize (n : ℝ) - 1 = N at *
    have hN0 : 0 < N := by linarith
    have e1 : (i : ℝ) * s * (1 + 1 / 2 ^ 53) ≤ (N - 1) * (1 / N * (1 + 1 / 2 ^ 53)) * (1 + 1 / 2 ^ 53) :=
      mul_le_mul_of_nonneg_right (mul_le_mul hlast s2 s0.le (by linarith)) (by positivity)
    refine lt_of_le_of_lt e1 ?_
    have e2 : (N - 1) * (1 / N * (1 + 1 / 2 ^ 53)) * (1 + 1 / 2 ^ 53) = (N - 1) * (1 + 1 / 2 ^ 53) ^ 2 / N := by ring
    rw [e2, div_lt_one hN0]
    have e3 : ((1 : ℝ) + 1 / 2 ^ 53) ^ 2 ≤ 1 + 1 / 2 ^ 51 := by norm_num
    have e4 : (N - 1) * (1 + 1 / 2 ^ 53) ^ 2 ≤ (N - 1) * (1 + 1 / 2 ^ 51) := mul_le_mul_of_nonneg_left e3 (by linarith)
    have e5 : (N - 1) * (1 + 1 / 2 ^ 51) = N - 1 + (N - 1) / 2 ^ 51 := by ring
    have e6 : (N - 1) / 2 ^ 51 < 1 := by rw [div_lt_one (by positivity)]; linarith
    linarith
  · refine a2.trans_lt (lt_of_lt_of_le ?_ b1)
    have e1 : (i : ℝ) * s * (1 + 1 / 2 ^ 53) = s * (i * (1 + 1 / 2 ^ 53)) := by ring
    have e2 : (j : ℝ) * s * (1 - 1 / 2 ^ 53) = s * (j * (1 - 1 / 2 ^ 53)) := by ring
    rw [e1, e2]
    refine mul_lt_mul_of_pos_left ?_ s0
    have hj2 : (j : ℝ) ≤ 2 ^ 51 := by linarith
    have e3 : (j : ℝ) / 2 ^ 53 ≤ 1 / 4 := by rw [div_le_iff₀ (by positivity)]; linarith
    have e4 : (i : ℝ) / 2 ^ 53 ≤ 1 / 4 := by rw [div_le_iff₀ (by positivity)]; linarith
    have e5 : (i : ℝ) * (1 + 1 / 2 ^ 53) = i + i / 2 ^ 53 := by ring
    have e6 : (j : ℝ) * (1 - 1 / 2 ^ 53) = j - j / 2 ^ 53 := by ring
    rw [e5, e6]
    linarith

theorem unitAxis_pairwise {n : Nat} (hn : n ≤ 2 ^ 51) : (linspaceF fl 0 1 n).Pairwise (· < ·) := by
  rw [List.pairwise_iff_getElem]
  intro i j hi hj hij
  have hl : (linspaceF fl 0 1 n).length = n := by simp [linspaceF]
  exact unitAxis_lt hfl hn hij (by omega) (List.getElem?_eq_getElem hi) (List.getElem?_eq_getElem hj)

/-- **C149** The numbers of one grid axis with doubles, for up to 2⁵¹ of them: they begin with 0, end with 1 (if there are two or more), increase strictly,
and are off by at most 2⁻⁵¹. -/
theorem C149_axis {n : Nat} (h1 : 1 ≤ n) (hn : n ≤ 2 ^ 51) :
    (linspaceF fl 0 1 n).length = n ∧ (linspaceF fl 0 1 n)[0]? = some 0 ∧ (2 ≤ n → (linspaceF fl 0 1 n)[n - 1]? = some 1) ∧
    (linspaceF fl 0 1 n).Pairwise (· < ·) ∧
    ∀ (i : Nat) x, (linspaceF fl 0 1 n)[i]? = some x → IsDouble x ∧ 0 ≤ x ∧ x ≤ 1 ∧ (2 ≤ n → |x - (i : ℝ) / ((n : ℝ) - 1)| ≤ 1 / 2 ^ 51) := by
  have h0 : IsDouble 0 := ⟨0, 0, by norm_num, by simp⟩
  have h1' : IsDouble 1 := ⟨1, 0, by norm_num, by simp⟩
  refine ⟨by simp [linspaceF], linspaceF_first hfl h0 h1, fun h2 => linspaceF_last fl 0 1 h2, unitAxis_pairwise hfl hn, fun i x hx => ?_⟩
  have hin := linspaceF_within hfl h0 h1' zero_le_one hn x (List.mem_of_getElem? hx)
  have hi : i < n := by
    have := (List.getElem?_eq_some_iff.1 hx).1
    simpa [linspaceF] using this
  rw [unitAxis_getElem? hfl hi] at hx
  obtain rfl := Option.some.inj hx
  refine ⟨by split <;> [exact h1'; exact (hfl _).1], hin.1, hin.2, fun h2 => ?_⟩
  have hN : (1 : ℝ) ≤ (n : ℝ) - 1 := by
    have : (2 : ℝ) ≤ n := by exact_mod_cast h2
    linarith
  have hir : (i : ℝ) ≤ (n : ℝ) - 1 := by
    have : (i : ℝ) + 1 ≤ n := by exact_mod_cast hi
    linarith
  have hi0 : (0 : ℝ) ≤ i := by positivity
  split
  · next h =>
    have : (i : ℝ) = (n : ℝ) - 1 := by
      have : ((i + 1 : Nat) : ℝ) = n := by exact_mod_cast h.1
      push_cast at this
      linarith
    rw [this, div_self (by linarith), sub_self, abs_zero]
    positivity
  · obtain ⟨⟨s0, s1, s2⟩, a1, a2⟩ := unitAxis_bounds hfl hN hi0
    clear hin
    generalize fl ((i : ℝ) * fl (1 / ((n : ℝ) - 1))) = x at *
    generalize fl (1 / ((n : ℝ) - 1)) = s at *
    generalize (n : ℝ) - 1 = N at *
    have hN0 : 0 < N := by linarith
    have hq0 : 0 ≤ (i : ℝ) / N := by positivity
    have hq1 : (i : ℝ) / N ≤ 1 := by rw [div_le_one hN0]; exact hir
    have e1 : (i : ℝ) * s ≤ i / N * (1 + 1 / 2 ^ 53) := by
      have := mul_le_mul_of_nonneg_left s2 hi0
      calc (i : ℝ) * s ≤ i * (1 / N * (1 + 1 / 2 ^ 53)) := this
        _ = _ := by ring
    have e2 : (i : ℝ) / N * (1 - 1 / 2 ^ 53) ≤ i * s := by
      have := mul_le_mul_of_nonneg_left s1 hi0
      calc (i : ℝ) / N * (1 - 1 / 2 ^ 53) = i * (1 / N * (1 - 1 / 2 ^ 53)) := by ring
        _ ≤ _ := this
    generalize (i : ℝ) * s = p at *
    generalize (i : ℝ) / N = q at *
    have e3 : x ≤ q * (1 + 1 / 2 ^ 53) * (1 + 1 / 2 ^ 53) := a2.trans (mul_le_mul_of_nonneg_right e1 (by positivity))
    have e4 : q * (1 - 1 / 2 ^ 53) * (1 - 1 / 2 ^ 53) ≤ x := (mul_le_mul_of_nonneg_right e2 (by norm_num)).trans a1
    rw [abs_le]
    constructor <;> norm_num at e3 e4 ⊢ <;> nlinarith

/-- **C149** The grid of an ICE with doubles: `g ^ k` points, no two of them the same, in the unit cube; exactly the tuples over the numbers of one axis. -/
theorem C149_grid {k g : Nat} (hk : 1 ≤ k) (hg : g ≤ 2 ^ 51) :
    ∃ grid, gridPointsF fl k g = .ok grid ∧ grid.length = g ^ k ∧ grid.Nodup ∧
      (∀ t, t ∈ grid ↔ t.length = k ∧ ∀ v ∈ t, v ∈ linspaceF fl 0 1 g) ∧ ∀ t ∈ grid, ∀ v ∈ t, 0 ≤ v ∧ v ≤ 1 := by
  have h0 : IsDouble 0 := ⟨0, 0, by norm_num, by simp⟩
  have h1 : IsDouble 1 := ⟨1, 0, by norm_num, by simp⟩
  have hmem : ∀ t, t ∈ (tuples (linspaceF fl 0 1 g) k).map swap01 ↔ t.length = k ∧ ∀ v ∈ t, v ∈ linspaceF fl 0 1 g := by
    intro t
    rw [List.mem_map]
    constructor
    · rintro ⟨r, hr, rfl⟩
      obtain ⟨h1, h2⟩ := mem_tuples.1 hr
      exact ⟨by rw [(swap01_perm r).length_eq, h1], fun v hv => h2 v ((swap01_perm r).mem_iff.1 hv)⟩
    · rintro ⟨h1, h2⟩
      exact ⟨swap01 t, mem_tuples.2 ⟨by rw [(swap01_perm t).length_eq, h1], fun v hv => h2 v ((swap01_perm t).mem_iff.1 hv)⟩, swap01_swap01 t⟩
  refine ⟨(tuples (linspaceF fl 0 1 g) k).map swap01, ?_, ?_, ?_, hmem, fun t ht v hv => ?_⟩
  · rw [gridPointsF, if_neg (by omega)]
  · rw [List.length_map, tuples_length]
    simp [linspaceF]
  · apply (tuples_nodup ((unitAxis_pairwise hfl hg).imp fun h => ne_of_lt h) k).map
    intro a b hab
    rw [← swap01_swap01 a, hab, swap01_swap01]
  · exact linspaceF_within hfl h0 h1 zero_le_one hg v (((hmem t).1 ht).2 v hv)

end axis

/-- **C149** The thresholds that a tree tries, with doubles: `n` numbers strictly between 0 and 1, strictly increasing; so no threshold is tried twice and none
is useless from the start. -/
theorem C149_thresholds {c : ComputedExp} (hc : CorrectlyRoundedExp c) (sum : List ℝ → ℝ) {n : Nat} (hn : n + 2 ≤ 2 ^ 51) :
    ((roundedMachine c sum).splitVals n).length = n ∧ ((roundedMachine c sum).splitVals n).Pairwise (· < ·) ∧
      ∀ t ∈ (roundedMachine c sum).splitVals n, 0 < t ∧ t < 1 := by
  obtain ⟨h1, h2, h3, h4, -⟩ := C149_axis hc.fl (n := n + 2) (by omega) hn
  obtain ⟨L, hL⟩ : ∃ L, L = linspaceF c.fl 0 1 (n + 2) := ⟨_, rfl⟩
  rw [← hL] at h1 h2 h3 h4
  have he : (roundedMachine c sum).splitVals n = (L.drop 1).dropLast := by rw [hL]; rfl
  rw [he]
  refine ⟨by simp [h1], h4.sublist ((List.dropLast_sublist _).trans (List.drop_sublist _ _)), fun t ht => ?_⟩
  obtain ⟨i, hi, rfl⟩ := List.mem_iff_getElem.1 ht
  have hin : i < n := by simpa [h1] using hi
  rw [List.getElem_dropLast, List.getElem_drop]
  have e0 := h2
  have e1 := h3 (by omega)
  rw [List.getElem?_eq_getElem (by omega)] at e0 e1
  rw [List.pairwise_iff_getElem] at h4
  have a := h4 0 (1 + i) (by omega) (by omega) (by omega)
  have b := h4 (1 + i) (n + 2 - 1) (by omega) (by omega) (by omega)
  rw [Option.some.inj e0] at a
  rw [Option.some.inj e1] at b
  exact ⟨a, b⟩

/-- The numbers of the axis are not always the doubles that are nearest to the exact numbers: with eleven points the eighth is 0.7000000000000001, whatever the rule
for ties, while the nearest double to 7/10 is 0.7. -/
theorem C149_not_nearest {fl : ℝ → ℝ} (hfl : RoundsToNearest fl) : (linspaceF fl 0 1 11)[7]? ≠ some (fl (7 / 10)) := by
  have h10 : fl (1 / 10) = (7205759403792794 : ℤ) * (2 : ℝ) ^ (-56 : ℤ) :=
    (hfl _).eq_of_close ⟨_, _, by norm_num, rfl⟩ (by norm_num) (by rw [abs_lt]; norm_num [zpow_neg])
  have h7 : fl (7 / 10) = (6305039478318694 : ℤ) * (2 : ℝ) ^ (-53 : ℤ) :=
    (hfl _).eq_of_close ⟨_, _, by norm_num, rfl⟩ (by norm_num) (by rw [abs_lt]; norm_num [zpow_neg])
  have hx : fl (7 * fl (1 / 10)) = (6305039478318695 : ℤ) * (2 : ℝ) ^ (-53 : ℤ) := by
    rw [h10]
    exact (hfl _).eq_of_close ⟨_, _, by norm_num, rfl⟩ (by norm_num) (by rw [abs_lt]; norm_num [zpow_neg])
  rw [unitAxis_getElem? hfl (by norm_num), if_neg (by norm_num)]
  have e : ((11 : ℕ) : ℝ) - 1 = 10 := by norm_num
  have e7 : ((7 : ℕ) : ℝ) = 7 := by norm_num
  rw [e, e7, hx, h7]
  intro h
  have := Option.some.inj h
  norm_num at this

section concrete

/-- non-trivial case: three points -/
example {fl : ℝ → ℝ} (hfl : RoundsToNearest fl) : linspaceF fl 0 1 3 = [0, 1 / 2, 1] := by
  have d0 : fl 0 = 0 := (hfl 0).self ⟨0, 0, by norm_num, by simp⟩
  have dh : fl (1 / 2) = 1 / 2 := (hfl _).self ⟨1, -1, by norm_num, by rw [zpow_neg]; norm_num⟩
  have d1 : fl 1 = 1 := (hfl 1).self ⟨1, 0, by norm_num, by simp⟩
  have e : (3 : ℝ) - 1 = 2 := by norm_num
  simp only [linspaceF, List.range_succ, List.range_zero, List.nil_append, List.cons_append, List.map_cons, List.map_nil, Nat.cast_zero, zero_mul, d0,
    Nat.cast_ofNat, Nat.cast_one, one_mul, sub_zero, d1, e, dh, add_zero]
  norm_num

end concrete

end PyPDP
