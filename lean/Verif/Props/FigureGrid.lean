/-
The shape of a figure grid: C70 (as_quadratic_shape_as_possible_for_n_figures).
-/
import Verif.Model.Plotting
import Verif.Lemmas.Py

namespace PyPDP

/-- **C70** for at least one figure the shape is `(w, h)`: `w` is the square root rounded up, `h` is the smallest number of rows with
enough places (so at most `w`). -/
theorem C70_shape {n : Int} (hn : 1 ≤ n) : ∃ w h : Nat, quadraticShape n = .ok (w, h) ∧
    IsLeast {k : Nat | Real.sqrt (n : ℝ) ≤ k} w ∧ 1 ≤ h ∧ h ≤ w ∧ n ≤ (w : Int) * h ∧ (w : Int) * (h - 1) < n := by
  obtain ⟨w, hw⟩ : ∃ w, w = ⌈Real.sqrt (n : ℝ)⌉.toNat := ⟨_, rfl⟩
  have h0 : 0 ≤ ⌈Real.sqrt (n : ℝ)⌉ := Int.ceil_nonneg (Real.sqrt_nonneg _)
  have hcast : (w : Int) = ⌈Real.sqrt (n : ℝ)⌉ := by rw [hw, Int.toNat_of_nonneg h0]
  have hle : Real.sqrt (n : ℝ) ≤ (w : ℝ) := by
    have := Int.le_ceil (Real.sqrt (n : ℝ)); rw [← hcast] at this; exact_mod_cast this
  have hleast : IsLeast {k : Nat | Real.sqrt (n : ℝ) ≤ k} w := by
    refine ⟨hle, fun k hk => ?_⟩
    have hk' : Real.sqrt (n : ℝ) ≤ ((k : Int) : ℝ) := by exact_mod_cast hk
    have := Int.ceil_le.2 hk'
    rw [← hcast] at this
    exact_mod_cast this
  have hsq : n ≤ (w : Int) * w := by
    have hnn : (0 : ℝ) ≤ (n : ℝ) := by exact_mod_cast (by omega : (0 : Int) ≤ n)
    have h2 := Real.mul_self_sqrt hnn
    have h3 : (n : ℝ) ≤ (w : ℝ) * w := by nlinarith [Real.sqrt_nonneg (n : ℝ)]
    exact_mod_cast h3
  have hwpos : 0 < w := by
    rcases Nat.eq_zero_or_pos w with h | h
    · rw [h] at hsq; simp at hsq; omega
    · exact h
  unfold quadraticShape
  rw [if_neg (by omega)]
  simp only [← hw]
  cases hf : ((List.range w).map (· + 1)).find? (fun h : Nat => decide (n ≤ (h : Int) * w)) with
  | none =>
    rw [List.find?_eq_none] at hf
    have := hf w (List.mem_map.2 ⟨w - 1, List.mem_range.2 (by omega), by omega⟩)
    simp at this
    omega
  | some h =>
    rw [List.find?_eq_some_iff_getElem] at hf
    obtain ⟨hp, i, hi, hih, hmin⟩ := hf
    simp only [List.getElem_map, List.getElem_range] at hih
    simp only [List.length_map, List.length_range] at hi
    refine ⟨w, h, rfl, hleast, by omega, by omega, by rw [mul_comm]; exact of_decide_eq_true hp, ?_⟩
    rcases Nat.eq_zero_or_pos i with h0 | hpos
    · have : h = 1 := by omega
      rw [this]; simp; omega
    · have := hmin (i - 1) (by omega)
      simp only [List.getElem_map, List.getElem_range, Bool.not_eq_eq_eq_not, Bool.not_true, decide_eq_false_iff_not, not_le] at this
      have h1 : ((i - 1 + 1 : Nat) : Int) = (h : Int) - 1 := by omega
      rw [h1] at this
      rw [mul_comm]; exact this

/-- **C70** without figures there is no shape (also for a negative number). -/
theorem C70_none {n : Int} (hn : n ≤ 0) : quadraticShape n = .error .value := by
  unfold quadraticShape
  split
  · rfl
  · have : n = 0 := by omega
    subst this
    simp

example : quadraticShape 3 = .ok (2, 2) := by
  obtain ⟨w, h, e, hl, h1, h2, h3, h4⟩ := C70_shape (n := 3) (by omega)
  have hw1 : ¬ w ≤ 1 := by
    intro hw
    have h5 : w * h ≤ 1 * 1 := Nat.mul_le_mul hw (h2.trans hw)
    have h6 : ((w * h : Nat) : Int) ≤ 1 := by exact_mod_cast h5
    push_cast at h6
    omega
  have hw2 : w ≤ 2 := hl.2 (by
    show Real.sqrt ((3 : Int) : ℝ) ≤ ((2 : Nat) : ℝ)
    rw [Real.sqrt_le_left (by norm_num)]; norm_num)
  have hw : w = 2 := by omega
  subst hw
  have : h = 2 := by push_cast at h3 h4; omega
  rw [e, this]
end PyPDP
