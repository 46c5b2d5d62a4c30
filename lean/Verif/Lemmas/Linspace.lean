/-
Facts about `linspace`.
-/
import Verif.Model.Py
import Mathlib.Tactic.Linarith
import Mathlib.Tactic.FieldSimp
import Mathlib.Tactic.Ring
import Mathlib.Tactic.Positivity
import Mathlib.Tactic.NormNum
import Mathlib.Tactic.Push

namespace PyPDP
variable {K : Type _} [Field K]

@[simp] theorem linspace_length (a b : K) (n : Nat) : (linspace a b n).length = n := by simp [linspace]

theorem linspace_zero (a b : K) : linspace a b 0 = [] := rfl

theorem linspace_one (a b : K) : linspace a b 1 = [a] := by simp [linspace]

variable [LinearOrder K] [IsStrictOrderedRing K]

theorem linspace_getElem (a b : K) {n i : Nat} (hi : i < n) (hn : 2 ≤ n) :
    (linspace a b n)[i]'(by simpa using hi) = a + (i : K) * ((b - a) / ((n : K) - 1)) := by
  have h1 : (0 : K) < (n : K) - 1 := by
    have : (2 : K) ≤ n := by exact_mod_cast hn
    linarith
  simp only [linspace, List.getElem_map, List.getElem_range]
  split
  · rename_i h
    have : (i : K) = (n : K) - 1 := by
      have := h.1
      rw [← this]; push_cast; ring
    rw [this]; field_simp; ring
  · rfl

theorem linspace_getElem? (a b : K) {n i : Nat} (hi : i < n) (hn : 2 ≤ n) :
    (linspace a b n)[i]? = some (a + (i : K) * ((b - a) / ((n : K) - 1))) := by
  rw [List.getElem?_eq_getElem (by simpa using hi), linspace_getElem a b hi hn]

theorem linspace_first (a b : K) {n : Nat} (hn : 1 ≤ n) : (linspace a b n)[0]? = some a := by
  rcases Nat.lt_or_ge n 2 with h | h
  · have : n = 1 := by omega
    subst this; rw [linspace_one]; rfl
  · rw [linspace_getElem? a b (by omega) h]; simp

theorem linspace_last (a b : K) {n : Nat} (hn : 2 ≤ n) : (linspace a b n)[n - 1]? = some b := by
  rw [linspace_getElem? a b (by omega) hn]
  have : (0 : K) < (n : K) - 1 := by
    have : (2 : K) ≤ n := by exact_mod_cast hn
    linarith
  have e : ((n - 1 : Nat) : K) = (n : K) - 1 := by push_cast [Nat.cast_sub (show 1 ≤ n by omega)]; ring
  rw [e]; congr 1; field_simp; ring

theorem linspace_lt {a b : K} (hab : a < b) {n i j : Nat} (hij : i < j) (hj : j < n) :
    (linspace a b n)[i]'(by simpa using hij.trans hj) < (linspace a b n)[j]'(by simpa using hj) := by
  have hn : 2 ≤ n := by omega
  rw [linspace_getElem a b (hij.trans hj) hn, linspace_getElem a b hj hn]
  have h1 : (0 : K) < (n : K) - 1 := by
    have : (2 : K) ≤ n := by exact_mod_cast hn
    linarith
  have h2 : 0 < (b - a) / ((n : K) - 1) := div_pos (sub_pos.2 hab) h1
  have h3 : (i : K) < j := by exact_mod_cast hij
  nlinarith

theorem linspace_pairwise {a b : K} (hab : a < b) (n : Nat) : (linspace a b n).Pairwise (· < ·) := by
  rw [List.pairwise_iff_getElem]
  intro i j hi hj hij
  exact linspace_lt hab hij (by simpa using hj)

theorem linspace_mem_range {a b : K} (hab : a ≤ b) {n : Nat} {x : K} (hx : x ∈ linspace a b n) : a ≤ x ∧ x ≤ b := by
  obtain ⟨i, hi, rfl⟩ := List.getElem_of_mem hx
  have hi' : i < n := by simpa using hi
  rcases Nat.lt_or_ge n 2 with h | h
  · have : n = 1 := by omega
    subst this; simp [linspace_one, hab]
  · rw [linspace_getElem a b hi' h]
    have h1 : (0 : K) < (n : K) - 1 := by
      have : (2 : K) ≤ n := by exact_mod_cast h
      linarith
    have h3 : (i : K) ≤ (n : K) - 1 := by
      have : ((i + 1 : Nat) : K) ≤ n := by exact_mod_cast hi'
      push_cast at this; linarith
    have h4 : 0 ≤ (b - a) := sub_nonneg.2 hab
    have h5 : (i : K) * ((b - a) / ((n : K) - 1)) ≤ b - a := by
      rw [mul_div_assoc', div_le_iff₀ h1]; nlinarith
    have h6 : 0 ≤ (i : K) * ((b - a) / ((n : K) - 1)) := by positivity
    constructor <;> linarith

end PyPDP
