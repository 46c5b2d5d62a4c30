/-
Facts about C-order arrays: flatten, reshape, repeat, transpose.
-/
import Verif.Model.Ice
import Verif.Lemmas.Py
import Mathlib.Data.List.Basic

namespace PyPDP
variable {α : Type}

theorem repeatFlat_cons (k : Nat) (a : α) (l : List α) : repeatFlat k (a :: l) = List.replicate k a ++ repeatFlat k l := by
  simp [repeatFlat]

theorem repeatFlat_length (k : Nat) (l : List α) : (repeatFlat k l).length = l.length * k := by
  induction l with
  | nil => simp [repeatFlat]
  | cons a as ih => rw [repeatFlat_cons, List.length_append, ih, List.length_replicate, List.length_cons]; ring

theorem repeatFlat_drop_take (k : Nat) (l : List α) {q : Nat} {a : α} (h : l[q]? = some a) :
    ((repeatFlat k l).drop (q * k)).take k = List.replicate k a := by
  induction l generalizing q with
  | nil => simp at h
  | cons b bs ih =>
    rw [repeatFlat_cons]
    cases q with
    | zero =>
      simp only [List.getElem?_cons_zero, Option.some.injEq] at h
      subst h
      simp
    | succ q =>
      rw [List.getElem?_cons_succ] at h
      have e : (q + 1) * k = (List.replicate k b).length + q * k := by simp; ring
      rw [e, List.drop_length_add_append]
      exact ih h

theorem flatten_length_of {m : List (List α)} {c : Nat} (h : ∀ r ∈ m, r.length = c) : m.flatten.length = m.length * c := by
  induction m with
  | nil => simp
  | cons r rs ih =>
    rw [List.flatten_cons, List.length_append, h r (by simp), ih (fun r hr => h r (by simp [hr])), List.length_cons]
    ring

theorem flatten_drop_take {m : List (List α)} {c : Nat} (h : ∀ r ∈ m, r.length = c) {i : Nat} {r : List α} (hi : m[i]? = some r) :
    (m.flatten.drop (i * c)).take c = r := by
  induction m generalizing i with
  | nil => simp at hi
  | cons r' rs ih =>
    rw [List.flatten_cons]
    have hr' := h r' (by simp)
    cases i with
    | zero =>
      simp only [List.getElem?_cons_zero, Option.some.injEq] at hi
      subst hi
      rw [Nat.zero_mul, List.drop_zero, ← hr', List.take_left]
    | succ i =>
      rw [List.getElem?_cons_succ] at hi
      have e : (i + 1) * c = r'.length + i * c := by rw [hr']; ring
      rw [e, List.drop_length_add_append]
      exact ih (fun r hr => h r (by simp [hr])) hi

theorem flatten_getElem? {m : List (List α)} {c : Nat} (h : ∀ r ∈ m, r.length = c) {i j : Nat} {r : List α} {a : α}
    (hi : m[i]? = some r) (hj : r[j]? = some a) : m.flatten[i * c + j]? = some a := by
  have h1 := flatten_drop_take h hi
  rw [← h1] at hj
  have hlt : j < c := by
    have := (List.getElem?_eq_some_iff.1 hj).1
    simp at this
    omega
  rw [List.getElem?_take_of_lt hlt, List.getElem?_drop] at hj
  exact hj

/-- reshaping a flattened array gives the array back -/
theorem reshape2_flatten {m : List (List α)} {c : Nat} (h : ∀ r ∈ m, r.length = c) :
    reshape2 m.length c m.flatten = .ok m := by
  rw [reshape2, if_pos (flatten_length_of h)]
  congr 1
  apply List.ext_getElem?
  intro i
  rw [List.getElem?_map]
  by_cases hi : i < m.length
  · rw [List.getElem?_range hi, Option.map_some, List.getElem?_eq_getElem hi,
      flatten_drop_take h (List.getElem?_eq_getElem hi)]
  · rw [List.getElem?_eq_none (by simpa using hi), List.getElem?_eq_none (by simpa using hi)]; rfl

theorem map_flatten_map {β : Type} (m : List (List α)) (f : α → β) : m.flatten.map f = (m.map fun r => r.map f).flatten := by
  rw [List.map_flatten]

variable {K : Type}

/-- ice.py:206-208: after repeat, reshape and transpose, entry `(s, p)` is the row of sample `s`, for every `p`. -/
theorem repeat_reshape_transpose [Zero K] {m : List (List K)} {F : Nat} (P : Nat) (h : ∀ r ∈ m, r.length = F) :
    ∃ x, reshape3 m.length F P (repeatFlat P m.flatten) = .ok x ∧
      transpose021 F P x = m.map fun r => List.replicate P r := by
  refine ⟨_, by rw [reshape3, if_pos]; rw [repeatFlat_length, flatten_length_of h], ?_⟩
  unfold transpose021
  rw [List.map_map]
  apply List.ext_getElem?
  intro i
  rw [List.getElem?_map, List.getElem?_map]
  by_cases hi : i < m.length
  · rw [List.getElem?_range hi, List.getElem?_eq_getElem hi, Option.map_some, Option.map_some]
    congr 1
    have hr := h _ (List.getElem_mem hi)
    simp only [Function.comp]
    apply List.ext_getElem?
    intro p
    rw [List.getElem?_map]
    by_cases hp : p < P
    · rw [List.getElem?_range hp, Option.map_some, List.getElem?_replicate, if_pos hp]
      congr 1
      apply List.ext_getElem?
      intro f
      rw [List.getElem?_map]
      by_cases hf : f < F
      · rw [List.getElem?_range hf, Option.map_some]
        have hf' : f < m[i].length := by rw [hr]; exact hf
        have e1 := flatten_getElem? h (List.getElem?_eq_getElem hi) (List.getElem?_eq_getElem hf')
        have e2 := repeatFlat_drop_take P _ e1
        rw [entry]
        have e3 : ((List.range F).map fun j => ((repeatFlat P m.flatten).drop ((i * F + j) * P)).take P).getD f [] =
            List.replicate P m[i][f] := by
          rw [List.getD_eq_getElem?_getD, List.getElem?_map, List.getElem?_range hf, Option.map_some, Option.getD_some, e2]
        rw [e3, List.getD_eq_getElem?_getD, List.getElem?_replicate, if_pos hp, Option.getD_some,
          List.getElem?_eq_getElem hf']
      · rw [List.getElem?_eq_none (by simpa using hf), List.getElem?_eq_none (by rw [hr]; omega)]; rfl
    · rw [List.getElem?_eq_none (by simpa using hp), List.getElem?_replicate, if_neg hp]; rfl
  · rw [List.getElem?_eq_none (by simpa using hi), List.getElem?_eq_none (by simpa using hi)]; rfl

end PyPDP
