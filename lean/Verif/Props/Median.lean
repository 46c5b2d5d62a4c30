/-
C09: `median_distance_between_points`.
-/
import Verif.Model.Utils
import Verif.Spec.Median
import Mathlib.Data.List.Sort
import Mathlib.Data.List.Perm.Basic
import Mathlib.Data.List.ProdSigma
import Mathlib.Tactic.Linarith
import Mathlib.Tactic.NormNum

namespace PyPDP
open Spec

theorem sum_zipWith_eq (a b : List ℝ) (h : a.length = b.length) :
    (List.zipWith (fun x y => (x - y) ^ 2) a b).sum =
      ∑ i ∈ Finset.range a.length, (a.getD i 0 - b.getD i 0) ^ 2 := by
  induction a generalizing b with
  | nil => simp
  | cons x xs ih =>
    cases b with
    | nil => simp at h
    | cons y ys =>
      simp only [List.zipWith_cons_cons, List.sum_cons, List.length_cons]
      rw [Finset.sum_range_succ', ih ys (by simpa using h)]
      simp [add_comm]

theorem rowDistance_eq {d : Nat} {a b : List ℝ} (ha : a.length = d) (hb : b.length = d) :
    rowDistance a b = euclid d a b := by
  unfold rowDistance euclid
  rw [sum_zipWith_eq a b (ha.trans hb.symm), ha]

theorem euclid_comm (d : Nat) (a b : List ℝ) : euclid d a b = euclid d b a := by
  unfold euclid; congr 1; exact Finset.sum_congr rfl fun i _ => by ring

theorem euclid_nonneg (d : Nat) (a b : List ℝ) : 0 ≤ euclid d a b := Real.sqrt_nonneg _

theorem euclid_eq_zero {d : Nat} {a b : List ℝ} (ha : a.length = d) (hb : b.length = d) :
    euclid d a b = 0 ↔ a = b := by
  unfold euclid
  rw [Real.sqrt_eq_zero (Finset.sum_nonneg fun i _ => sq_nonneg _),
    Finset.sum_eq_zero_iff_of_nonneg (fun i _ => sq_nonneg _)]
  constructor
  · intro h
    apply List.ext_getElem (ha.trans hb.symm)
    intro i h1 h2
    have := h i (by simp; omega)
    simp only [List.getD_eq_getElem?_getD, List.getElem?_eq_getElem h1, List.getElem?_eq_getElem h2, Option.getD_some] at this
    have := pow_eq_zero_iff (two_ne_zero) |>.1 this
    linarith
  · rintro rfl i _; simp

theorem pairDistances_filter {d : Nat} {X : List (List ℝ)} (hX : ∀ r ∈ X, r.length = d) :
    (pairDistances X).filter (fun d => decide (d ≠ 0)) = nonzeroDistances d X := by
  unfold pairDistances nonzeroDistances List.product
  rw [List.map_flatMap]
  congr 1
  apply List.flatMap_congr
  intro a ha
  rw [List.map_map]
  apply List.map_congr_left
  intro b hb
  simp only [Function.comp]
  rw [rowDistance_eq (hX b hb) (hX a ha), euclid_comm]

theorem mem_nonzeroDistances {d : Nat} {X : List (List ℝ)} {r : ℝ} :
    r ∈ nonzeroDistances d X ↔ ∃ a ∈ X, ∃ b ∈ X, r = euclid d a b ∧ r ≠ 0 := by
  simp only [nonzeroDistances, List.mem_filter, List.mem_map, Prod.exists, List.pair_mem_product, decide_eq_true_eq]
  constructor
  · rintro ⟨⟨a, b, ⟨h1, h2⟩, rfl⟩, h⟩; exact ⟨a, h1, b, h2, rfl, h⟩
  · rintro ⟨a, h1, b, h2, rfl, h⟩; exact ⟨⟨a, b, ⟨h1, h2⟩, rfl⟩, h⟩

theorem sorted_take_le {s : List ℝ} (hs : s.Pairwise (· ≤ ·)) {k : Nat} (hk : k < s.length) {m : ℝ} (hm : s[k] ≤ m) :
    k + 1 ≤ s.countP (fun x => decide (x ≤ m)) := by
  have h1 : (s.take (k + 1)).countP (fun x => decide (x ≤ m)) = (s.take (k + 1)).length := by
    rw [List.countP_eq_length]
    intro x hx
    obtain ⟨i, hi, rfl⟩ := List.getElem_of_mem hx
    rw [List.length_take] at hi
    simp only [List.getElem_take, decide_eq_true_eq]
    refine le_trans ?_ hm
    rcases Nat.lt_or_ge i k with h | h
    · exact List.pairwise_iff_getElem.1 hs i k _ hk h
    · have : i = k := by omega
      subst this; exact le_rfl
  have h2 := (List.take_sublist (k + 1) s).countP_le (p := fun x => decide (x ≤ m))
  rw [h1, List.length_take] at h2
  omega

theorem sorted_drop_ge {s : List ℝ} (hs : s.Pairwise (· ≤ ·)) {k : Nat} (hk : k < s.length) {m : ℝ} (hm : m ≤ s[k]) :
    s.length - k ≤ s.countP (fun x => decide (m ≤ x)) := by
  have h1 : (s.drop k).countP (fun x => decide (m ≤ x)) = (s.drop k).length := by
    rw [List.countP_eq_length]
    intro x hx
    obtain ⟨i, hi, rfl⟩ := List.getElem_of_mem hx
    rw [List.length_drop] at hi
    simp only [List.getElem_drop, decide_eq_true_eq]
    refine le_trans hm ?_
    rcases Nat.eq_zero_or_pos i with h | h
    · subst h; simp
    · exact List.pairwise_iff_getElem.1 hs k (k + i) hk (by omega) (by omega)
  have h2 := (List.drop_sublist k s).countP_le (p := fun x => decide (m ≤ x))
  rw [h1, List.length_drop] at h2
  omega

theorem mergeSort_pairwise (L : List ℝ) : (L.mergeSort (fun a b => decide (a ≤ b))).Pairwise (· ≤ ·) := by
  have := List.pairwise_mergeSort (le := fun a b : ℝ => decide (a ≤ b))
    (fun a b c h1 h2 => by simp at *; exact h1.trans h2) (fun a b => by simp [le_total]) L
  exact this.imp (by simp)

theorem npMedian_spec {L : List ℝ} (hL : L ≠ []) :
    ∃ m, npMedian L = .ok m ∧ IsMedian m L ∧ (∃ a ∈ L, a ≤ m) ∧ (∃ b ∈ L, m ≤ b) := by
  unfold npMedian
  set s := L.mergeSort (fun a b => decide (a ≤ b)) with hsdef
  have hperm : s.Perm L := List.mergeSort_perm _ _
  have hs : s.Pairwise (· ≤ ·) := mergeSort_pairwise L
  have hpos : 0 < s.length := by
    rw [hperm.length_eq]; exact List.length_pos_iff.2 hL
  have fin : ∀ m : ℝ, s.length ≤ 2 * s.countP (fun x => decide (x ≤ m)) →
      s.length ≤ 2 * s.countP (fun x => decide (m ≤ x)) → IsMedian m L ∧ (∃ a ∈ L, a ≤ m) ∧ (∃ b ∈ L, m ≤ b) := by
    intro m h1 h2
    refine ⟨⟨?_, ?_⟩, ?_, ?_⟩
    · rwa [← hperm.length_eq, ← hperm.countP_eq]
    · rwa [← hperm.length_eq, ← hperm.countP_eq]
    · have : 0 < s.countP (fun x => decide (x ≤ m)) := by omega
      obtain ⟨a, ha, h⟩ := List.countP_pos_iff.1 this
      exact ⟨a, hperm.mem_iff.1 ha, by simpa using h⟩
    · have : 0 < s.countP (fun x => decide (m ≤ x)) := by omega
      obtain ⟨a, ha, h⟩ := List.countP_pos_iff.1 this
      exact ⟨a, hperm.mem_iff.1 ha, by simpa using h⟩
  rw [if_neg (by omega)]
  have getD : ∀ k (hk : k < s.length), s.getD k 0 = s[k] := fun k hk => by
    simp [List.getD_eq_getElem?_getD, List.getElem?_eq_getElem hk]
  split
  · rename_i hodd
    have hk : s.length / 2 < s.length := by omega
    refine ⟨_, rfl, fin _ ?_ ?_⟩
    · have := sorted_take_le hs hk (getD _ hk).ge; omega
    · have := sorted_drop_ge hs hk (getD _ hk).le; omega
  · rename_i heven
    have hk : s.length / 2 < s.length := by omega
    have hk' : s.length / 2 - 1 < s.length := by omega
    have hle : s[s.length / 2 - 1] ≤ s[s.length / 2] := List.pairwise_iff_getElem.1 hs _ _ hk' hk (by omega)
    refine ⟨_, rfl, fin _ ?_ ?_⟩
    · have := sorted_take_le hs hk' (m := (s.getD (s.length / 2 - 1) 0 + s.getD (s.length / 2) 0) / 2)
        (by rw [getD _ hk, getD _ hk']; linarith)
      omega
    · have := sorted_drop_ge hs hk (m := (s.getD (s.length / 2 - 1) 0 + s.getD (s.length / 2) 0) / 2)
        (by rw [getD _ hk, getD _ hk']; linarith)
      omega

/-- **C09** if some two points differ, the result is a positive median of the non-zero pairwise Euclidean distances and
lies between two of them. -/
theorem C09_median {d : Nat} {X : List (List ℝ)} (hX : ∀ r ∈ X, r.length = d) (h2 : ∃ a ∈ X, ∃ b ∈ X, a ≠ b) :
    ∃ m, medianDistanceBetweenPoints X = .ok m ∧ IsMedian m (nonzeroDistances d X) ∧ 0 < m ∧
      (∃ r ∈ nonzeroDistances d X, r ≤ m) ∧ (∃ r ∈ nonzeroDistances d X, m ≤ r) := by
  unfold medianDistanceBetweenPoints
  rw [pairDistances_filter hX]
  have hne : nonzeroDistances d X ≠ [] := by
    obtain ⟨a, ha, b, hb, hab⟩ := h2
    apply List.ne_nil_of_mem (a := euclid d a b)
    exact mem_nonzeroDistances.2 ⟨a, ha, b, hb, rfl, fun h => hab ((euclid_eq_zero (hX a ha) (hX b hb)).1 h)⟩
  obtain ⟨m, h1, h2, h3, h4⟩ := npMedian_spec hne
  refine ⟨m, h1, h2, ?_, h3, h4⟩
  obtain ⟨r, hr, hrm⟩ := h3
  obtain ⟨a, _, b, _, rfl, h0⟩ := mem_nonzeroDistances.1 hr
  exact lt_of_lt_of_le (lt_of_le_of_ne (euclid_nonneg _ _ _) (Ne.symm h0)) hrm

/-- **C09** the order of the points is irrelevant. -/
theorem C09_order_irrelevant {X Y : List (List ℝ)} (h : X.Perm Y) :
    medianDistanceBetweenPoints X = medianDistanceBetweenPoints Y := by
  have hp : ((pairDistances X).filter (fun d => decide (d ≠ 0))).Perm
      ((pairDistances Y).filter (fun d => decide (d ≠ 0))) := by
    apply List.Perm.filter
    exact h.flatMap fun a _ => h.map _
  have hs : ∀ {L M : List ℝ}, L.Perm M → npMedian L = npMedian M := by
    intro L M hLM
    unfold npMedian
    have : L.mergeSort (fun a b => decide (a ≤ b)) = M.mergeSort (fun a b => decide (a ≤ b)) :=
      List.Perm.eq_of_pairwise' (mergeSort_pairwise L) (mergeSort_pairwise M)
        ((List.mergeSort_perm _ _).trans (hLM.trans (List.mergeSort_perm _ _).symm))
    rw [this]
  exact hs hp

/-- **C09** no two different points: there is no value (numpy: nan). -/
theorem C09_no_distance {d : Nat} {X : List (List ℝ)} (hX : ∀ r ∈ X, r.length = d) (h : ∀ a ∈ X, ∀ b ∈ X, a = b) :
    medianDistanceBetweenPoints X = .error .nan := by
  unfold medianDistanceBetweenPoints
  rw [pairDistances_filter hX]
  have : nonzeroDistances d X = [] := by
    rw [List.eq_nil_iff_forall_not_mem]
    intro r hr
    obtain ⟨a, ha, b, hb, rfl, h0⟩ := mem_nonzeroDistances.1 hr
    exact h0 ((euclid_eq_zero (hX a ha) (hX b hb)).2 (h a ha b hb))
  simp [this, npMedian]

example : (∀ r ∈ ([[0, 0], [3, 4]] : List (List ℝ)), r.length = 2) ∧
    ∃ a ∈ ([[0, 0], [3, 4]] : List (List ℝ)), ∃ b ∈ ([[0, 0], [3, 4]] : List (List ℝ)), a ≠ b :=
  ⟨by simp, [0, 0], by simp, [3, 4], by simp, by norm_num⟩

end PyPDP
