/-
C55: the loss of a region.
-/
import Verif.Spec.Partitioner
import Verif.Lemmas.Py
import Verif.Props.Pdp
import Mathlib.Algebra.Order.BigOperators.Group.Finset
import Mathlib.Algebra.BigOperators.Ring.Finset
import Mathlib.Tactic.LinearCombination
import Mathlib.Tactic.Positivity

namespace PyPDP
open Spec
variable {K : Type} [Field K] [LinearOrder K] [IsStrictOrderedRing K]

omit [LinearOrder K] [IsStrictOrderedRing K] in
theorem list_sum_finset_comm {α : Type} (l : List α) (s : Finset Nat) (f : α → Nat → K) :
    (l.map fun r => ∑ p ∈ s, f r p).sum = ∑ p ∈ s, (l.map fun r => f r p).sum := by
  induction l with
  | nil => simp
  | cons a as ih => simp only [List.map_cons, List.sum_cons, ih, Finset.sum_add_distrib]

omit [LinearOrder K] [IsStrictOrderedRing K] in
theorem zipWith_sq_sum {P : Nat} {a b : List K} (ha : a.length = P) (hb : b.length = P) :
    (List.zipWith (fun a b => (a - b) ^ 2) a b).sum = dist2 P a b := by
  induction a generalizing b P with
  | nil => subst ha; simp [dist2]
  | cons x xs ih =>
    obtain _ | ⟨y, ys⟩ := b
    · subst ha; simp at hb
    subst ha
    simp only [List.length_cons, Nat.add_right_cancel_iff] at hb
    rw [List.zipWith_cons_cons, List.sum_cons, ih rfl hb, dist2, dist2, List.length_cons, Finset.sum_range_succ']
    simp [add_comm]

/-- the mean minimises the sum of squares -/
theorem sum_sq_mean_le (l : List K) (hne : l ≠ []) (m : K) :
    (l.map fun a => (a - l.sum / (l.length : K)) ^ 2).sum ≤ (l.map fun a => (a - m) ^ 2).sum := by
  have hpos : (0 : K) < l.length := by exact_mod_cast List.length_pos_iff.2 hne
  have key : ∀ (c : K) (l : List K), (l.map fun a => (a - c) ^ 2).sum = (l.map fun a => a ^ 2).sum - 2 * c * l.sum + l.length * c ^ 2 := by
    intro c l
    induction l with
    | nil => simp
    | cons a as ih =>
      simp only [List.map_cons, List.sum_cons, ih, List.length_cons, Nat.cast_add, Nat.cast_one]
      ring
  rw [key, key]
  obtain ⟨n, hn⟩ : ∃ n : K, n = (l.length : K) := ⟨_, rfl⟩
  obtain ⟨s, hs⟩ : ∃ s : K, s = l.sum := ⟨_, rfl⟩
  rw [← hn] at hpos ⊢
  rw [← hs]
  have hn0 : n ≠ 0 := hpos.ne'
  have h0 : 0 ≤ n * (m - s / n) ^ 2 := by positivity
  have : n * (m - s / n) ^ 2 = (- 2 * m * s + n * m ^ 2) - (- 2 * (s / n) * s + n * (s / n) ^ 2) := by
    field_simp
    ring
  linarith

omit [LinearOrder K] [IsStrictOrderedRing K] in
/-- the loss in closed form: sum of the squared distances to the mean curve -/
theorem regionLoss_eq {n P : Nat} (hn : n ≠ 0) {v : List (List K)} (hv : Shape2 n P v) :
    ∃ m : List K, IsAverage P v m ∧ (∀ p < P, m[p]? = some ((v.map fun r => r.getD p 0).sum / (v.length : K))) ∧
      regionLoss v = (v.map fun r => dist2 P r m).sum := by
  obtain ⟨m, hm, havg⟩ := meanRows_spec hn hv
  refine ⟨m, havg, ?_, ?_⟩
  · intro p hp
    obtain ⟨col, hcol, hval⟩ := havg.2 p hp
    rw [hval]
    congr 3
    refine IsColumn.unique hcol ⟨by simp, fun s hs => ?_⟩
    rw [List.getElem?_map, List.getElem?_eq_getElem hs, at2, List.getElem?_eq_getElem hs]
    have := hv.2 _ (List.getElem_mem hs)
    simp only [Option.map_some, Option.bind_some]
    rw [List.getElem?_eq_getElem (by omega), getD_lt (by omega)]
  · unfold regionLoss
    rw [hm]
    dsimp only
    congr 1
    refine List.map_congr_left fun r hr => zipWith_sq_sum (hv.2 r hr) havg.1

omit [LinearOrder K] [IsStrictOrderedRing K] in
theorem regionLoss_nil : regionLoss ([] : List (List K)) = 0 := by simp [regionLoss, meanRows, mean0]

/-- **C55** among all curves the mean curve has the smallest sum of squared distances, and that is the loss. -/
theorem C55_minimal {n P : Nat} {v : List (List K)} (hv : Shape2 n P v) :
    (∀ m : List K, m.length = P → regionLoss v ≤ (v.map fun r => dist2 P r m).sum) ∧
    (n ≠ 0 → ∃ m : List K, m.length = P ∧ IsAverage P v m ∧ regionLoss v = (v.map fun r => dist2 P r m).sum) := by
  constructor
  · intro m' hm'
    by_cases hn : n = 0
    · have : v = [] := List.length_eq_zero_iff.1 (by rw [hv.1, hn])
      subst this
      simp [regionLoss_nil]
    · obtain ⟨m, havg, hmp, hl⟩ := regionLoss_eq hn hv
      have hne : v ≠ [] := by rintro rfl; exact hn hv.1.symm
      rw [hl]
      unfold dist2
      rw [list_sum_finset_comm, list_sum_finset_comm]
      refine Finset.sum_le_sum fun p hp => ?_
      have hp' := Finset.mem_range.1 hp
      have h1 : m.getD p 0 = ((v.map fun r => r.getD p 0).sum / (v.length : K)) := by
        rw [List.getD, hmp p hp']; rfl
      rw [h1]
      have := sum_sq_mean_le (v.map fun r => r.getD p 0) (by simpa using hne) (m'.getD p 0)
      simpa [List.map_map, Function.comp_def] using this
  · intro hn
    obtain ⟨m, havg, _, hl⟩ := regionLoss_eq hn hv
    exact ⟨m, havg.1, havg, hl⟩

theorem dist2_nonneg (P : Nat) (a b : List K) : 0 ≤ dist2 P a b := Finset.sum_nonneg fun _ _ => sq_nonneg _

theorem dist2_eq_zero {P : Nat} {a b : List K} (ha : a.length = P) (hb : b.length = P) : dist2 P a b = 0 ↔ a = b := by
  constructor
  · intro h
    have h2 := (Finset.sum_eq_zero_iff_of_nonneg fun p _ => sq_nonneg (a.getD p 0 - b.getD p 0)).1 h
    refine List.ext_getElem (by rw [ha, hb]) fun p h1 h3 => ?_
    have := h2 p (Finset.mem_range.2 (by omega))
    rw [getD_lt h1, getD_lt h3] at this
    exact sub_eq_zero.1 (pow_eq_zero_iff (two_ne_zero)|>.1 this)
  · rintro rfl
    simp [dist2]

theorem list_sum_nonneg' {α : Type} (l : List α) (f : α → K) (h : ∀ a ∈ l, 0 ≤ f a) :
    0 ≤ (l.map f).sum ∧ ((l.map f).sum = 0 → ∀ a ∈ l, f a = 0) := by
  induction l with
  | nil => simp
  | cons a as ih =>
    obtain ⟨h1, h2⟩ := ih fun b hb => h b (by simp [hb])
    have ha := h a (by simp)
    simp only [List.map_cons, List.sum_cons, List.mem_cons, forall_eq_or_imp]
    refine ⟨add_nonneg ha h1, fun h0 => ?_⟩
    have e1 : f a = 0 := by linarith
    exact ⟨e1, h2 (by linarith)⟩

/-- **C55** the loss is not negative, and zero exactly when all variance curves are the same. -/
theorem C55_zero_iff {n P : Nat} {v : List (List K)} (hv : Shape2 n P v) :
    0 ≤ regionLoss v ∧ (regionLoss v = 0 ↔ ∀ a ∈ v, ∀ b ∈ v, a = b) := by
  by_cases hn : n = 0
  · have : v = [] := List.length_eq_zero_iff.1 (by rw [hv.1, hn])
    subst this
    simp [regionLoss_nil]
  · obtain ⟨m, havg, hmp, hl⟩ := regionLoss_eq hn hv
    obtain ⟨h1, h2⟩ := list_sum_nonneg' v (fun r => dist2 P r m) fun r _ => dist2_nonneg P r m
    rw [hl]
    refine ⟨h1, fun h a ha b hb => ?_, fun h => ?_⟩
    · rw [(dist2_eq_zero (hv.2 a ha) havg.1).1 (h2 h a ha), (dist2_eq_zero (hv.2 b hb) havg.1).1 (h2 h b hb)]
    · have hne : v ≠ [] := by rintro rfl; exact hn hv.1.symm
      obtain ⟨r, rs, hr⟩ := List.exists_cons_of_ne_nil hne
      have hrm : r ∈ v := by simp [hr]
      have hle := (C55_minimal hv).1 r (hv.2 r hrm)
      have : (v.map fun q => dist2 P q r).sum = 0 := by
        refine List.sum_eq_zero fun x hx => ?_
        obtain ⟨q, hq, rfl⟩ := List.mem_map.1 hx
        rw [h q hq r hrm]
        exact (dist2_eq_zero (hv.2 r hrm) (hv.2 r hrm)).2 rfl
      rw [this, hl] at hle
      exact le_antisymm hle h1

omit [LinearOrder K] [IsStrictOrderedRing K] in
/-- **C55** the order of the curves does not matter. -/
theorem C55_order_irrelevant {n P : Nat} {v v' : List (List K)} (hv : Shape2 n P v) (h : v.Perm v') : regionLoss v = regionLoss v' := by
  unfold regionLoss
  rw [meanRows_perm hv h]
  cases meanRows v' with
  | error e => rfl
  | ok m => exact (h.map _).sum_eq

/-- two variance curves (1, 3) and (3, 3): mean (2, 3), loss 1 + 1 -/
example : regionLoss ([[1, 3], [3, 3]] : List (List ℚ)) = 2 := by decide +kernel

/-- the loss of the parts is at most the loss of the whole -/
theorem regionLoss_filter_le {n P : Nat} {α : Type} (l : List α) (f : α → List K) (hv : Shape2 n P (l.map f)) (p : α → Bool) :
    regionLoss ((l.filter p).map f) + regionLoss ((l.filter fun a => !p a).map f) ≤ regionLoss (l.map f) := by
  by_cases hn : n = 0
  · have : l = [] := List.length_eq_zero_iff.1 (by have := hv.1; simpa [hn] using this)
    subst this
    simp [regionLoss_nil]
  obtain ⟨m, hm, _, hl⟩ := (C55_minimal hv).2 hn
  have sh : ∀ q : α → Bool, Shape2 ((l.filter q).map f).length P ((l.filter q).map f) := by
    intro q
    refine ⟨rfl, fun r hr => ?_⟩
    obtain ⟨a, ha, rfl⟩ := List.mem_map.1 hr
    exact hv.2 _ (List.mem_map_of_mem (List.mem_of_mem_filter ha))
  have h1 := (C55_minimal (sh p)).1 m hm
  have h2 := (C55_minimal (sh fun a => !p a)).1 m hm
  have hsum : ∀ l : List α, (((l.filter p).map f).map fun r => dist2 P r m).sum + (((l.filter fun a => !p a).map f).map fun r => dist2 P r m).sum
      = ((l.map f).map fun r => dist2 P r m).sum := by
    intro l
    induction l with
    | nil => simp
    | cons a as ih =>
      cases hp : p a <;> simp only [List.filter_cons, hp, Bool.not_false, Bool.not_true, if_true, if_false, Bool.false_eq_true,
        List.map_cons, List.sum_cons] <;> rw [← ih] <;> ring
  rw [hl, ← hsum l]
  exact add_le_add h1 h2

end PyPDP
