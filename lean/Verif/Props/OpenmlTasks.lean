/-
C158: what `analyze_openml_tasks` prints.
-/
import Verif.Model.OpenmlTasks
import Verif.Lemmas.Py
import Mathlib.Data.List.Nodup
import Mathlib.Algebra.Field.Rat
import Mathlib.Algebra.CharZero.Defs

namespace PyPDP

/-- the task has exactly `i` features, and all of them are numeric (without features the number of numeric ones may be missing) -/
def Spec.AllNumeric {K : Type} [Field K] (t : Int × TaskInfo K) (i : Nat) : Prop :=
  t.2.lookup "NumberOfFeatures" = some (i : K) ∧
    (t.2.lookup "NumberOfNumericFeatures" = some (i : K) ∨ i = 0 ∧ t.2.lookup "NumberOfNumericFeatures" = none)

instance {K : Type} [Field K] [DecidableEq K] (t : Int × TaskInfo K) (i : Nat) : Decidable (Spec.AllNumeric t i) := by
  unfold Spec.AllNumeric; infer_instance

/-- openml gives the number of features, or else not -1 as the number of numeric ones -/
def Spec.Counted {K : Type} [Field K] (t : Int × TaskInfo K) : Prop :=
  t.2.lookup "NumberOfFeatures" = none → t.2.lookup "NumberOfNumericFeatures" ≠ some (-1)

open Spec
variable {K : Type} [Field K] [DecidableEq K]

theorem tasksWith_eq (i : Nat) : ∀ {ts : List (Int × TaskInfo K)}, (∀ t ∈ ts, ∃ n, t.2.lookup "NumberOfFeatures" = some n) →
    tasksWith i ts = .ok ((ts.filter fun t => decide (t.2.lookup "NumberOfFeatures" = some (i : K))).map Prod.fst)
  | [], _ => rfl
  | t :: ts, h => by
    obtain ⟨n, hn⟩ := h t (by simp)
    rw [tasksWith, taskAt, hn]
    simp only [Py.ok_bind]
    rw [tasksWith_eq i fun t ht => h t (by simp [ht]), Py.ok_bind]
    by_cases hi : n = (i : K)
    · rw [if_pos hi, List.filter_cons_of_pos (by simp [hn, hi])]; rfl
    · rw [if_neg hi, List.filter_cons_of_neg (by simp [hn, hi])]; rfl

theorem tasksWith_missing (i : Nat) : ∀ {ts : List (Int × TaskInfo K)}, (∃ t ∈ ts, t.2.lookup "NumberOfFeatures" = none) →
    tasksWith i ts = .error .key
  | [], h => by obtain ⟨t, ht, -⟩ := h; cases ht
  | t :: ts, h => by
    rw [tasksWith, taskAt]
    cases hn : t.2.lookup "NumberOfFeatures" with
    | none => rfl
    | some n =>
      simp only [Py.ok_bind]
      rw [tasksWith_missing i (ts := ts) (by
        obtain ⟨s, hs, he⟩ := h
        rcases List.mem_cons.1 hs with rfl | hs
        · rw [hn] at he; cases he
        · exact ⟨s, hs, he⟩)]
      rfl

theorem printTasks_eq {ts : List (Int × TaskInfo K)} (h : ∀ t ∈ ts, ∃ n, t.2.lookup "NumberOfFeatures" = some n) : ∀ i count,
    printTasks ts i count = ((List.range' i count).flatMap fun i =>
      [.heading i, .ids ((ts.filter fun t => decide (t.2.lookup "NumberOfFeatures" = some (i : K))).map Prod.fst)], none)
  | _, 0 => rfl
  | i, count + 1 => by
    rw [printTasks, tasksWith_eq i h]
    dsimp only
    rw [printTasks_eq h (i + 1) count, List.range'_succ, List.flatMap_cons]
    rfl

/-! ### C158 -/

/-- **C158** If openml gives the numbers of features (or anyhow not -1 as the number of numeric ones), `analyze_openml_tasks` comes to its end
and prints, for each number `i` from 0 to 19, exactly the tasks with `i` features that are all numeric, in the order in which openml lists them. -/
theorem C158_lines [CharZero K] {tasks : List (Int × TaskInfo K)} (h : ∀ t ∈ tasks, Counted t) :
    analyzeOpenmlTasks tasks = ((List.range 20).flatMap fun i =>
      [.heading i, .ids ((tasks.filter fun t => decide (AllNumeric t i)).map Prod.fst)], none) := by
  have hf : ∀ t ∈ numericOnlyTasks tasks, ∃ n, t.2.lookup "NumberOfFeatures" = some n := by
    intro t ht
    obtain ⟨hm, he⟩ := List.mem_filter.1 ht
    have he := of_decide_eq_true he
    cases hn : t.2.lookup "NumberOfFeatures" with
    | some n => exact ⟨n, rfl⟩
    | none =>
      rw [hn] at he
      cases hk : t.2.lookup "NumberOfNumericFeatures" with
      | none =>
        rw [hk] at he
        exact absurd he (by simp)
      | some k =>
        rw [hk] at he
        exact absurd (by rw [hk]; exact congrArg some he) (h t hm hn)
  rw [analyzeOpenmlTasks, printTasks_eq hf, ← List.range_eq_range']
  congr 1
  refine List.flatMap_congr fun i _ => ?_
  congr 3
  rw [numericOnlyTasks, List.filter_filter]
  refine congrArg _ (List.filter_congr fun t _ => ?_)
  rw [Bool.eq_iff_iff]
  rw [Bool.and_eq_true, decide_eq_true_iff, decide_eq_true_iff, decide_eq_true_iff]
  unfold AllNumeric
  constructor
  · rintro ⟨hi, he⟩
    refine ⟨hi, ?_⟩
    rw [hi] at he
    cases hk : t.2.lookup "NumberOfNumericFeatures" with
    | none =>
      rw [hk] at he
      right
      simp only [Option.getD_none, Option.getD_some] at he
      exact ⟨by exact_mod_cast he.symm, rfl⟩
    | some k =>
      rw [hk] at he
      left
      exact congrArg some he
  · rintro ⟨hi, hk | ⟨rfl, hk⟩⟩
    · exact ⟨hi, by rw [hi, hk]; rfl⟩
    · exact ⟨hi, by rw [hi, hk]; simp⟩

/-- **C158** No task is printed on two lines, and one with fewer than 20 features is printed if and only if all of them are numeric. -/
theorem C158_once [CharZero K] {tasks : List (Int × TaskInfo K)} (hid : (tasks.map Prod.fst).Nodup) (h : ∀ t ∈ tasks, Counted t) :
    ∃ ids : Nat → List Int, analyzeOpenmlTasks tasks = ((List.range 20).flatMap fun i => [.heading i, .ids (ids i)], none) ∧
      (∀ i, (ids i).Nodup) ∧ (∀ i j, i ≠ j → ∀ t, t ∈ ids i → t ∉ ids j) ∧
      ∀ t ∈ tasks, ∀ i, t.1 ∈ ids i ↔ AllNumeric t i := by
  have hone : ∀ s ∈ tasks, ∀ t ∈ tasks, s.1 = t.1 → s = t := fun s hs t ht he => List.inj_on_of_nodup_map hid hs ht he
  refine ⟨_, C158_lines h, fun i => ?_, fun i j hij t hi hj => ?_, fun t ht i => ?_⟩
  · exact List.Nodup.sublist (List.Sublist.map _ List.filter_sublist) hid
  · obtain ⟨s, hs, rfl⟩ := List.mem_map.1 hi
    obtain ⟨s', hs', he⟩ := List.mem_map.1 hj
    obtain ⟨hm, h1⟩ := List.mem_filter.1 hs
    obtain ⟨hm', h2⟩ := List.mem_filter.1 hs'
    obtain rfl := hone _ hm' _ hm he
    have h1 := (of_decide_eq_true h1).1
    rw [(of_decide_eq_true h2).1] at h1
    exact hij (by exact_mod_cast (Option.some.inj h1).symm)
  · constructor
    · intro hi
      obtain ⟨s, hs, he⟩ := List.mem_map.1 hi
      obtain ⟨hm, h1⟩ := List.mem_filter.1 hs
      obtain rfl := hone _ hm _ ht he
      exact of_decide_eq_true h1
    · intro hi
      exact List.mem_map.2 ⟨t, List.mem_filter.2 ⟨ht, decide_eq_true hi⟩, rfl⟩

/-- **C158** Only a task without a number of features but with -1 numeric ones ends the script: KeyError after the first heading. -/
theorem C158_missing {tasks : List (Int × TaskInfo K)} (h : ∃ t ∈ tasks, ¬ Counted t) : analyzeOpenmlTasks tasks = ([.heading 0], some .key) := by
  obtain ⟨t, ht, hc⟩ := h
  have hc : t.2.lookup "NumberOfFeatures" = none ∧ t.2.lookup "NumberOfNumericFeatures" = some (-1) := by
    unfold Counted at hc
    push Not at hc
    exact hc
  rw [analyzeOpenmlTasks, printTasks, tasksWith_missing]
  exact ⟨t, List.mem_filter.2 ⟨ht, by rw [hc.1, hc.2]; simp⟩, hc.1⟩

/-! three tasks: two numeric features; three features, two of them numeric; no features and no count of the numeric ones -/

private def exTasks : List (Int × TaskInfo ℚ) :=
  [(7, [("NumberOfFeatures", 2), ("NumberOfNumericFeatures", 2)]), (8, [("NumberOfFeatures", 3), ("NumberOfNumericFeatures", 2)]), (9, [("NumberOfFeatures", 0)]), (4, [])]

example : (analyzeOpenmlTasks exTasks).1.take 6 = [.heading 0, .ids [9], .heading 1, .ids [], .heading 2, .ids [7]] ∧ (analyzeOpenmlTasks exTasks).2 = none := by
  decide +kernel

end PyPDP
