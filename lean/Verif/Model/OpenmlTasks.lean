/-
Model of `analyze_openml_tasks` in examples/main_hpo_bench.py.
-/
import Verif.Model.Py

namespace PyPDP

/-- What openml knows about a task: a dictionary from names to numbers. -/
abbrev TaskInfo (K : Type) := List (String × K)

/-- `info[key]` -/
def taskAt {K : Type} (info : TaskInfo K) (key : String) : Py K :=
  match info.lookup key with
  | some v => .ok v
  | none => .error .key

/-- examples/main_hpo_bench.py:126-130: the ids whose numbers of features agree, in the order of the dictionary `tasks` (ids with their
information; `tasks[t]` is the information of `t`) -/
def numericOnlyTasks {K : Type} [Field K] [DecidableEq K] (tasks : List (Int × TaskInfo K)) : List (Int × TaskInfo K) :=
  tasks.filter fun t => (t.2.lookup "NumberOfNumericFeatures").getD 0 = (t.2.lookup "NumberOfFeatures").getD (-1)

/-- examples/main_hpo_bench.py:133: `list(filter(...))` of one line -/
def tasksWith {K : Type} [Field K] [DecidableEq K] (i : Nat) : List (Int × TaskInfo K) → Py (List Int)
  | [] => .ok []
  | t :: ts => do
    let n ← taskAt t.2 "NumberOfFeatures"
    let rest ← tasksWith i ts
    return if n = (i : K) then t.1 :: rest else rest

/-- what is printed: a heading with a number, or a list of ids -/
inductive Printed
  | heading (i : Nat)
  | ids (l : List Int)
  deriving DecidableEq, Repr

/-- examples/main_hpo_bench.py:131-133 from `i` on, `count` times: what is printed, and the exception that ends it -/
def printTasks {K : Type} [Field K] [DecidableEq K] (tasks : List (Int × TaskInfo K)) : Nat → Nat → List Printed × Option PyErr
  | _, 0 => ([], none)
  | i, count + 1 =>
    match tasksWith i tasks with
    | .error e => ([.heading i], some e)
    | .ok l =>
      let (out, e) := printTasks tasks (i + 1) count
      (.heading i :: .ids l :: out, e)

/-- examples/main_hpo_bench.py:125-133 `analyze_openml_tasks`; `tasks` is `openml.tasks.list_tasks()` -/
def analyzeOpenmlTasks {K : Type} [Field K] [DecidableEq K] (tasks : List (Int × TaskInfo K)) : List Printed × Option PyErr :=
  printTasks (numericOnlyTasks tasks) 0 20

end PyPDP
