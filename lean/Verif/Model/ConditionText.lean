/-
Model of `SplitCondition.__str__` (pyPDP/algorithms/partitioner/decision_tree_partitioner.py:56-67).

Parameter: `fmt`, the text of a float in an f-string.
-/
import Verif.Model.Partitioner

namespace PyPDP
variable {K : Type}

/-- the text of `self.value` in an f-string -/
def NVal.text (fmt : K → String) : NVal K → String
  | .flt t => fmt t
  | .int i => toString i
  | .str s => s

/-- decision_tree_partitioner.py:56-67 `SplitCondition.__str__` -/
def condStr [Field K] [LinearOrder K] [Transc K] (fmt : K → String) (cs : ConfigSpace K) (c : Cond K) : Py String := do
  match c.lessEqual with
  | some le =>
    let w ← condValue cs c
    return "SplitCondition(" ++ c.hp.name ++ " " ++ (if le then "<=" else ">") ++ " " ++ w.text fmt ++ ")"
  | none =>
    let w ← condValue cs c
    return "SplitCondition(" ++ w.text fmt ++ " in " ++ c.hp.name ++ ")"

end PyPDP
