/-
`SplitCondition(cs, hp, value=v, less_equal=le)` in machine arithmetic (decision_tree_partitioner.py:17-33).
-/
import Verif.Model.Machine

namespace PyPDP
variable {F : Type} [Machine F]

/-- decision_tree_partitioner.py:26-33, the constructor with a natural value -/
def condFromValueM (cs : ConfigSpace F) (hp : Hp F) (v : F) (le : Option Bool) : Py (Cond F) := do
  let t ← scaleFloatM v cs hp.name                                            -- 27
  checkCond hp (.flt t) le                                                    -- 29-33

end PyPDP
