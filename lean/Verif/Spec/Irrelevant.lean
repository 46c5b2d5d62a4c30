/-
Specification vocabulary for C167: a config space without some of its hyperparameters.
-/
import Verif.Spec.Partitioner

namespace PyPDP.Spec
variable {K : Type}

/-- the entries of a vector that belong to the hyperparameters to keep -/
def keptEntries (keep : Hp K → Bool) (space : ConfigSpace K) (r : List K) : List K := ((space.zip r).filter fun e => keep e.1).map Prod.snd

/-- The same region, with the smaller vectors. -/
structure SameButShorter (keep : Hp K → Bool) (space : ConfigSpace K) (m m' : Node K) : Prop where
  depth : m'.depth = m.depth
  conds : m'.conds = m.conds
  x : m'.x = m.x.map fun rows => rows.map (keptEntries keep space)
  y : m'.y = m.y
  v : m'.v = m.v

end PyPDP.Spec
