/-
Vocabulary for C163: two config spaces whose hyperparameters correspond by position.
-/
import Verif.Spec.Partitioner
import Verif.Spec.Scaling

namespace PyPDP.Spec
variable {K : Type}

/-- `hp` and `hp'` stand at the same position of the two spaces; names, bounds, types and scales may differ -/
def Matches (space space' : ConfigSpace K) (hp hp' : Hp K) : Prop := ∃ k : Nat, space[k]? = some hp ∧ space'[k]? = some hp'

/-- the same condition on the corresponding hyperparameter -/
structure MatchingCond (space space' : ConfigSpace K) (c c' : Cond K) : Prop where
  hp : Matches space space' c.hp c'.hp
  nval : c'.nval = c.nval
  lessEqual : c'.lessEqual = c.lessEqual

/-- the same region: the same arrays, the same conditions on corresponding hyperparameters -/
structure MatchingRegion (space space' : ConfigSpace K) (m m' : Node K) : Prop where
  depth : m'.depth = m.depth
  x : m'.x = m.x
  y : m'.y = m.y
  v : m'.v = m.v
  conds : List.Forall₂ (MatchingCond space space') m.conds m'.conds

/-- the two configurations give corresponding hyperparameters values at the same normalised position -/
def SamePlace (space space' : ConfigSpace ℝ) (cfg cfg' : Config ℝ) : Prop :=
  ∀ hp hp', Matches space space' hp hp' → ∃ l u g l' u' g' t, Declares space hp.name l u g ∧ Declares space' hp'.name l' u' g' ∧
    cfg.get? hp.name = some (.num (interpolate l u g t)) ∧ cfg'.get? hp'.name = some (.num (interpolate l' u' g' t))

end PyPDP.Spec
