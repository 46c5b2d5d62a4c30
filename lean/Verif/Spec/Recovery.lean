/-
Vocabulary for C169: which thresholds a tree may use at its root, in terms of the samples.
-/
import Verif.Spec.AdditiveVariance
import Verif.Spec.Partitioner

namespace PyPDP.Spec
variable {K : Type} [Field K] [LinearOrder K]

/-- The samples with a value up to `t` in feature `f`, and the others. -/
def below (f : Nat) (t : K) (samples : List (List K)) : List (List K) := samples.filter fun r => decide (r.getD f 0 ≤ t)
def above (f : Nat) (t : K) (samples : List (List K)) : List (List K) := samples.filter fun r => decide (t < r.getD f 0)

/-- Threshold `j / (N + 1)` of the splittable hyperparameter number `i`, which is `hp` (feature `f`), leaves enough samples on both sides. -/
structure Admits (space possible : List (Hp K)) (N minPoints : Nat) (samples : List (List K)) (i j : Nat) (hp : Hp K) (f : Nat) : Prop where
  hp_at : possible[i]? = some hp
  feature : IsFeature space hp f
  one_le : 1 ≤ j
  le : j ≤ N
  below_size : minPoints ≤ (below f ((j : K) / ((N : K) + 1)) samples).length
  above_size : minPoints ≤ (above f ((j : K) / ((N : K) + 1)) samples).length

/-- `rows` are the vectors of the curve of sample `r`, with `P` grid points -/
def IsCurveOf (space : ConfigSpace K) (selected : List (Hp K)) (P : Nat) (r : List K) (rows : List (List K)) : Prop :=
  rows.length = P ∧ ∀ row ∈ rows, AgreesOnOthers space selected r row

end PyPDP.Spec
