/-
Specification vocabulary for C05-C07.
-/
import Verif.Model.Utils

namespace PyPDP.Spec

/-- What a selected item stands for in a config space: a name stands for the hyperparameter of that name in the space,
a hyperparameter object for itself; any other object stands for nothing. -/
def Denotes {K : Type _} (cs : ConfigSpace K) : SelItem K → Hp K → Prop
  | .name s, h => h ∈ cs ∧ h.name = s
  | .hp h', h => h = h'
  | .foreign, _ => False

/-- An axis of `n ≥ 2` points from `first` to `last`, strictly increasing, with equal steps: equal differences, or equal
ratios for a geometric (log) axis. -/
structure EvenAxis (first last : ℝ) (geometric : Bool) (n : Nat) (row : List ℝ) : Prop where
  length : row.length = n
  head : row[0]? = some first
  last : row[n - 1]? = some last
  increasing : row.Pairwise (· < ·)
  step : ∃ d : ℝ, ∀ (i : Nat) (x y : ℝ), row[i]? = some x → row[i + 1]? = some y →
    if geometric then y = x * d else y = x + d

end PyPDP.Spec
