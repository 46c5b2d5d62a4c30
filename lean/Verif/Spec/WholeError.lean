/-
Specification vocabulary for C201.
-/
import Verif.Spec.DrawnLine

namespace PyPDP.Spec

/-- a normalised vector of `F` hyperparameters -/
def UnitRow (F : Nat) (r : List ℝ) : Prop := r.length = F ∧ ∀ e ∈ r, 0 ≤ e ∧ e ≤ 1

end PyPDP.Spec
