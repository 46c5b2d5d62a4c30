/-
Specification vocabulary for the exact form of C71.
-/
import Verif.Spec.Plotting

namespace PyPDP.Spec
variable {K : Type}

/-- A call asks for the axis with label `x` below and label `y` beside: one hyperparameter over the quantity shown, or two hyperparameters. -/
def Titles (c : AxisCall K) (x y : String) : Prop :=
  (∃ hp, c.hps = [hp] ∧ x = hp.name ∧ y = c.ylabel) ∨ ∃ p q, c.hps = [p, q] ∧ x = p.name ∧ y = q.name

end PyPDP.Spec
