/-
Specification vocabulary for C200: lines of an ICE plot.
-/
import Verif.Spec.DrawnLine

namespace PyPDP.Spec

/-- what was drawn is a line with a point at `x`, `y` -/
def PassesThrough (xlog : Bool) (x : ℝ) (line : Shape ℝ) (y : ℝ) : Prop := ∃ color xs ys, line = .line color xs ys ∧ OnLine xlog xs ys x y

/-- On these samples the function does not let column `f` interact with the others: it is the sum of a function of the sample and a function of the value of the column. -/
def NoInteraction (samples : List (List ℝ)) (f : Nat) (h : List ℝ → ℝ) : Prop :=
  ∃ (a : List ℝ → ℝ) (b : ℝ → ℝ), ∀ r ∈ samples, ∀ t ∈ Set.Icc (0 : ℝ) 1, h (r.set f t) = a r + b t

end PyPDP.Spec
