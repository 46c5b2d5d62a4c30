/-
Specification vocabulary for the computed logarithm and power.
-/
import Verif.Spec.Rounding
import Verif.Model.RoundedRanges
import Mathlib.Analysis.SpecialFunctions.Log.Base

namespace PyPDP.Spec

/-- all operations, the logarithm and the power give one of the doubles that are nearest to the exact result -/
structure CorrectlyRounded (c : Computed) : Prop where
  fl : RoundsToNearest c.fl
  log10 : ∀ x, 0 < x → Nearest (Real.logb 10 x) (c.log10 x)
  pow10 : ∀ y, Nearest ((10 : ℝ) ^ y) (c.pow10 y)

/-- all values lie within the bounds -/
def InBounds (l u : ℝ) (xs : List ℝ) : Prop := ∀ x ∈ xs, l ≤ x ∧ x ≤ u

end PyPDP.Spec
