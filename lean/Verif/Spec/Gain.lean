/-
Vocabulary for C181.
-/
import Mathlib.Probability.Distributions.Gaussian.Real

namespace PyPDP.Spec
open MeasureTheory ProbabilityTheory

/-- how far a standard normal variable falls below `z`, on average -/
noncomputable def gain (z : ℝ) : ℝ := ∫ t, max (z - t) 0 ∂gaussianReal 0 1

end PyPDP.Spec
