/-
What the acquisition functions are meant to be, without their formulas.
-/
import Verif.Model.BoGp
import Mathlib.Probability.Distributions.Gaussian.Real

namespace PyPDP.Spec
open ProbabilityTheory MeasureTheory

/-- For a prediction `Y ~ N(mean, sigma²)` and the best value so far `eta`: the expected improvement on `eta - eps`, the probability of
such an improvement, or the optimistic bound `tau` standard deviations away from the mean (larger is better). -/
noncomputable def acqMeaning (minimize : Bool) (eta mean sigma : ℝ) : AcqKind → ℝ
  | .ei eps => ∫ y, max (eta - eps - y) 0 ∂gaussianReal mean ⟨sigma ^ 2, sq_nonneg _⟩
  | .pi eps => (gaussianReal mean ⟨sigma ^ 2, sq_nonneg _⟩).real (if minimize then Set.Iic (eta - eps) else Set.Ici (eta + eps))
  | .lcb tau => if minimize then tau * sigma - mean else mean + tau * sigma

end PyPDP.Spec
