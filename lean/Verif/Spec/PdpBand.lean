/-
Vocabulary for C172: an unknown function for which a surrogate gives mean and standard deviation at every vector.
-/
import Mathlib.Probability.Moments.Variance
import Verif.Spec.Dependence

namespace PyPDP.Spec
open MeasureTheory ProbabilityTheory

/-- `F r ω` is the value at vector `r` of a random function, for which `mu` and `sd` are mean and standard deviation at every vector of length `d`. How the values
at different vectors depend on each other is left open. -/
def Predicted {Ω : Type} [MeasurableSpace Ω] (P : Measure Ω) (d : Nat) (F : List ℝ → Ω → ℝ) (mu sd : List ℝ → ℝ) : Prop :=
  ∀ r, r.length = d → MemLp (F r) 2 P ∧ ∫ ω, F r ω ∂P = mu r ∧ variance (F r) P = sd r ^ 2

/-- The partial dependence of the random function at grid point `t`, over the samples. -/
noncomputable def trueDependence {Ω : Type} (space : ConfigSpace ℝ) (selected : List (Hp ℝ)) (samples : List (List ℝ)) (F : List ℝ → Ω → ℝ) (t : List ℝ) (ω : Ω) : ℝ :=
  (samples.map fun r => F (atPoint space selected t r) ω).sum / samples.length

end PyPDP.Spec
