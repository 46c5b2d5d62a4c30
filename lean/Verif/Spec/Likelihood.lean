/-
Specification vocabulary for the likelihood of a region.
-/
import Verif.Model.Likelihood
import Verif.Spec.Partitioner
import Verif.Spec.Blackbox
import Mathlib.Probability.Distributions.Gaussian.Real

namespace PyPDP.Spec
open ProbabilityTheory

/-- mean of the y values at grid point `p` -/
noncomputable def meanY (p : Nat) (L : List (Curve ℝ)) : ℝ := (L.map fun c => c.2.1.getD p 0).sum / (L.length : ℝ)

/-- minus the average log density of `truth 0, …, truth (P - 1)` under independent normal distributions -/
noncomputable def gaussLoss (P : Nat) (μ var truth : Nat → ℝ) : ℝ :=
  -((∑ p ∈ Finset.range P, Real.log (gaussianPDFReal (μ p) (var p).toNNReal (truth p))) / (P : ℝ))

/-- `truth p` is what the exact partial dependence of `fn` is at grid point `p` of region `n`: the value of its `pd_integral` over all
hyperparameters that are not selected, at the natural value of the selected hyperparameter `hp` (range `[l, u]`, feature `f`). -/
structure IsTruth (inv : Hp ℝ → Val ℝ → ℝ) (P : Nat) (space : ConfigSpace ℝ) (selected : List (Hp ℝ)) (n : Node ℝ) (fn : TrueFn) (truth : Nat → ℝ) :
    Prop where
  intro ::
  out : ∃ (hp : Hp ℝ) (rest : List (Hp ℝ)) (l u : ℝ) (log : Bool) (f : Nat) (pd : BlackboxFn ℝ), selected = hp :: rest ∧
    Declares space hp.name l u log ∧ IsFeature space hp f ∧
    fn.pdIntegral ((fn.space.filter fun h => decide (∀ s ∈ selected, s.name ≠ h.name)).map .hp) = .ok pd ∧
    ∀ p < P, ∃ t, at3 n.x 0 p f = some t ∧ 0 ≤ t ∧ t ≤ 1 ∧ pd.call inv [(hp.name, .num (interpolate l u log t))] = .ok (truth p)

end PyPDP.Spec
