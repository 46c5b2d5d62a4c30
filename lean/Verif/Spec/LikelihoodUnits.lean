/-
Vocabulary for C174: a region and its true function when the objective is measured in other units.
-/
import Verif.Spec.Likelihood

namespace PyPDP.Spec

/-- The region when the objective is measured in other units: the values become `a * y + b`, the variances `a² * v`. -/
noncomputable def regionInUnits (a b : ℝ) (n : Node ℝ) : Node ℝ :=
  { n with y := n.y.map fun row => row.map fun t => a * t + b, v := n.v.map fun row => row.map fun t => a ^ 2 * t }

/-- The true function in those units. -/
noncomputable def fnInUnits (a b : ℝ) (fn : TrueFn) : TrueFn :=
  ⟨fn.space, fun hps => (fn.pdIntegral hps).map fun pd => ⟨pd.cs, fun c => (pd.value c).map fun t => a * t + b⟩⟩

end PyPDP.Spec
