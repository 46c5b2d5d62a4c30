/-
How ConfigSpace writes an integer hyperparameter into the vector of a configuration (contract).
-/
import Mathlib.Analysis.SpecialFunctions.Log.Basic

namespace PyPDP.Spec

/-- The number of the value `v` of an integer hyperparameter between `l` and `u` in a vector: ConfigSpace (0.7.1, the version of
environment.yml) normalises integers with the bounds `l - h` and `u + h`, where `h = 0.49999`. -/
noncomputable def intNumber (h l u : ℝ) (log : Bool) (v : ℝ) : ℝ :=
  if log then (Real.log v - Real.log (l - h)) / (Real.log (u + h) - Real.log (l - h)) else (v - (l - h)) / ((u + h) - (l - h))

end PyPDP.Spec
