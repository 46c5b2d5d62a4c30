/-
Specification vocabulary for C01-C04: what it means that a config space declares a numerical hyperparameter, and what
linear / logarithmic interpolation between the bounds is. Does not mention the functions under test.
-/
import Verif.Model.ConfigSpace
import Mathlib.Analysis.SpecialFunctions.Pow.Real

namespace PyPDP.Spec

/-- The config space declares a numerical hyperparameter `name` with range `[lower, upper]` and this log flag, and its
bounds are ones that ConfigSpace accepts. -/
structure Declares (cs : ConfigSpace ℝ) (name : String) (lower upper : ℝ) (log : Bool) : Prop where
  wf : cs.WF
  mem : ∃ hp ∈ cs, hp.name = name ∧ (hp.kind = .float lower upper log ∨ hp.kind = .integer lower upper log)
  lt : lower < upper
  pos : log = true → 0 < lower

/-- The point at fraction `t` between the bounds: arithmetic interpolation, or geometric for a log axis. -/
noncomputable def interpolate (lower upper : ℝ) (log : Bool) (t : ℝ) : ℝ :=
  if log then lower ^ (1 - t) * upper ^ t else (1 - t) * lower + t * upper

end PyPDP.Spec
