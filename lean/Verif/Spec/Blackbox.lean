/-
Specification vocabulary for C10-C18.
-/
import Verif.Model.Blackbox
import Mathlib.MeasureTheory.Integral.IntervalIntegral.Basic

namespace PyPDP.Spec

/-- The configuration that gives the coordinates `x1 = xs[0], x2 = xs[1], ...` (the normalised vector is irrelevant). -/
def ndConfig (xs : List ℝ) : Config ℝ :=
  ⟨[], (List.range xs.length).map fun i => ("x" ++ toString (i + 1), .num (xs.getD i 0))⟩

/-- An assignment of numbers to names. -/
abbrev Assignment := String → ℝ

/-- The same assignment except for one name. -/
def Assignment.update (ρ : Assignment) (n : String) (t : ℝ) : Assignment := fun m => if m = n then t else ρ m

/-- The configuration of a space that gives every hyperparameter its number in `ρ`. -/
def assignConfig (cs : ConfigSpace ℝ) (ρ : Assignment) : Config ℝ :=
  ⟨[], cs.map fun hp => (hp.name, .num (ρ hp.name))⟩

/-- An axis to integrate out. -/
structure Axis where
  name : String
  lower : ℝ
  upper : ℝ

/-- Partial dependence: the average of `g` over the box of the listed axes, as an iterated integral divided by the axis
lengths. -/
noncomputable def average : List Axis → (Assignment → ℝ) → Assignment → ℝ
  | [], g, ρ => g ρ
  | a :: as, g, ρ => (∫ t in a.lower..a.upper, average as g (ρ.update a.name t)) / (a.upper - a.lower)

end PyPDP.Spec
