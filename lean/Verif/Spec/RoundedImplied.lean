/-
Specification vocabulary for the computed exponential and logarithm.
-/
import Verif.Spec.Rounding
import Verif.Model.RoundedImplied
import Mathlib.Analysis.SpecialFunctions.Log.Basic

namespace PyPDP.Spec

/-- all operations, the logarithm and the exponential give one of the doubles that are nearest to the exact result -/
structure CorrectlyRoundedExp (c : ComputedExp) : Prop where
  fl : RoundsToNearest c.fl
  log : ∀ x, 0 < x → Nearest (Real.log x) (c.log x)
  exp : ∀ y, Nearest (Real.exp y) (c.exp y)

/-- `out` has the name of `hp` and is a constant within `[l, u]` or the same class of range within `[l, u]` -/
def SubRange (hp : Hp ℝ) (l u : ℝ) (out : Hp ℝ) : Prop :=
  out.name = hp.name ∧
  ((∃ v, out.kind = .constant (.num v) ∧ l ≤ v ∧ v ≤ u) ∨
   ∃ a b g, l ≤ a ∧ a < b ∧ b ≤ u ∧ ((hp.kind = .float l u g ∧ out.kind = .float a b g) ∨ (hp.kind = .integer l u g ∧ out.kind = .integer a b g)))

end PyPDP.Spec
