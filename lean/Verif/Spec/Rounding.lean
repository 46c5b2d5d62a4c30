/-
Specification vocabulary for sums of floating-point numbers.
-/
import Verif.Spec.Double
import Mathlib.Algebra.BigOperators.Group.List.Defs

namespace PyPDP.Spec

/-- every operation is correctly rounded (ties either way) -/
def RoundsToNearest (fl : ℝ → ℝ) : Prop := ∀ x, Nearest x (fl x)

/-- `s` is a possible result of adding up the numbers of `l` with rounded additions, in any order and grouped in any way -/
inductive AddedUp (fl : ℝ → ℝ) : List ℝ → ℝ → Prop
  | one (a : ℝ) : AddedUp fl [a] a
  | add {l r l' : List ℝ} {a b : ℝ} : AddedUp fl l a → AddedUp fl r b → l'.Perm (l ++ r) → AddedUp fl l' (fl (a + b))

/-- `sum` adds up with rounded additions, in whatever order -/
structure SumsUp (fl : ℝ → ℝ) (sum : List ℝ → ℝ) : Prop where
  empty : sum [] = 0
  added : ∀ l, l ≠ [] → AddedUp fl l (sum l)

/-- the exact average -/
noncomputable def meanOf (l : List ℝ) : ℝ := l.sum / l.length

/-- the values of all curves at grid point `c` -/
def valuesAt (y : List (List ℝ)) (c : Nat) : List ℝ := y.map fun row => row.getD c 0

end PyPDP.Spec
