/-
Specification vocabulary for C09.
-/
import Mathlib.Analysis.SpecialFunctions.Pow.Real

namespace PyPDP.Spec

/-- Euclidean distance of two points given by `d` coordinates. -/
noncomputable def euclid (d : Nat) (a b : List ℝ) : ℝ :=
  Real.sqrt (∑ i ∈ Finset.range d, (a.getD i 0 - b.getD i 0) ^ 2)

/-- The non-zero distances between points of `X`, one per ordered pair of positions. -/
noncomputable def nonzeroDistances (d : Nat) (X : List (List ℝ)) : List ℝ :=
  ((X.product X).map fun p => euclid d p.1 p.2).filter (fun r => decide (r ≠ 0))

/-- At least half of the entries are `≤ m` and at least half are `≥ m`. -/
def IsMedian (m : ℝ) (L : List ℝ) : Prop :=
  L.length ≤ 2 * L.countP (fun x => decide (x ≤ m)) ∧ L.length ≤ 2 * L.countP (fun x => decide (m ≤ x))

end PyPDP.Spec
