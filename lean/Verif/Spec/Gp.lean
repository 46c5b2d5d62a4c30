/-
Specification vocabulary for the Gaussian process surrogate: covariance functions, spread of the targets.
-/
import Verif.Model.Gp

namespace PyPDP.Spec

/-- A covariance function on rows of `d` numbers: symmetric, and no combination of rows has negative variance. -/
def Covariance (d : Nat) (k : Kernel) : Prop :=
  (∀ x y, x.length = d → y.length = d → k x y = k y x) ∧
  ∀ (n : Nat) (z : Fin n → List ℝ) (c : Fin n → ℝ), (∀ i, (z i).length = d) → 0 ≤ ∑ i, ∑ j, c i * c j * k (z i) (z j)

/-- The training data fits together: at least one row, all rows of the same length `d ≥ 1`, a target for each. -/
structure TrainingData (d : Nat) (X : List (List ℝ)) (y : List ℝ) : Prop where
  rows : X ≠ []
  width : ∀ r ∈ X, r.length = d
  columns : 1 ≤ d
  targets : y.length = X.length

/-- arithmetic mean -/
noncomputable def targetMean (y : List ℝ) : ℝ := y.sum / y.length

/-- the sum of the squared distances of the numbers from `m` -/
noncomputable def squares (m : ℝ) (y : List ℝ) : ℝ := (y.map fun v => (v - m) ^ 2).sum

/-- standard deviation of the targets (1 if they are all equal) -/
noncomputable def spread (y : List ℝ) : ℝ := open Classical in
  if ∀ v ∈ y, ∀ w ∈ y, v = w then 1 else √(squares (targetMean y) y / y.length)

end PyPDP.Spec
