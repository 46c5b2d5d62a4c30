/-
Vocabulary for C175: standardised rows, and the error of linear predictors under a kernel.
-/
import Verif.Spec.Gp

namespace PyPDP.Spec

/-- a row in units of the standard deviations of the columns of `X`, relative to their means -/
noncomputable def standardised (d : Nat) (X : List (List ℝ)) (r : List ℝ) : List ℝ :=
  (List.range d).map fun j => (r.getD j 0 - targetMean (X.map fun q => q.getD j 0)) / spread (X.map fun q => q.getD j 0)

/-- the kernel that is chosen for the standardised data -/
noncomputable def chosenKernel (choose : List (List ℝ) → List ℝ → Kernel) (d : Nat) (X : List (List ℝ)) (y : List ℝ) : Kernel :=
  choose (X.map (standardised d X)) (y.map fun v => (v - targetMean y) / spread y)

/-- The mean squared error of predicting a random function at `z` by `∑ i, w i * (its value at Z i, measured with an error of variance 1e-8)`, if `k` is the
covariance of the function (with mean 0) and the errors are independent of it and of each other. -/
noncomputable def linearError (k : Kernel) (Z : List (List ℝ)) (z : List ℝ) (w : ℕ → ℝ) : ℝ :=
  k z z - 2 * ∑ i ∈ Finset.range Z.length, w i * k z (Z.getD i [])
    + ∑ i ∈ Finset.range Z.length, ∑ j ∈ Finset.range Z.length, w i * w j * k (Z.getD i []) (Z.getD j [])
    + 1 / 10 ^ 8 * ∑ i ∈ Finset.range Z.length, w i ^ 2

/-- euclidean distance of two rows -/
noncomputable def rowDistance (a b : List ℝ) : ℝ := √((List.zipWith (fun x y => (x - y) ^ 2) a b).sum)

end PyPDP.Spec
