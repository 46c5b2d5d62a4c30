/-
Specification of the (clipped, unbiased) maximum mean discrepancy, for C33.
-/
import Verif.Spec.Median

namespace PyPDP.Spec

/-- Gaussian kernel with length scale `l`. -/
noncomputable def rbfKernel (d : Nat) (l : ℝ) (a b : List ℝ) : ℝ := Real.exp (-(euclid d a b) ^ 2 / (2 * l ^ 2))

/-- mean of `k (x_i, x_j)` over the `n (n - 1)` ordered pairs `i ≠ j` of positions of `X` -/
noncomputable def meanWithin (k : List ℝ → List ℝ → ℝ) (X : List (List ℝ)) : ℝ :=
  (∑ i ∈ Finset.range X.length, ∑ j ∈ (Finset.range X.length).erase i, k (X.getD i []) (X.getD j [])) /
    (X.length * (X.length - 1))

/-- mean of `k (x, y)` over all `x` of `X` and `y` of `Y` -/
noncomputable def meanCross (k : List ℝ → List ℝ → ℝ) (X Y : List (List ℝ)) : ℝ :=
  (∑ i ∈ Finset.range X.length, ∑ j ∈ Finset.range Y.length, k (X.getD i []) (Y.getD j [])) / (X.length * Y.length)

/-- unbiased estimate of the squared discrepancy -/
noncomputable def mmdSquared (k : List ℝ → List ℝ → ℝ) (X Y : List (List ℝ)) : ℝ :=
  meanWithin k X + meanWithin k Y - 2 * meanCross k X Y

end PyPDP.Spec
