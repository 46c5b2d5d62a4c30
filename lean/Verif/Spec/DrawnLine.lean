/-
Specification vocabulary for C195: the points of a drawn line.
-/
import Verif.Spec.Plots

namespace PyPDP.Spec

/-- the horizontal position on the screen of a value, up to the choice of units: a logarithmic axis shows logarithms -/
noncomputable def screenOf (xlog : Bool) (x : ℝ) : ℝ := if xlog then Real.log x else x

/-- The point with the values `x`, `y` is on the line that matplotlib draws through the points `xs`, `ys`: straight pieces, on the screen, from every point to the next.
(The vertical axis is not logarithmic.) -/
def OnLine (xlog : Bool) (xs ys : List ℝ) (x y : ℝ) : Prop :=
  ∃ (i : Nat) (a b c d w : ℝ), xs[i]? = some a ∧ xs[i + 1]? = some b ∧ ys[i]? = some c ∧ ys[i + 1]? = some d ∧ 0 ≤ w ∧ w ≤ 1 ∧
    screenOf xlog x = (1 - w) * screenOf xlog a + w * screenOf xlog b ∧ y = (1 - w) * c + w * d

/-- The line through `xs`, `ys` is within `e` of the function `F` of the normalised hyperparameter with the bounds `l`, `u`, over every value between the bounds. -/
def DrawnNear (xlog : Bool) (l u : ℝ) (log : Bool) (xs ys : List ℝ) (F : ℝ → ℝ) (e : ℝ) : Prop :=
  ∀ t ∈ Set.Icc (0 : ℝ) 1, (∃ y, OnLine xlog xs ys (interpolate l u log t) y) ∧ ∀ y, OnLine xlog xs ys (interpolate l u log t) y → |y - F t| ≤ e

end PyPDP.Spec
