/-
The machine arithmetic of doubles: `Model/Machine.lean` with the exact result of every single operation rounded by `fl`, with the
computed logarithm and exponential, and with the summation `sum` of numpy. There is no overflow and no nan.
-/
import Verif.Model.Machine
import Verif.Model.Rounding
import Verif.Model.RoundedRanges
import Verif.Model.RoundedImplied

namespace PyPDP

/-- float64 -/
@[reducible] noncomputable def roundedMachine (c : ComputedExp) (sum : List ℝ → ℝ) : Machine ℝ where
  le a b := decide (a ≤ b)
  lt a b := decide (a < b)
  belowInf _ := true
  ofInt i := (i : ℝ)
  add a b := c.fl (a + b)
  sub a b := c.fl (a - b)
  mul a b := c.fl (a * b)
  div a b := c.fl (a / b)
  log := c.log
  exp a := .ok (c.exp a)
  loss := regionLossF c.fl sum
  splitVals n := ((linspaceF c.fl 0 1 (n + 2)).drop 1).dropLast

end PyPDP
