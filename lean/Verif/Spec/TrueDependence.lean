/-
Specification vocabulary for C197: partial dependence of a function and of its predicted uncertainty.
-/
import Verif.Spec.DrawnLine

namespace PyPDP.Spec

/-- the partial dependence of a function: its mean over the samples with column `f` set to `t` -/
noncomputable def dependenceAt (samples : List (List ℝ)) (h : List ℝ → ℝ) (f : Nat) (t : ℝ) : ℝ := meanOver samples fun r => h (r.set f t)

/-- half the width of the confidence band there: the root of the mean of the variances -/
noncomputable def deviationAt (samples : List (List ℝ)) (sd : List ℝ → ℝ) (f : Nat) (t : ℝ) : ℝ := √(meanOver samples fun r => sd (r.set f t) ^ 2)

end PyPDP.Spec
