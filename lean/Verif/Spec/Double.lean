/-
Floating-point numbers with 53 significant bits and their rounding (IEEE 754 binary64 without the bounds on the exponent).
-/
import Mathlib.Analysis.SpecialFunctions.Pow.Real

namespace PyPDP.Spec

/-- a number with at most 53 significant bits -/
def IsDouble (r : ℝ) : Prop := ∃ m e : ℤ, |m| ≤ 2 ^ 53 ∧ r = m * (2 : ℝ) ^ e

/-- `r` is a correctly rounded `x`: no double is nearer (whichever way ties are broken) -/
def Nearest (x r : ℝ) : Prop := IsDouble r ∧ ∀ r', IsDouble r' → |x - r| ≤ |x - r'|

/-- `k` is a possible result of `int(np.ceil(n ** (1 / d)))` (grid_sampler.py:35) with correctly rounded conversion, division and power -/
def DoubleRoot (d n k : Nat) : Prop := ∃ a q x : ℝ, Nearest n a ∧ Nearest (1 / (d : ℝ)) q ∧ Nearest (a ^ q) x ∧ k = ⌈x⌉₊

end PyPDP.Spec
