/-
The rule of IEEE 754 for numbers halfway between two doubles.
-/
import Verif.Spec.Double

namespace PyPDP.Spec

/-- Where two doubles are equally near, the one with an even significand is taken (it needs 52 bits only). -/
def TiesToEven (fl : ℝ → ℝ) : Prop :=
  ∀ x r', IsDouble r' → r' ≠ fl x → |x - r'| = |x - fl x| → ∃ m e : ℤ, |m| ≤ 2 ^ 52 ∧ fl x = m * (2 : ℝ) ^ e

end PyPDP.Spec
