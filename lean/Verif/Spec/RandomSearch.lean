/-
Vocabulary for C170: a random sampler whose configurations are drawn independently from one distribution.
-/
import Mathlib.Probability.Independence.Basic
import Verif.Spec.Sampler

namespace PyPDP.Spec
open MeasureTheory ProbabilityTheory

/-- A config space that draws the configurations `x 0`, `x 1`, … one after the other; its state is the number of those already drawn. -/
def streamDrawer {C : Type} (x : ℕ → C) : Drawer C Nat where
  draw s n := ((List.range n).map fun i => x (s + i), s + n)
  draw_length s n := by simp

/-- The configurations are drawn independently from one distribution. -/
structure IsIid {Ω C : Type} [MeasurableSpace Ω] [MeasurableSpace C] (P : Measure Ω) (X : ℕ → Ω → C) : Prop where
  measurable : ∀ i, Measurable (X i)
  indep : iIndepFun X P
  same : ∀ i, P.map (X i) = P.map (X 0)

end PyPDP.Spec
