/-
Vocabulary for C179: functions that a kernel can represent, and their size.
-/
import Verif.Spec.GpError

namespace PyPDP.Spec

/-- the combination `∑ j, a j * k(·, p j)` of the kernel around finitely many centres -/
noncomputable def kernelSum {q : Nat} (k : Kernel) (a : Fin q → ℝ) (p : Fin q → List ℝ) (z : List ℝ) : ℝ := ∑ j, a j * k z (p j)

/-- its size: the norm in the Hilbert space of the kernel -/
noncomputable def kernelNorm {q : Nat} (k : Kernel) (a : Fin q → ℝ) (p : Fin q → List ℝ) : ℝ := √(∑ i, ∑ j, a i * a j * k (p i) (p j))

/-- At the rows in `R`, the objective is the average of the targets plus their standard deviation times such a combination of the standardised row. -/
def Represents (k : Kernel) (d : Nat) (X : List (List ℝ)) (y : List ℝ) {q : Nat} (a : Fin q → ℝ) (p : Fin q → List ℝ) (f : List ℝ → ℝ) (R : Set (List ℝ)) : Prop :=
  (∀ j, (p j).length = d) ∧ ∀ r ∈ R, f r = targetMean y + spread y * kernelSum k a p (standardised d X r)

/-- some combination of the kernel with size at most `B` represents the objective at the rows in `R` -/
def Representable (k : Kernel) (d : Nat) (X : List (List ℝ)) (y : List ℝ) (f : List ℝ → ℝ) (R : Set (List ℝ)) (B : ℝ) : Prop :=
  ∃ (q : Nat) (a : Fin q → ℝ) (p : Fin q → List ℝ), Represents k d X y a p f R ∧ kernelNorm k a p ≤ B

end PyPDP.Spec
