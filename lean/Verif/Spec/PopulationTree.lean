/-
Specification vocabulary for C186: the tree of a distribution.
-/
import Verif.Spec.Recovery
import Mathlib.MeasureTheory.Integral.Bochner.Set

namespace PyPDP.Spec
open MeasureTheory

/-- the vectors whose rows pass the test -/
def passing {F : Nat} (A : List ℝ → Bool) : Set (Fin F → ℝ) := {x | A (List.ofFn x) = true}

/-- the rows that pass the test and lie at or below a threshold of feature `f`, and those that lie above it -/
noncomputable def testBelow (A : List ℝ → Bool) (f : Nat) (t : ℝ) : List ℝ → Bool := fun r => A r && decide (r.getD f 0 ≤ t)
noncomputable def testAbove (A : List ℝ → Bool) (f : Nat) (t : ℝ) : List ℝ → Bool := fun r => A r && decide (t < r.getD f 0)

variable {F : Nat} (μ : Measure (Fin F → ℝ)) (grid : List (List ℝ)) (v : List ℝ → List ℝ → ℝ)

/-- The loss of a region under the distribution `μ`: summed over the grid points `t`, the squared deviations of the variances `v t` from their mean in the region,
integrated over the region. -/
noncomputable def populationLoss (A : List ℝ → Bool) : ℝ :=
  (grid.map fun t => ∫ x in passing A, (v t (List.ofFn x) - (∫ x in passing A, v t (List.ofFn x) ∂μ) / μ.real (passing (F := F) A)) ^ 2 ∂μ).sum

/-- summed loss of the two parts -/
noncomputable def populationCost (N : Nat) (A : List ℝ → Bool) (f j : Nat) : ℝ :=
  populationLoss μ grid v (testBelow A f (threshold N j)) + populationLoss μ grid v (testAbove A f (threshold N j))

/-- A split of a region both parts of which have positive probability. -/
structure IsPopulationCandidate (space possible : List (Hp ℝ)) (N : Nat) (A : List ℝ → Bool) (i j : Nat) (hp : Hp ℝ) (f : Nat) : Prop where
  hp_at : possible[i]? = some hp
  feature : IsFeature space hp f
  one_le : 1 ≤ j
  le : j ≤ N
  left_pos : 0 < μ.real (passing (F := F) (testBelow A f (threshold N j)))
  right_pos : 0 < μ.real (passing (F := F) (testAbove A f (threshold N j)))

/-- The best split of a region: every other one costs more, or is almost surely the same split of the region and comes later. -/
structure IsPopulationBest (space possible : List (Hp ℝ)) (N : Nat) (A : List ℝ → Bool) (i j : Nat) (hp : Hp ℝ) (f : Nat) : Prop where
  cand : IsPopulationCandidate μ space possible N A i j hp f
  best : ∀ i' j' hp' f', IsPopulationCandidate μ space possible N A i' j' hp' f' →
    populationCost μ grid v N A f j < populationCost μ grid v N A f' j' ∨
      μ {x | A (List.ofFn x) = true ∧ ¬ ((List.ofFn x).getD f' 0 ≤ threshold N j' ↔ (List.ofFn x).getD f 0 ≤ threshold N j)} = 0 ∧ (i < i' ∨ i = i' ∧ j ≤ j')

/-- The tree of a distribution below a region with the test `A`, the conditions `conds` and the depth `k`: tests and conditions of its leaves, the upper part of
every split before the lower one. -/
inductive PopulationTree (space possible : List (Hp ℝ)) (N : Nat) (maxDepth : Int) :
    (List ℝ → Bool) → List (Cond ℝ) → Nat → List ((List ℝ → Bool) × List (Cond ℝ)) → Prop
  | leaf {A conds} {k : Nat} : (maxDepth ≤ k ∨ ∀ i j hp f, ¬ IsPopulationCandidate μ space possible N A i j hp f) →
      PopulationTree space possible N maxDepth A conds k [(A, conds)]
  | branch {A conds} {k : Nat} {i j : Nat} {hp : Hp ℝ} {f : Nat} {Ll Lr} : k < maxDepth → IsPopulationBest μ grid v space possible N A i j hp f →
      PopulationTree space possible N maxDepth (testBelow A f (threshold N j)) (conds ++ [⟨hp, .flt (threshold N j), some true⟩]) (k + 1) Ll →
      PopulationTree space possible N maxDepth (testAbove A f (threshold N j)) (conds ++ [⟨hp, .flt (threshold N j), some false⟩]) (k + 1) Lr →
      PopulationTree space possible N maxDepth A conds k (Lr ++ Ll)

end PyPDP.Spec
