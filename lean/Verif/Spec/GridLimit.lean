/-
Specification vocabulary for C193: the tree for a continuum of grid points.
-/
import Verif.Spec.Recovery
import Verif.Spec.Workflow
import Verif.Spec.Likelihood
import Mathlib.MeasureTheory.Integral.Bochner.Set
import Mathlib.MeasureTheory.Constructions.Pi
import Mathlib.MeasureTheory.Measure.Lebesgue.Basic

namespace PyPDP.Spec
open MeasureTheory

/-- the uniform distribution on the unit cube -/
noncomputable def unitCube (k : Nat) : Measure (Fin k → ℝ) := Measure.pi fun _ => volume.restrict (Set.Icc (0 : ℝ) 1)

/-- the samples at or below a threshold of feature `f`, and those above it -/
noncomputable def rowsBelow (S : List (List ℝ)) (f : Nat) (t : ℝ) : List (List ℝ) := S.filter fun r => decide (r.getD f 0 ≤ t)
noncomputable def rowsAbove (S : List (List ℝ)) (f : Nat) (t : ℝ) : List (List ℝ) := S.filter fun r => decide (t < r.getD f 0)

variable (k : Nat) (v : List ℝ → List ℝ → ℝ)

/-- The loss of a set of samples, averaged over all values of the selected hyperparameters: the squared deviations of the variances `v t` from their mean. -/
noncomputable def cubeLoss (S : List (List ℝ)) : ℝ :=
  ∫ t, (S.map fun r => (v (List.ofFn t) r - (S.map fun r => v (List.ofFn t) r).sum / S.length) ^ 2).sum ∂(unitCube k)

/-- summed loss of the two parts -/
noncomputable def cubeCost (N : Nat) (S : List (List ℝ)) (f j : Nat) : ℝ :=
  cubeLoss k v (rowsBelow S f (threshold N j)) + cubeLoss k v (rowsAbove S f (threshold N j))

/-- A split of a set of samples with enough samples on both sides. -/
structure IsRowCandidate (space possible : List (Hp ℝ)) (N minPoints : Nat) (S : List (List ℝ)) (i j : Nat) (hp : Hp ℝ) (f : Nat) : Prop where
  hp_at : possible[i]? = some hp
  feature : IsFeature space hp f
  one_le : 1 ≤ j
  le : j ≤ N
  left_size : minPoints ≤ (rowsBelow S f (threshold N j)).length
  right_size : minPoints ≤ (rowsAbove S f (threshold N j)).length

/-- The best split: every other one costs more, or divides the samples in the same way and comes later. -/
structure IsCubeBest (space possible : List (Hp ℝ)) (N minPoints : Nat) (S : List (List ℝ)) (i j : Nat) (hp : Hp ℝ) (f : Nat) : Prop where
  cand : IsRowCandidate space possible N minPoints S i j hp f
  best : ∀ i' j' hp' f', IsRowCandidate space possible N minPoints S i' j' hp' f' → cubeCost k v N S f j < cubeCost k v N S f' j' ∨
    (∀ r ∈ S, r.getD f' 0 ≤ threshold N j' ↔ r.getD f 0 ≤ threshold N j) ∧ (i < i' ∨ i = i' ∧ j ≤ j')

/-- The tree of a continuum of grid points below a region with the samples `S`, the conditions `conds` and the depth `d`: samples and conditions of its leaves, the
upper part of every split before the lower one. -/
inductive CubeTree (space possible : List (Hp ℝ)) (N minPoints : Nat) (maxDepth : Int) :
    List (List ℝ) → List (Cond ℝ) → Nat → List (List (List ℝ) × List (Cond ℝ)) → Prop
  | leaf {S conds} {d : Nat} : (maxDepth ≤ d ∨ ∀ i j hp f, ¬ IsRowCandidate space possible N minPoints S i j hp f) →
      CubeTree space possible N minPoints maxDepth S conds d [(S, conds)]
  | branch {S conds} {d : Nat} {i j : Nat} {hp : Hp ℝ} {f : Nat} {Ll Lr} : d < maxDepth → IsCubeBest k v space possible N minPoints S i j hp f →
      CubeTree space possible N minPoints maxDepth (rowsBelow S f (threshold N j)) (conds ++ [⟨hp, .flt (threshold N j), some true⟩]) (d + 1) Ll →
      CubeTree space possible N minPoints maxDepth (rowsAbove S f (threshold N j)) (conds ++ [⟨hp, .flt (threshold N j), some false⟩]) (d + 1) Lr →
      CubeTree space possible N minPoints maxDepth S conds d (Lr ++ Ll)

/-- The true values of `negative_log_likelihood`: the exact partial dependence of `fn`, as a function of the normalised value of the first selected hyperparameter. -/
structure CubeTruth (inv : Hp ℝ → Val ℝ → ℝ) (space : ConfigSpace ℝ) (selected : List (Hp ℝ)) (fn : TrueFn) (truth : ℝ → ℝ) : Prop where
  intro ::
  out : ∃ (hp : Hp ℝ) (rest : List (Hp ℝ)) (l u : ℝ) (log : Bool) (pd : BlackboxFn ℝ), selected = hp :: rest ∧ Declares space hp.name l u log ∧
    fn.pdIntegral ((fn.space.filter fun h => decide (∀ s ∈ selected, s.name ≠ h.name)).map .hp) = .ok pd ∧
    ∀ t ∈ Set.Icc (0 : ℝ) 1, pd.call inv [(hp.name, .num (interpolate l u log t))] = .ok (truth t)

/-- The Gaussian log loss of the means and mean variances of a set of samples, averaged over all values of the selected hyperparameters. -/
noncomputable def cubeNll (k : Nat) (mu v : List ℝ → List ℝ → ℝ) (truth : ℝ → ℝ) (S : List (List ℝ)) : ℝ :=
  ∫ t, (Real.log (2 * Real.pi * averageOver S fun r => v (List.ofFn t) r) +
    (truth ((List.ofFn t).getD 0 0) - averageOver S fun r => mu (List.ofFn t) r) ^ 2 / averageOver S fun r => v (List.ofFn t) r) / 2 ∂(unitCube k)

end PyPDP.Spec
