/-
Specification vocabulary for C194: the tree of a continuum of grid points whose splits are better than all others by a margin.
-/
import Verif.Spec.GridLimit

namespace PyPDP.Spec

variable (k : Nat) (v : List ℝ → List ℝ → ℝ)

/-- The tree of a continuum of grid points in which every best split is better, by at least `δ`, than all splits that divide the samples in another way. -/
inductive GapTree (δ : ℝ) (space possible : List (Hp ℝ)) (N minPoints : Nat) (maxDepth : Int) :
    List (List ℝ) → List (Cond ℝ) → Nat → List (List (List ℝ) × List (Cond ℝ)) → Prop
  | leaf {S conds} {d : Nat} : (maxDepth ≤ d ∨ ∀ i j hp f, ¬ IsRowCandidate space possible N minPoints S i j hp f) →
      GapTree δ space possible N minPoints maxDepth S conds d [(S, conds)]
  | branch {S conds} {d : Nat} {i j : Nat} {hp : Hp ℝ} {f : Nat} {Ll Lr} : d < maxDepth → IsRowCandidate space possible N minPoints S i j hp f →
      (∀ i' j' hp' f', IsRowCandidate space possible N minPoints S i' j' hp' f' → cubeCost k v N S f j + δ ≤ cubeCost k v N S f' j' ∨
        (∀ r ∈ S, r.getD f' 0 ≤ threshold N j' ↔ r.getD f 0 ≤ threshold N j) ∧ (i < i' ∨ i = i' ∧ j ≤ j')) →
      GapTree δ space possible N minPoints maxDepth (rowsBelow S f (threshold N j)) (conds ++ [⟨hp, .flt (threshold N j), some true⟩]) (d + 1) Ll →
      GapTree δ space possible N minPoints maxDepth (rowsAbove S f (threshold N j)) (conds ++ [⟨hp, .flt (threshold N j), some false⟩]) (d + 1) Lr →
      GapTree δ space possible N minPoints maxDepth S conds d (Lr ++ Ll)

end PyPDP.Spec
