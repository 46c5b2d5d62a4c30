/-
Specification vocabulary for C160: splits that are clearly the best.
-/
import Verif.Spec.Partitioner

namespace PyPDP.Spec
variable {K : Type} [Field K] [LinearOrder K]

/-- The best candidate, by more than `2 δ` per curve and grid point: every other candidate separates the curves in the same way or costs that much more. -/
structure IsClearlyBest (space possible : List (Hp K)) (N minPoints P : Nat) (δ : K) (L : List (Curve K)) (i j : Nat) (hp : Hp K) (f : Nat) : Prop where
  best : IsBestCandidate space possible N minPoints P L i j hp f
  gap : ∀ i' j' hp' f', IsCandidate space possible N minPoints L i' j' hp' f' →
    (∀ c ∈ L, featureOf f' c ≤ threshold N j' ↔ featureOf f c ≤ threshold N j) ∨
      splitCost P N L f j + 2 * (P * L.length * δ) < splitCost P N L f' j'

/-- The greedily grown tree below `n` has the leaves `leaves`, and every split of it was clearly the best. -/
inductive ClearTree (space possible : List (Hp K)) (N minPoints P : Nat) (δ : K) (maxDepth : Int) : Node K → List (Node K) → Prop
  | leaf {n : Node K} : RegionShape P space.length n →
      (maxDepth ≤ n.depth ∨ (curves n).length ≤ 1 ∨ ∀ i j hp f, ¬ IsCandidate space possible N minPoints (curves n) i j hp f) →
      ClearTree space possible N minPoints P δ maxDepth n [n]
  | branch {n l r : Node K} {Ll Lr : List (Node K)} {i j : Nat} {hp : Hp K} {f : Nat} : RegionShape P space.length n →
      n.depth < maxDepth → 2 ≤ (curves n).length → IsClearlyBest space possible N minPoints P δ (curves n) i j hp f →
      IsSplit f hp (threshold N j) n l r → ClearTree space possible N minPoints P δ maxDepth l Ll →
      ClearTree space possible N minPoints P δ maxDepth r Lr → ClearTree space possible N minPoints P δ maxDepth n (Lr ++ Ll)

end PyPDP.Spec
