/-
Specification vocabulary for regions and partitions.
-/
import Verif.Model.Partitioner
import Verif.Spec.Pdp
import Mathlib.Algebra.BigOperators.Group.Finset.Basic

namespace PyPDP.Spec
variable {K : Type}

/-- one ICE curve: its rows of x values, its y values and its variances -/
abbrev Curve (K : Type) := List (List K) × List K × List K

/-- the curves of a region -/
def curves (n : Node K) : List (Curve K) := n.x.zip (n.y.zip n.v)

/-- a region whose arrays have `P ≥ 1` grid points and `F` features -/
structure RegionShape (P F : Nat) (n : Node K) : Prop where
  pos : 1 ≤ P
  xy : n.x.length = n.y.length
  yv : n.y.length = n.v.length
  xs : ∀ m ∈ n.x, m.length = P ∧ ∀ r ∈ m, r.length = F
  ys : ∀ r ∈ n.y, r.length = P
  vs : ∀ r ∈ n.v, r.length = P

/-- the value of feature `f` at the first grid point of a curve -/
def featureOf [Zero K] (f : Nat) (c : Curve K) : K := (c.1.getD 0 []).getD f 0

/-- squared euclidean distance of two curves with `P` points -/
def dist2 [Field K] (P : Nat) (a b : List K) : K := ∑ p ∈ Finset.range P, (a.getD p 0 - b.getD p 0) ^ 2

/-- `(l, r)` are the two parts of region `n` when split at `t` in feature `f` (hyperparameter `hp`): the curves with a value `≤ t`
and those with a value `> t`, in their order, one level deeper, with the condition added. -/
structure IsSplit [Field K] [LinearOrder K] (f : Nat) (hp : Hp K) (t : K) (n l r : Node K) : Prop where
  left_curves : curves l = (curves n).filter fun c => decide (featureOf f c ≤ t)
  right_curves : curves r = (curves n).filter fun c => decide (t < featureOf f c)
  left_depth : l.depth = n.depth + 1
  right_depth : r.depth = n.depth + 1
  left_conds : l.conds = n.conds ++ [⟨hp, .flt t, some true⟩]
  right_conds : r.conds = n.conds ++ [⟨hp, .flt t, some false⟩]

/-- curves with a value `≤ t` in feature `f`, and those with a value `> t` -/
def lowerPart [Field K] [LinearOrder K] (f : Nat) (t : K) (L : List (Curve K)) : List (Curve K) := L.filter fun c => decide (featureOf f c ≤ t)
def upperPart [Field K] [LinearOrder K] (f : Nat) (t : K) (L : List (Curve K)) : List (Curve K) := L.filter fun c => decide (t < featureOf f c)

/-- mean of the variances at grid point `p` -/
def meanVar [Field K] (p : Nat) (L : List (Curve K)) : K := (L.map fun c => c.2.2.getD p 0).sum / (L.length : K)

/-- sum of the squared deviations of the variances from their mean, over `P` grid points -/
def curveLoss [Field K] (P : Nat) (L : List (Curve K)) : K :=
  ∑ p ∈ Finset.range P, (L.map fun c => (c.2.2.getD p 0 - meanVar p L) ^ 2).sum

/-- threshold number `j` of `N` -/
def threshold [Field K] (N j : Nat) : K := (j : K) / ((N : K) + 1)

/-- The split of `L` at threshold number `j` of splittable hyperparameter number `i` (which is `hp`, feature `f`) leaves enough curves
on both sides. -/
structure IsCandidate [Field K] [LinearOrder K] (space possible : List (Hp K)) (N minPoints : Nat) (L : List (Curve K)) (i j : Nat) (hp : Hp K)
    (f : Nat) : Prop where
  hp_at : possible[i]? = some hp
  feature : IsFeature space hp f
  one_le : 1 ≤ j
  le : j ≤ N
  left_size : minPoints ≤ (lowerPart f (threshold N j) L).length
  right_size : minPoints ≤ (upperPart f (threshold N j) L).length

/-- summed loss of the two parts -/
def splitCost [Field K] [LinearOrder K] (P N : Nat) (L : List (Curve K)) (f j : Nat) : K :=
  curveLoss P (lowerPart f (threshold N j) L) + curveLoss P (upperPart f (threshold N j) L)

/-- The best candidate, the first one among equals. -/
def IsBestCandidate [Field K] [LinearOrder K] (space possible : List (Hp K)) (N minPoints P : Nat) (L : List (Curve K)) (i j : Nat) (hp : Hp K)
    (f : Nat) : Prop :=
  IsCandidate space possible N minPoints L i j hp f ∧
  ∀ i' j' hp' f', IsCandidate space possible N minPoints L i' j' hp' f' →
    splitCost P N L f j ≤ splitCost P N L f' j' ∧ (splitCost P N L f j = splitCost P N L f' j' → i < i' ∨ i = i' ∧ j ≤ j')

/-- `leaves` are the leaves of the greedily grown tree below `n`, the right part of every split before the left one. -/
inductive Greedy [Field K] [LinearOrder K] (space possible : List (Hp K)) (N minPoints P : Nat) (maxDepth : Int) :
    Node K → List (Node K) → Prop
  | leaf {n : Node K} : RegionShape P space.length n →
      (maxDepth ≤ n.depth ∨ (curves n).length ≤ 1 ∨ ∀ i j hp f, ¬ IsCandidate space possible N minPoints (curves n) i j hp f) →
      Greedy space possible N minPoints P maxDepth n [n]
  | branch {n l r : Node K} {Ll Lr : List (Node K)} {i j : Nat} {hp : Hp K} {f : Nat} : RegionShape P space.length n →
      n.depth < maxDepth → 2 ≤ (curves n).length → IsBestCandidate space possible N minPoints P (curves n) i j hp f →
      IsSplit f hp (threshold N j) n l r → Greedy space possible N minPoints P maxDepth l Ll →
      Greedy space possible N minPoints P maxDepth r Lr → Greedy space possible N minPoints P maxDepth n (Lr ++ Ll)

/-- A partitioner as the constructor leaves it (`leaves` may already be filled): the root region holds all curves and has no condition,
only hyperparameters of the space are split. -/
structure ValidDT (P : Nat) (p : DT K) : Prop where
  wf : p.cfg.space.WF
  possible_mem : ∀ hp ∈ p.possible, hp ∈ p.cfg.space
  shape : RegionShape P p.cfg.space.length p.root
  depth : p.root.depth = 0
  conds : p.root.conds = []

end PyPDP.Spec
