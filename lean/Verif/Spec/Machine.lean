/-
What is assumed of machine numbers: their comparisons (IEEE 754 without the sign of zero), nothing else.
-/
import Verif.Model.Machine
import Verif.Spec.Partitioner

namespace PyPDP.Spec
variable {F : Type} [Machine F]

/-- a number, not nan -/
def IsNum (a : F) : Prop := Machine.le a a = true

/-- The laws of comparison: total on numbers, false for nan. -/
structure Comparable (F : Type) [Machine F] : Prop where
  total : ∀ a b : F, IsNum a → IsNum b → Machine.le a b = true ∨ Machine.le b a = true
  trans : ∀ a b c : F, Machine.le a b = true → Machine.le b c = true → Machine.le a c = true
  num_of_le : ∀ a b : F, Machine.le a b = true → IsNum a ∧ IsNum b
  lt_iff : ∀ a b : F, Machine.lt a b = true ↔ IsNum a ∧ IsNum b ∧ Machine.le b a = false
  below_num : ∀ a : F, Machine.belowInf a = true → IsNum a
  below_of_lt : ∀ a b : F, Machine.lt a b = true → Machine.belowInf b = true → Machine.belowInf a = true

/-- the value of feature `f` at the first grid point of a curve -/
def valueAt (f : Nat) (c : Curve F) : Option F := (c.1[0]?).bind (·[f]?)

/-- the curve is on this side of the threshold -/
def onSide (f : Nat) (t : F) (le : Bool) (c : Curve F) : Bool :=
  match valueAt f c with
  | some x => if le then Machine.le x t else Machine.lt t x
  | none => false

/-- Region `m` holds the curves of `n` that are on one side of a threshold, in their order, one level deeper. -/
structure IsSide (f : Nat) (hp : Hp F) (t : F) (le : Bool) (n m : Node F) : Prop where
  curves_eq : curves m = (curves n).filter (onSide f t le)
  depth : m.depth = n.depth + 1
  conds : m.conds = n.conds ++ [⟨hp, .flt t, some le⟩]

/-- `l` and `r` are the two parts of `n` at one of the thresholds `t` of a splittable hyperparameter `hp` (feature `f`), and both have
enough curves. -/
structure Admissible (cs possible : List (Hp F)) (N minPoints P : Nat) (n l r : Node F) (hp : Hp F) (t : F) (f : Nat) : Prop where
  hp_mem : hp ∈ possible
  t_mem : t ∈ Machine.splitVals (F := F) N
  feature : IsFeature cs hp f
  left : IsSide f hp t true n l
  right : IsSide f hp t false n r
  left_shape : RegionShape P cs.length l
  right_shape : RegionShape P cs.length r
  left_size : minPoints ≤ (curves l).length
  right_size : minPoints ≤ (curves r).length

/-- summed loss of the parts -/
def totalLoss (l r : Node F) : F := Machine.add (Machine.loss l.v) (Machine.loss r.v)

end PyPDP.Spec
