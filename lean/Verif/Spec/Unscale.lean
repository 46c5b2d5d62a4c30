/-
Specification vocabulary for C04: what it means that one row of an output array is the row of an input array translated
column by column, and that two arrays have the same shape.
-/
import Verif.Model.Utils

namespace PyPDP.Spec

/-- Row `out` is row `row` translated entry by entry: same length, and entry `i` is related by `R hp` where `hp` is the
`i`-th hyperparameter of the space. -/
def RowOf {ι α K : Type _} (R : Hp K → ι → α → Prop) (cs : ConfigSpace K) (row : List ι) (out : List α) : Prop :=
  out.length = row.length ∧
  ∀ (i : Nat) hp e, cs[i]? = some hp → row[i]? = some e → ∃ w, out[i]? = some w ∧ R hp e w

/-- All rows of an array satisfy `P` together with the corresponding row of another array of the same shape. -/
def ArrRel {ι α : Type _} (P : List ι → List α → Prop) : NdArr ι → NdArr α → Prop
  | .d1 x, .d1 y => P x y
  | .d2 x, .d2 y => List.Forall₂ P x y
  | .d3 x, .d3 y => List.Forall₂ (List.Forall₂ P) x y
  | _, _ => False

/-- Every row of the array satisfies `P`. -/
def AllRows {ι : Type _} (P : List ι → Prop) : NdArr ι → Prop
  | .d1 x => P x
  | .d2 x => ∀ r ∈ x, P r
  | .d3 x => ∀ m ∈ x, ∀ r ∈ m, P r
  | .dn => False

/-- The array has at least one row. -/
def HasRow {ι : Type _} : NdArr ι → Prop
  | .d1 _ => True
  | .d2 x => x ≠ []
  | .d3 x => ∃ m ∈ x, m ≠ []
  | .dn => False

end PyPDP.Spec
