/-
Python-level basics shared by all model files: exceptions as values, and the numpy / builtin helpers the
code uses (`np.linspace`, boolean masks, `ndarray.reshape`, builtin `min`/`max` with a key, ...).
-/
import Mathlib.Algebra.Order.Field.Basic
import Mathlib.Algebra.BigOperators.Group.List.Basic

namespace PyPDP

/-- Python exception classes raised (explicitly or by the libraries) in the modelled code.
`nan` is not an exception: it marks the places where numpy would go on with nan/inf. -/
inductive PyErr
  | assertion | type | key | value | attribute | index | runtime | notImplemented | zeroDivision
  | nan
  /-- a user supplied callable (the objective function) raised -/
  | user
  deriving DecidableEq, Repr

/-- Result of a Python call without surviving state. -/
abbrev Py (α : Type _) := Except PyErr α

/-- `xs[i]` on a Python sequence with a non-negative index. -/
def pyGet {α : Type _} (xs : List α) (i : Nat) : Py α :=
  match xs[i]? with
  | some a => .ok a
  | none => .error .index

/-- `np.linspace(a, b, num)` : `num` points `a + i * ((b - a) / (num - 1))`, the last one replaced by `b`;
`[a]` for `num = 1`, `[]` for `num = 0`.
(Used in utils/utils.py:175,180, ice.py:236, decision_tree_partitioner.py:284, surrogate_models/__init__.py:113.) -/
def linspace {K : Type _} [Field K] (a b : K) (num : Nat) : List K :=
  (List.range num).map fun i =>
    if i + 1 = num ∧ 1 < num then b else a + (i : K) * ((b - a) / ((num : K) - 1))

/-- boolean-mask indexing `arr[mask]` along the first axis (decision_tree_partitioner.py:135-137). -/
def maskSelect {α : Type _} : List Bool → List α → List α
  | true :: ms, a :: as => a :: maskSelect ms as
  | false :: ms, _ :: as => maskSelect ms as
  | _, _ => []

/-- `arr.reshape((rows, cols))` for a flat array in C order: `ValueError` if the size does not fit. -/
def reshape2 {α : Type _} (rows cols : Nat) (flat : List α) : Py (List (List α)) :=
  if flat.length = rows * cols then
    .ok ((List.range rows).map fun r => (flat.drop (r * cols)).take cols)
  else .error .value

/-- `arr.reshape((a, b, c))` for a flat array in C order. -/
def reshape3 {α : Type _} (a b c : Nat) (flat : List α) : Py (List (List (List α))) :=
  if flat.length = a * b * c then
    .ok ((List.range a).map fun i => (List.range b).map fun j => (flat.drop ((i * b + j) * c)).take c)
  else .error .value

/-- `ndarray.repeat(k)` without axis: every element of the flattened array repeated `k` times. -/
def repeatFlat {α : Type _} (k : Nat) (flat : List α) : List α :=
  flat.flatMap fun a => List.replicate k a

/-- builtin `max(pairs, key=...)`: the first element with a largest key; `ValueError` on an empty sequence. -/
def pyMaxBy {α K : Type _} [LinearOrder K] (key : α → K) : List α → Py α
  | [] => .error .value
  | a :: as => .ok (as.foldl (fun best x => if key best < key x then x else best) a)

/-- builtin `min(pairs, key=...)`: the first element with a smallest key; `ValueError` on an empty sequence. -/
def pyMinBy {α K : Type _} [LinearOrder K] (key : α → K) : List α → Py α
  | [] => .error .value
  | a :: as => .ok (as.foldl (fun best x => if key x < key best then x else best) a)

/-- loop used by `np.argmin`: scans `l` starting at position `i` with current best `(bi, bv)`. -/
def argminFrom {K : Type _} [LinearOrder K] : Nat → K → Nat → List K → Nat
  | bi, _, _, [] => bi
  | bi, bv, i, v :: vs => if v < bv then argminFrom i v (i + 1) vs else argminFrom bi bv (i + 1) vs

/-- `np.argmin(xs)`: index of the first minimum; `ValueError` for an empty list. -/
def argmin {K : Type _} [LinearOrder K] : List K → Py Nat
  | [] => .error .value
  | v :: vs => .ok (argminFrom 0 v 1 vs)

/-- loop used by `np.argmax`. -/
def argmaxFrom {K : Type _} [LinearOrder K] : Nat → K → Nat → List K → Nat
  | bi, _, _, [] => bi
  | bi, bv, i, v :: vs => if bv < v then argmaxFrom i v (i + 1) vs else argmaxFrom bi bv (i + 1) vs

/-- `np.argmax(xs)`: index of the first maximum; `ValueError` for an empty list. -/
def argmax {K : Type _} [LinearOrder K] : List K → Py Nat
  | [] => .error .value
  | v :: vs => .ok (argmaxFrom 0 v 1 vs)

/-- `np.mean` of a one-dimensional array (nan for an empty one). -/
def mean {K : Type _} [Field K] (xs : List K) : Py K :=
  if xs.length = 0 then .error .nan else .ok (xs.sum / (xs.length : K))

/-- Entry `[r, c]` of a rectangular array. Out-of-range never happens in the code (numpy would raise IndexError);
the default value is irrelevant, every theorem about a result mentions the entries of the input. -/
def entry {K : Type _} [Zero K] (a : List (List K)) (r c : Nat) : K := (a.getD r []).getD c 0

/-- `np.mean(a, axis=0)` of an array of shape `(rows, cols)`; numpy yields nan for `rows = 0`. -/
def mean0 {K : Type _} [Field K] (cols : Nat) (a : List (List K)) : Py (List K) :=
  if a.length = 0 then .error .nan
  else .ok ((List.range cols).map fun c => (a.map fun row => row.getD c 0).sum / (a.length : K))

/-- Transcendental functions used by numpy, abstract so that the model can run on `ℚ` in examples that do not
need them; the theorems that do need them are about `ℝ` (see `Lemmas/RealTransc`). -/
class Transc (K : Type _) where
  exp : K → K
  log : K → K

end PyPDP
