/-
Which arrays of an ICE object, of its curves, and of the regions of a tree share memory with one another and with the arrays of the
surrogate: ice.py:200-232 `_calculate` and ice.py:182-190 `__getitem__`, decision_tree_partitioner.py:127-150 `filter_by_condition`,
with numpy's buffers made explicit. (Model/Ice describes the same calculation by the values only.)

An array is a list of positions in a buffer, in C order, so that reshaping without copying does not change it. Parameter:
`PredictM`, what the surrogate's `predict` does to the memory and which arrays it returns. Not modelled: dtypes (see
Model/Dtypes), the buffers of intermediate results that nobody can reach.
-/
import Verif.Model.Ice

namespace PyPDP
variable {K : Type}

/-- The buffers allocated so far. -/
abbrev Mem (K : Type) := List (List K)

/-- A numpy array: the buffer it lives in, and the position of each entry in C order. -/
structure Arr where
  buf : Nat
  pos : List Nat
  deriving DecidableEq, Repr

def Mem.buffer (m : Mem K) (b : Nat) : List K := m.getD b []

/-- the entries of an array -/
def Mem.read [Zero K] (m : Mem K) (a : Arr) : List K := a.pos.map fun i => (m.buffer a.buf).getD i 0

/-- `a[...] = vals` (also what `a -= ...` does with the new values) -/
def Mem.write (m : Mem K) (a : Arr) (vals : List K) : Mem K := m.set a.buf (assignRow a.pos vals (m.buffer a.buf))

/-- a new array with these entries -/
def Mem.alloc (m : Mem K) (vals : List K) : Mem K × Arr := (m ++ [vals], ⟨m.length, List.range vals.length⟩)

/-- `predict(X)` for an array `X` of shape `(rows, cols)`: the memory afterwards, and the arrays of means and standard deviations. -/
abbrev PredictM (K : Type) := Mem K → Arr → Nat → Nat → Mem K × Py (Arr × Arr)

/-- ice.py:212-213: where entry `[s, p, f]` of `base.reshape((n, F, P)).transpose((0, 2, 1))` lies. -/
def transposedPos (n P F : Nat) : List Nat :=
  (List.range n).flatMap fun s => (List.range P).flatMap fun p => (List.range F).map fun f => (s * F + f) * P + p

/-- `x_ice.reshape(-1, num_features)` (ice.py:217) of the transposed array: numpy merges the first two axes without copying only if
one of the three axes has length one. -/
def flattenRows [Zero K] (m : Mem K) (n P F : Nat) (x : Arr) : Mem K × Arr :=
  if n = 1 ∨ P = 1 ∨ F = 1 then (m, x) else m.alloc (m.read x)

/-- The arrays of an ICE object. -/
structure IceArrs where
  x : Arr
  y : Arr
  v : Arr
  deriving DecidableEq, Repr

/-- ice.py:200-215: the argument of `predict`: memory, `x_ice`, `x_ice.reshape(-1, num_features)`. The samples are the array the
constructor was given (algorithms/__init__.py:24), not a copy. `c.samples` and `c.predict` are not used. -/
def iceArgM [Field K] (c : IceCfg K) (samples : Arr) (grid : List (List K)) (m : Mem K) : Py (Mem K × Arr × Arr) := do
  let idx ← getSelectedIdx c.selected c.space                                       -- 204
  let F := c.space.length
  let base := repeatFlat c.numGrid (m.read samples)                                 -- 211
  let x0 ← reshape3 c.numSamples F c.numGrid base                                   -- 212
  let (m, b) := m.alloc base
  let x : Arr := ⟨b.buf, transposedPos c.numSamples c.numGrid F⟩                    -- 213
  let vals ← assignGrid c.numGrid idx grid (transpose021 F c.numGrid x0)
  let m := m.write x vals.flatten.flatten                                           -- 214
  let (m, arg) := flattenRows m c.numSamples c.numGrid F x                          -- 217
  return (m, x, arg)

/-- ice.py:217-232: what is done with the two arrays that `predict` returned. -/
def iceStoreM [Field K] (c : IceCfg K) (x means stds : Arr) (m : Mem K) : Mem K × Py IceArrs :=
  match reshape2 c.numSamples c.numGrid (m.read means), reshape2 c.numSamples c.numGrid (m.read stds) with
  | .ok rows, .ok s =>
    let (m, v) := m.alloc (s.map fun row => row.map fun t => t ^ 2).flatten         -- 220: a new array
    if c.centered then
      match centerRows c.numGrid rows with                                          -- 224
      | .error e => (m, .error e)
      | .ok y => (m.write means y.flatten, .ok ⟨x, means, v⟩)                       -- 218, 225: in the array of the means
    else (m, .ok ⟨x, means, v⟩)
  | .error e, _ => (m, .error e)
  | _, .error e => (m, .error e)

/-- ice.py:200-232 `_calculate` -/
def iceCalcM [Field K] (c : IceCfg K) (pred : PredictM K) (samples : Arr) (grid : List (List K)) (m : Mem K) : Mem K × Py IceArrs :=
  match iceArgM c samples grid m with
  | .error e => (m, .error e)
  | .ok (m1, x, arg) =>
    match pred m1 arg (c.numSamples * c.numGrid) c.space.length with                -- 217
    | (m2, .error e) => (m2, .error e)
    | (m2, .ok (means, stds)) => iceStoreM c x means stds m2

/-- the `k`-th of the rows of length `w` -/
def Arr.row (a : Arr) (w k : Nat) : Arr := ⟨a.buf, (a.pos.drop (k * w)).take w⟩

/-- ice.py:182-190 `__getitem__`: the arrays of curve `k` are views (`k` non-negative and in range). -/
def curveM (P F : Nat) (a : IceArrs) (k : Nat) : IceArrs := ⟨a.x.row (P * F) k, a.y.row P k, a.v.row P k⟩

/-- decision_tree_partitioner.py:215-224: the root of a tree holds the arrays of the ICE. -/
def rootM (a : IceArrs) : IceArrs := ⟨a.x, a.y, a.v⟩

/-- decision_tree_partitioner.py:135-137: the arrays of a child are copies of the selected rows. -/
def childM [Zero K] (P F : Nat) (mask : List Bool) (a : IceArrs) (m : Mem K) : Mem K × IceArrs :=
  let pick := fun (w : Nat) (r : Arr) => (maskSelect mask ((List.range mask.length).map fun k => m.read (r.row w k))).flatten
  let (m1, x) := m.alloc (pick (P * F) a.x)
  let (m2, y) := m1.alloc (pick P a.y)
  let (m3, v) := m2.alloc (pick P a.v)
  (m3, ⟨x, y, v⟩)

end PyPDP
