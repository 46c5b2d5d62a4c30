/-
An `ICE` object used as a Python sequence: `ICE` (pyPDP/algorithms/ice.py:156-257) defines `__len__` and `__getitem__` and neither
`__iter__` nor `__contains__`, so `list(ice)`, `for curve in ice` and `curve in ice` call `__getitem__` with 0, 1, 2, ... until an
IndexError is raised. `ICECurve` (ice.py:18-37) is decorated with `@dataclass` but its class body annotates no field, so the generated
`__eq__` compares two empty tuples and `__hash__` is set to None.
-/
import Verif.Model.Partitioner

namespace PyPDP
variable {K : Type}

/-- ice.py:179-180 `__len__` -/
def iceLen (s : IceState K) : Nat := s.cfg.numSamples

/-- Python's iteration over an object with `__getitem__` only, from index `k` on: an IndexError ends it, any other exception leaves it. -/
def iterFrom {σ α : Type} (get : σ → Int → σ × Py α) : Nat → σ → Nat → σ × List α × LoopEnd
  | 0, s, _ => (s, [], .outOfFuel)
  | fuel + 1, s, k =>
    match get s (k : Int) with
    | (s', .error .index) => (s', [], .finished)
    | (s', .error e) => (s', [], .raised e)
    | (s', .ok a) =>
      let (t, as, e) := iterFrom get fuel s' (k + 1)
      (t, a :: as, e)

/-- fuel that is always enough (`C119_iteration`, `C119_errors`) -/
def iterFuel [Field K] (s : IceState K) : Nat :=
  match (readX s).2 with
  | .ok x => x.length + 1
  | .error _ => 1

/-- `list(ice)` -/
def iceList [Field K] (s : IceState K) : IceState K × Py (List (IceCurve K)) :=
  match iterFrom iceGet (iterFuel s) s 0 with
  | (t, as, .finished) => (t, .ok as)
  | (t, _, .raised e) => (t, .error e)
  | (t, _, .outOfFuel) => (t, .error .runtime)

/-- the fields of the dataclass `ICECurve`: the class body (ice.py:18-37) annotates none -/
def curveFields (_ : IceCurve K) : List (Val K) := []

/-- `a == b` for two curves: the `__eq__` generated by `@dataclass` compares the tuples of the fields -/
def curveEq [DecidableEq K] (a b : IceCurve K) : Bool := decide (curveFields a = curveFields b)

/-- `hash(curve)`: `@dataclass` with `__eq__` and without `frozen` sets `__hash__` to None -/
def curveHash (_ : IceCurve K) : Py Int := .error .type

/-- `c in ice`: the iteration above, stopped by the first curve equal to `c` -/
def searchFrom {σ α : Type} (get : σ → Int → σ × Py α) (same : α → Bool) : Nat → σ → Nat → σ × Py Bool
  | 0, s, _ => (s, .error .runtime)
  | fuel + 1, s, k =>
    match get s (k : Int) with
    | (s', .error .index) => (s', .ok false)
    | (s', .error e) => (s', .error e)
    | (s', .ok a) => if same a then (s', .ok true) else searchFrom get same fuel s' (k + 1)

/-- `c in ice` -/
def iceContains [Field K] [DecidableEq K] (s : IceState K) (c : IceCurve K) : IceState K × Py Bool :=
  searchFrom iceGet (fun a => curveEq a c) (iterFuel s) s 0

end PyPDP
