/-
Model of the averages of pdp.py, and of the loss and the PDP of a region (partitioner/__init__.py), with rounded arithmetic: `fl` is
applied to the exact result of every single subtraction, multiplication and division, `sum` is the summation of numpy (which chooses
the order of the additions: row by row, or pairwise in blocks, depending on shape and memory layout).
-/
import Verif.Model.Partitioner

namespace PyPDP
variable {K : Type} [Field K]

/-- one entry of `np.mean(a, axis=0)`: the sum of the column, divided by the number of rows -/
def meanF (fl : K → K) (sum : List K → K) (l : List K) : K := fl (sum l / (l.length : K))

/-- `np.mean(a, axis=0)` for an array of shape `(n, P)` (pdp.py:63 and 67, partitioner/__init__.py:57, 85, 91 and 105-106) -/
def meanRowsF (fl : K → K) (sum : List K → K) (a : List (List K)) : Py (List K) :=
  if a.length = 0 then .error .nan
  else .ok ((List.range (a.headD []).length).map fun c => meanF fl sum (a.map fun row => row.getD c 0))

/-- `np.mean(a, axis=0)` for an array of shape `(n, P, F)` (pdp.py:59, partitioner/__init__.py:104) -/
def meanAxis0F (fl : K → K) (sum : List K → K) (a : List (List (List K))) : Py (List (List K)) :=
  match a with
  | [] => .error .nan
  | m :: _ => .ok ((List.range m.length).map fun p =>
      (List.range (m.getD p []).length).map fun f => meanF fl sum (a.map fun q => entry q p f))

/-- partitioner/__init__.py:54-60 `loss` -/
def regionLossF (fl : K → K) (sum : List K → K) (v : List (List K)) : K :=
  match meanRowsF fl sum v with
  | .ok m => sum (v.flatMap fun row => List.zipWith (fun a b => fl (fl (a - b) ^ 2)) row m)
  | .error _ => 0

end PyPDP
