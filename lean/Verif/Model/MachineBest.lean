/-
The choices of a best element over machine numbers (Model/Machine), where a value may be nan: the sampler's incumbent (`np.argmin`,
`np.argmax`) and the builtin `max` / `min` of `get_optimum` and `get_incumbent`.
-/
import Verif.Model.Machine
import Verif.Model.Acquisition

namespace PyPDP
variable {F : Type} [Machine F]

/-- The loop of numpy's `argmin` (`minimize`) and `argmax` on floats: it stops at the first nan, and moves on to `v` unless the best value so
far is at least as good. -/
def argBestFromM (minimize : Bool) : Nat → F → Nat → List F → Nat
  | bi, _, _, [] => bi
  | bi, bv, i, v :: vs =>
    if machineNan bv then bi
    else if (if minimize then Machine.le bv v else Machine.le v bv) then argBestFromM minimize bi bv (i + 1) vs
    else argBestFromM minimize i v (i + 1) vs

/-- sampler/__init__.py:77-80 -/
def bestIndexM (minimize : Bool) : List F → Py Nat
  | [] => .error .value
  | v :: vs => .ok (argBestFromM minimize 0 v 1 vs)

/-- sampler/__init__.py:74-84 `incumbent`; the value `none` is `float("inf")`. -/
def incumbentM {C X : Type} (minimize : Bool) (s : SamplerState C F X) : Py (Option C × Option F) :=
  if s.ys.length = 0 then .ok (none, none)
  else do
    let i ← bestIndexM minimize s.ys
    let c ← pyGet s.configs i
    let v ← pyGet s.ys i
    return (some c, some v)

/-- builtin `max` (`min` if `minimize`) with a key: an element replaces the best one if it is strictly better. -/
def pyBestByM {α : Type} (minimize : Bool) (key : α → F) : List α → Py α
  | [] => .error .value
  | a :: as => .ok (as.foldl (fun best x =>
      if (if minimize then Machine.lt (key x) (key best) else Machine.lt (key best) (key x)) then x else best) a)

/-- acquisition_function.py:40-42 -/
def pickMaxM {C : Type} (names : List String) (value : C → F) : Draws C → Py (Picked C × F)
  | .one c => pyBestByM false (·.2) ((names.zip [value c]).map fun p => (Picked.name p.1, p.2))
  | .many l => pyBestByM false (·.2) (l.map fun c => (Picked.config c, value c))

/-- acquisition_function.py:34-42 `get_optimum` -/
def getOptimumM {C S : Type} (names : List String) (d : Drawer C S) (nCandidates : Int) (value : C → F) (rng : S) : S × Py (Picked C) :=
  let (draws, r) := d.sampleConfiguration rng nCandidates
  (r, (pickMaxM names value draws).map (·.1))

/-- surrogate_models/__init__.py:92-98: the end of `get_incumbent`, given the drawn configurations and their predicted means -/
def pickIncumbentM {C : Type} (minimize : Bool) (configs : List C) (values : List F) : Py (C × F) :=
  pyBestByM minimize (·.2) (configs.zip values)

end PyPDP
