/-
Model of pyPDP/algorithms/pdp.py (plotting: Model/Plotting).

The `ICE` object of a PDP made with `from_ICE` is shared with its creator: what the creator does with it is an operation on the
same state (`PdpOp.onIce`).
-/
import Verif.Model.Ice

namespace PyPDP
variable {K : Type}

/-- A `PDP` object: its own attributes, the referenced ICE object (if any), the three cached properties. -/
structure PdpState (K : Type) where
  cfg : IceCfg K
  ice : Option (IceState K)
  x : Option (List (List K))
  y : Option (List K)
  v : Option (List K)

/-- pdp.py:14-27 `PDP.__init__` -/
def pdpInit (space : ConfigSpace K) (predict : Predict K) (sel : Selection K) (samples : List (List K)) (perAxis : Nat) :
    Py (PdpState K) := do
  let c ← algorithmInit space predict sel samples perAxis
  return ⟨c, none, none, none, none⟩

/-- pdp.py:45-55 `from_ICE` (`selected_hyperparameter` is a list of hyperparameter objects). `space` and `predict` are those of the
surrogate model of the ICE object. -/
def pdpFromIce (ice : IceState K) : Py (PdpState K) := do
  let s ← pdpInit ice.cfg.space ice.cfg.predict (.many (ice.cfg.selected.map .hp)) ice.cfg.samples ice.cfg.perAxis
  return { s with ice := some ice }

/-- pdp.py:29-39 `ice` -/
def pdpIce (s : PdpState K) : Py (IceState K) :=
  match s.ice with
  | some i => .ok i
  | none => (algorithmInit s.cfg.space s.cfg.predict (.many (s.cfg.selected.map .hp)) s.cfg.samples s.cfg.perAxis).map iceInit

/-- `np.mean(a, axis=0)` for an array of shape `(n, P, F)`; nan for `n = 0`. -/
def meanAxis0 [Field K] (a : List (List (List K))) : Py (List (List K)) :=
  match a with
  | [] => .error .nan
  | m :: _ => .ok ((List.range m.length).map fun p =>
      (List.range (m.getD p []).length).map fun f => (a.map fun q => entry q p f).sum / (a.length : K))

/-- `np.mean(a, axis=0)` for an array of shape `(n, P)`; nan for `n = 0`. -/
def meanRows [Field K] (a : List (List K)) : Py (List K) :=
  mean0 (a.headD []).length a

/-- a cached property whose value comes from the ICE object: `read` is the read of the ICE object, `avg` the mean. -/
def pdpCached {α β : Type} (s : PdpState K) (cached : Option β) (read : IceState K → IceState K × Py α) (avg : α → Py β)
    (store : PdpState K → β → PdpState K) : PdpState K × Py β :=
  match cached with
  | some b => (s, .ok b)
  | none =>
    match pdpIce s with
    | .error e => (s, .error e)
    | .ok i =>
      match read i with
      | (i', .error e) => ({ s with ice := some i' }, .error e)
      | (i', .ok a) =>
        match avg a with
        | .error e => ({ s with ice := some i' }, .error e)
        | .ok b => (store { s with ice := some i' } b, .ok b)

/-- pdp.py:57-59 `x_pdp` -/
def pdpReadX [Field K] (s : PdpState K) : PdpState K × Py (List (List K)) :=
  pdpCached s s.x readX meanAxis0 fun s b => { s with x := some b }

/-- pdp.py:61-63 `y_pdp` -/
def pdpReadY [Field K] (s : PdpState K) : PdpState K × Py (List K) :=
  pdpCached s s.y readY meanRows fun s b => { s with y := some b }

/-- pdp.py:65-67 `y_variances` -/
def pdpReadV [Field K] (s : PdpState K) : PdpState K × Py (List K) :=
  pdpCached s s.v readV meanRows fun s b => { s with v := some b }

/-- pdp.py:41-43 `grid_points` -/
def pdpGrid [Field K] (s : PdpState K) : PdpState K × Py (List (List K)) :=
  match pdpIce s with
  | .error e => (s, .error e)
  | .ok i =>
    match readGrid i with
    | (i', r) => ({ s with ice := some i' }, r)

/-- pdp.py:69-78 `as_ice_curve` (itself cached in the code: the three parts are cached anyway) -/
def pdpCurve [Field K] (s : PdpState K) : PdpState K × Py (IceCurve K) :=
  match pdpReadX s with
  | (s1, .error e) => (s1, .error e)
  | (s1, .ok x) =>
    match pdpReadY s1 with
    | (s2, .error e) => (s2, .error e)
    | (s2, .ok y) =>
      match pdpReadV s2 with
      | (s3, .error e) => (s3, .error e)
      | (s3, .ok v) => (s3, .ok ⟨s.cfg.space, s.cfg.selected, x, y, v⟩)

/-- What can happen to a PDP object and to the ICE object it refers to. -/
inductive PdpOp (K : Type)
  | readX | readY | readV | readGrid
  | onIce (op : IceOp K)

def pdpStep [Field K] (s : PdpState K) : PdpOp K → PdpState K
  | .readX => (pdpReadX s).1
  | .readY => (pdpReadY s).1
  | .readV => (pdpReadV s).1
  | .readGrid => (pdpGrid s).1
  | .onIce op =>
    match pdpIce s with
    | .error _ => s
    | .ok i => { s with ice := some (iceStep i op) }

def pdpRun [Field K] (s : PdpState K) (ops : List (PdpOp K)) : PdpState K := ops.foldl pdpStep s

end PyPDP
