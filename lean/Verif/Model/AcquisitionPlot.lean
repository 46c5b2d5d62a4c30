/-
Model of `AcquisitionFunction.plot` (pyPDP/sampler/acquisition_function.py 61-103).

`value` is the acquisition function at a configuration (eiValue, piValue, lcbValue of Model/Acquisition for the surrogate's prediction
there), `rng` the random state of its config space. Not modelled: legends, the marker, a surrogate that raises.
-/
import Verif.Model.Plots

namespace PyPDP
variable {K S : Type}

/-- acquisition_function.py:73: iterating over a bare configuration gives its keys, and `"name".copy()` in `convert_configs` is an
AttributeError -/
def acqConfigs {C : Type} : Draws C → Py (List C)
  | .one _ => .error .attribute
  | .many l => .ok l

/-- `config[name]` -/
def configValue (c : Config K) (name : String) : Py (Val K) :=
  match c.get? name with
  | none => .error .key
  | some v => .ok v

/-- `list(optimum.values())[0]` -/
def firstValue : Picked (Config K) → Py K
  | .name _ => .error .attribute
  | .config c =>
    match c.values with
    | [] => .error .index
    | (_, v) :: _ => asNumber v

/-- `self(optimum)` -/
def valueAt (value : Config K → K) : Picked (Config K) → Py K
  | .name _ => .error .attribute
  | .config c => .ok (value c)

/-- acquisition_function.py:89-97 -/
def drawOptimum (color : String) (value : Config K → K) (opt : Picked (Config K)) : Plot K Unit := do
  let x ← Plot.lift (firstValue opt)
  let y ← Plot.lift (valueAt value opt)
  drawPoints color [x] [y]

/-- acquisition_function.py:79-103; `argsort` is `np.argsort` -/
def drawAcquisition [Field K] [LinearOrder K] (argsort : List K → List Nat) (colorAcq colorOpt : String) (showOptimum : Bool)
    (cs : ConfigSpace K) (value : Config K → K) (rows : List (List (Val K))) (ys : List K) (opt : Picked (Config K)) :
    List (Hp K) → Plot K Unit
  | [_] => do
    let x ← Plot.lift (numberColumn 0 rows)
    let xo ← Plot.lift (takeOrder (argsort x) x)
    let yo ← Plot.lift (takeOrder (argsort x) ys)
    drawBand colorAcq (3 / 10) xo yo (yo.map fun _ => 0)
    plotLine colorAcq xo yo
    if showOptimum then drawOptimum colorOpt value opt else pure ()
  | [p, q] => do
    let _ ← Plot.lift (getSelectedIdx [p, q] cs)
    Plot.raise .notImplemented
  | _ => Plot.raise .notImplemented

/-- acquisition_function.py:61-103 `AcquisitionFunction.plot` -/
def acqPlot [Field K] [LinearOrder K] (argsort : List K → List Nat) (colorAcq colorOpt : String) (showOptimum : Bool)
    (cs : ConfigSpace K) (d : Drawer (Config K) S) (n : Int) (value : Config K → K) (sel : Selection K) (rng : S) (ax : Ax K) :
    S × Ax K × Py Unit :=
  match getHyperparameters sel cs with
  | .error e => (rng, ax, .error e)
  | .ok hps =>
    match checkAndSetAxis hps true "Acquisition" ax with
    | (ax1, .error e) => (rng, ax1, .error e)
    | (ax1, .ok _) =>
      let (draws, rng1) := d.sampleConfiguration rng (n * hps.length)
      match acqConfigs draws with
      | .error e => (rng1, ax1, .error e)
      | .ok configs =>
        match configs.mapM fun c => hps.mapM fun hp => configValue c hp.name with
        | .error e => (rng1, ax1, .error e)
        | .ok rows =>
          match getOptimum (cs.map Hp.name) d n value rng1 with
          | (rng2, .error e) => (rng2, ax1, .error e)
          | (rng2, .ok opt) =>
            let (ax2, r) := drawAcquisition argsort colorAcq colorOpt showOptimum cs value rows (configs.map value) opt hps ax1
            (rng2, ax2, r)

end PyPDP
