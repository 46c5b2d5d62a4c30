/-
Model of `SurrogateModel` (pyPDP/surrogate_models/__init__.py:14-91) and of the conversion and evaluation part of
`AcquisitionFunction` (acquisition_function.py:44-59 and the `__call__` methods).

Parameter: `predict`, the subclass's prediction of means and standard deviations for the rows of an array (for an empty array
scikit-learn raises). `fit` only passes its arguments on (see Model/Bayes for its use). Plotting: Model/Plotting.
-/
import Verif.Model.Acquisition
import Verif.Model.Utils

namespace PyPDP
variable {K : Type}

/-- `predict(X)` of a surrogate: means and standard deviations of the rows. -/
abbrev Predict (K : Type) := List (List K) → Py (List K × List K)

/-- Arguments of `SurrogateModel.__call__`: one configuration, a list of configurations, a two-dimensional array, or a list
whose first element is not a configuration. -/
inductive SurIn (K : Type)
  | config (c : Config K)
  | configs (l : List (Config K))
  | array (X : List (List K))
  | other
  deriving DecidableEq, Repr

/-- What it returns: one number, or a list. -/
inductive SurOut (K : Type)
  | scalar (m : K)
  | list (ms : List K)
  deriving DecidableEq, Repr

/-- surrogate_models/__init__.py:76-81 `predict_config` -/
def predictConfig (predict : Predict K) (c : Config K) : Py (K × K) := do
  let (mean, std) ← predict [c.vector]
  let m ← pyGet mean 0
  let s ← pyGet std 0
  return (m, s)

/-- surrogate_models/__init__.py:62-74 `predict_configs` -/
def predictConfigs (predict : Predict K) (l : List (Config K)) : Py (List K × List K) := predict (configListToArray l)

/-- tuple unpacking `means, stds = arr` of a one-dimensional array: ValueError unless there are exactly two entries. -/
def unpackTwo : List K → Py (K × K)
  | [a, b] => .ok (a, b)
  | _ => .error .value

/-- surrogate_models/__init__.py:19-34 `__call__`. For an array the condition of line 26 is evaluated first: `X[0]` is an IndexError
if there are no rows; line 31 unpacks the *means*. -/
def surrogateCall (predict : Predict K) : SurIn K → Py (SurOut K)
  | .config c => do
    let (m, _) ← predictConfig predict c
    return .scalar m
  | .configs l => do
    let (ms, _) ← predictConfigs predict l
    return .list ms
  | .array X =>
    if X.length = 0 then .error .index
    else do
      let (means, _) ← predict X
      let (m, _) ← unpackTwo means
      return .scalar m
  | .other => .error .type

/-- surrogate_models/__init__.py:83-98 `get_incumbent`, given the drawn configurations. For a single one, `values` is a float and `zip`
raises TypeError. -/
def getIncumbent [LinearOrder K] (predict : Predict K) (minimize : Bool) : Draws (Config K) → Py (Config K × K)
  | .one c => do
    let _ ← surrogateCall predict (.config c)
    .error .type
  | .many l => do
    let out ← surrogateCall predict (.configs l)
    match out with
    | .scalar _ => .error .type
    | .list values =>
      let pairs := l.zip values
      if minimize then pyMinBy (·.2) pairs else pyMaxBy (·.2) pairs

/-- One element of a list given to an acquisition function: a configuration or a row. -/
inductive AcqItem (K : Type)
  | config (c : Config K)
  | row (x : List K)
  deriving DecidableEq, Repr

/-- Arguments of an acquisition function. -/
inductive AcqIn (K : Type)
  | config (c : Config K)
  | list (l : List (AcqItem K))
  | array (X : List (List K))
  deriving DecidableEq, Repr

/-- acquisition_function.py:50-53: vector of one list element. -/
def AcqItem.vector : AcqItem K → List K
  | .config c => c.vector
  | .row x => x

/-- acquisition_function.py:44-59 `convert_configs` -/
def convertConfigs : AcqIn K → List (List K)
  | .config c => [c.vector]
  | .list l => l.map AcqItem.vector
  | .array X => X

/-- the `__call__` methods (acquisition_function.py:128-138, 157-168, 188-195): predict, then `value mean sigma` entry by entry. -/
def acqCall (predict : Predict K) (value : K → K → K) (x : AcqIn K) : Py (List K) := do
  let (means, sigmas) ← predict (convertConfigs x)
  return List.zipWith value means sigmas

/-- bayesian_optimization.py:115-124 `surrogate_score`: no configurations give two empty arrays; otherwise `predict` is called with
the keyword `return_std`, which `SurrogateModel.predict` does not accept (`acceptsReturnStd = false` for the classes of the package). -/
def surrogateScore (predict : Predict K) (acceptsReturnStd : Bool) (x : AcqIn K) : Py (List K × List K) :=
  if (convertConfigs x).length = 0 then .ok ([], [])
  else if acceptsReturnStd then predict (convertConfigs x)
  else .error .type

end PyPDP
