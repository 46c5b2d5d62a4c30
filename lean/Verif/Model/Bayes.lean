/-
Model of pyPDP/sampler/bayesian_optimization.py.

Parameters: surrogate (`fit` may raise, e.g. on empty data; predictions enter through the acquisition value), random draws.
-/
import Verif.Model.Acquisition

namespace PyPDP

/-- What the sampler is built from. `drawer` / `acqDrawer` are the config spaces of the sampler and of its acquisition function;
both work on one random state `S` (a pair of states if they are separate copies, a single one if `seed=True` makes them share the
space). `acq m eta c` is the acquisition value of candidate `c` for the surrogate state `m`. -/
structure BOEnv (C K M S : Type) where
  initialPoints : Int
  minimize : Bool
  names : List String
  drawer : Drawer C S
  acqDrawer : Drawer C S
  nCandidates : Int
  fit : M → List C → List K → Py M
  acq : M → Option K → C → K

/-- State added by the sampler. `eta` is the acquisition function's incumbent value (`none` = inf). `fittedHash` is
`_model_fitted_hash`: `""` (none) or a reference to the md5 *object* of the last call; hash objects compare by identity, so an
object is represented by the number of its creation, `nextObj` is the number of the next one. `lastFit` (the data of the last
successful fit) and `fits` (number of fit calls) are only observed by the theorems. -/
structure BOExtra (C K M S : Type) where
  rng : S
  model : M
  eta : Option K
  fittedHash : Option Nat
  nextObj : Nat
  lastFit : Option (List C × List K)
  fits : Nat

variable {C K M S : Type}

abbrev BOState (C K M S : Type) := SamplerState C K (BOExtra C K M S)

/-- bayesian_optimization.py:70-79 `fit_surrogate` -/
def fitSurrogate (env : BOEnv C K M S) (force : Bool) (s : BOState C K M S) : BOState C K M S × Option PyErr :=
  let id := s.extra.nextObj
  if force = true ∨ s.extra.fittedHash ≠ some id then
    match env.fit s.extra.model s.configs s.ys with
    | .error e => ({ s with extra := { s.extra with nextObj := id + 1, lastFit := none, fits := s.extra.fits + 1 } }, some e)
    | .ok m =>
      let x := { s.extra with nextObj := id + 1, model := m, fittedHash := some id }
      ({ s with extra := { x with lastFit := some (s.configs, s.ys), fits := s.extra.fits + 1 } }, none)
  else ({ s with extra := { s.extra with nextObj := id + 1, fittedHash := some id } }, none)

/-- the list comprehension of line 66: the values, and the number of objective calls made. -/
def evalAll (o : Objective C K) : Nat → List C → Nat × Py (List K)
  | t, [] => (t, .ok [])
  | t, c :: cs =>
    match o.eval t c with
    | .error e => (t + 1, .error e)
    | .ok v =>
      match evalAll o (t + 1) cs with
      | (t', .error e) => (t', .error e)
      | (t', .ok vs) => (t', .ok (v :: vs))

/-- lines 62-64: a single configuration is wrapped into a list. -/
def Draws.toList : Draws C → List C
  | .one c => [c]
  | .many l => l

/-- bayesian_optimization.py:56-68 `_sample_initial_points(max_sampled_points)` -/
def boInitial (o : Objective C K) (env : BOEnv C K M S) (s : BOState C K M S) (maxPoints : Int) :
    BOState C K M S × Option PyErr :=
  let (draws, r) := env.drawer.sampleConfiguration s.extra.rng (min env.initialPoints maxPoints)
  let configs := draws.toList
  let s1 := { s with extra := { s.extra with rng := r } }
  match evalAll o s1.calls configs with
  | (t, .error e) => ({ s1 with calls := t }, some e)
  | (t, .ok vs) => fitSurrogate env true { s1 with calls := t, ys := s1.ys ++ vs, configs := s1.configs ++ configs }

/-- bayesian_optimization.py:101-111: one acquisition step. `obj_func(**str)` is a TypeError. -/
def boStep [LinearOrder K] (o : Objective C K) (env : BOEnv C K M S) (s : BOState C K M S) : BOState C K M S × Option PyErr :=
  match incumbent env.minimize s with
  | .error e => (s, some e)
  | .ok (_, v) =>
    match getOptimum env.names env.acqDrawer env.nCandidates (env.acq s.extra.model v) s.extra.rng with
    | (r, .error e) => ({ s with extra := { s.extra with eta := v, rng := r } }, some e)
    | (r, .ok (.name _)) => ({ s with extra := { s.extra with eta := v, rng := r } }, some .type)
    | (r, .ok (.config c)) =>
      let s1 := { s with extra := { s.extra with eta := v, rng := r } }
      match o.eval s1.calls c with
      | .error e => (s1.tick, some e)
      | .ok y => fitSurrogate env false (s1.tick.record c y)

/-- bayesian_optimization.py:100-113: `k` acquisition steps. -/
def boLoop [LinearOrder K] (o : Objective C K) (env : BOEnv C K M S) : Nat → BOState C K M S → BOState C K M S × Option PyErr
  | 0, s => (s, none)
  | k + 1, s =>
    match boStep o env s with
    | (s', some e) => (s', some e)
    | (s', none) => boLoop o env k s'

/-- bayesian_optimization.py:97-113: fit, then the acquisition steps. -/
def boAcquire [LinearOrder K] (o : Objective C K) (env : BOEnv C K M S) (s : BOState C K M S) (k : Nat) :
    BOState C K M S × Option PyErr :=
  match fitSurrogate env false s with
  | (s', some e) => (s', some e)
  | (s', none) => boLoop o env k s'

/-- bayesian_optimization.py:86-113 `_sample` -/
def boInner [LinearOrder K] (o : Objective C K) (env : BOEnv C K M S) (s : BOState C K M S) (n : Int) :
    BOState C K M S × Option PyErr :=
  if (s.configs.length : Int) < env.initialPoints then
    match boInitial o env s n with
    | (s1, some e) => (s1, some e)
    | (s1, none) => boAcquire o env s1 (n - ((s1.configs.length : Int) - s.configs.length)).toNat
  else boAcquire o env s n.toNat

/-- bayesian_optimization.py:81-84 `sample` -/
def boSample [LinearOrder K] (o : Objective C K) (env : BOEnv C K M S) (s : BOState C K M S) (n : Int) :
    BOState C K M S × Option PyErr :=
  match sampleWith (boInner o env) s n with
  | (s1, some e) => (s1, some e)
  | (s1, none) => fitSurrogate env false s1

/-- `RandomSampler(...).sample` -/
def randomSampler (o : Objective C K) (d : Drawer C S) : SamplerState C K S → Int → SamplerState C K S × Option PyErr :=
  sampleWith (randomSample o d)

/-- `GridSampler(...).sample` -/
def gridSampler {G : Type} [DecidableEq C] (o : Objective C K) (env : GridEnv C G) :
    SamplerState C K (GridExtra C G) → Int → SamplerState C K (GridExtra C G) × Option PyErr :=
  sampleWith (gridSample o env)

end PyPDP
