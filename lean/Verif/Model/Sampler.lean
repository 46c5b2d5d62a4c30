/-
Model of pyPDP/sampler/__init__.py (base class), random_sampler.py and grid_sampler.py.

Parameters of the model (external code): the objective function, the random draws of the config space, `random.shuffle`,
the conversion between configurations and the vectors stored in the cache file, md5.
Not modelled here: progress bars (see Model/Progress), logging, plotting (see Model/Plotting), failing disk writes.
-/
import Verif.Model.ConfigSpace
import Mathlib.Analysis.SpecialFunctions.Log.Basic

namespace PyPDP

/-- The objective function: `value c` is what it computes for configuration `c`; `raises t c` says whether (and what) it
raises when called as the `t`-th call on `c` - so it may fail at any moment of a run. -/
structure Objective (C K : Type) where
  value : C → K
  raises : Nat → C → Option PyErr

/-- one call `self.obj_func(**config)` -/
def Objective.eval {C K : Type} (o : Objective C K) (t : Nat) (c : C) : Py K :=
  match o.raises t c with
  | some e => .error e
  | none => .ok (o.value c)

/-- Random draws of a config space: `draw s n` gives `n` configurations and the new random state. -/
structure Drawer (C S : Type) where
  draw : S → Nat → List C × S
  draw_length : ∀ s n, (draw s n).1.length = n

/-- What `cs.sample_configuration(n)` returns: a bare configuration or a list. -/
inductive Draws (C : Type)
  | one (c : C)
  | many (cs : List C)
  deriving DecidableEq, Repr

/-- `cs.sample_configuration(n)`: `[]` for `n < 1`, a bare configuration for `n = 1`, a list otherwise (ConfigSpace 0.7; the
code relies on it in bayesian_optimization.py:63). -/
def Drawer.sampleConfiguration {C S : Type} (d : Drawer C S) (s : S) (n : Int) : Draws C × S :=
  if n < 1 then (.many [], s)
  else
    let (l, s') := d.draw s n.toNat
    if n = 1 then
      match l with
      | c :: _ => (.one c, s')
      | [] => (.many [], s')
    else (.many l, s')

/-- `samples[i]`: a bare configuration has no key `i` (KeyError). -/
def Draws.get {C : Type} : Draws C → Nat → Py C
  | .one _, _ => .error .key
  | .many l, i => pyGet l i

/-- State of a sampler: `config_list`, `y_list`, `_cache` (sampler/__init__.py:35-37); `calls` counts objective calls;
`extra` is what the subclass adds. -/
structure SamplerState (C K X : Type) where
  configs : List C
  ys : List K
  cache : List (C × K)
  calls : Nat
  extra : X

namespace SamplerState
variable {C K X : Type}

/-- one more objective call has been made -/
def tick (s : SamplerState C K X) : SamplerState C K X := { s with calls := s.calls + 1 }

/-- `self.config_list.append(c); self.y_list.append(v)` -/
def record (s : SamplerState C K X) (c : C) (v : K) : SamplerState C K X :=
  { s with configs := s.configs ++ [c], ys := s.ys ++ [v] }

/-- sampler/__init__.py:58-59 `clear_cache` -/
def clearCache (s : SamplerState C K X) : SamplerState C K X := { s with cache := [] }

/-- sampler/__init__.py:61-63 `reset` -/
def reset (s : SamplerState C K X) : SamplerState C K X := { s with configs := [], ys := [] }

end SamplerState

section base
variable {C K X : Type}

/-- sampler/__init__.py:77-80 -/
def bestIndex [LinearOrder K] (minimize : Bool) (ys : List K) : Py Nat := if minimize then argmin ys else argmax ys

/-- sampler/__init__.py:74-84 `incumbent`; the value `none` is `float("inf")`. -/
def incumbent [LinearOrder K] (minimize : Bool) (s : SamplerState C K X) : Py (Option C × Option K) :=
  if s.ys.length = 0 then .ok (none, none)
  else do
    let i ← bestIndex minimize s.ys
    let c ← pyGet s.configs i
    let v ← pyGet s.ys i
    return (some c, some v)

/-- sampler/__init__.py:147-154: the loop that takes up to `n` points from the cache; also returns how many were taken. -/
def useCache : Nat → SamplerState C K X → SamplerState C K X × Nat
  | 0, s => (s, 0)
  | n + 1, s =>
    match s.cache with
    | [] => (s, 0)
    | (c, v) :: rest =>
      let (s', k) := useCache n ({ s with cache := rest }.record c v)
      (s', k + 1)

/-- sampler/__init__.py:134-160 `Sampler.sample` (final state and the exception raised, if any); `inner` is the
subclass's `_sample`. -/
def sampleWith (inner : SamplerState C K X → Int → SamplerState C K X × Option PyErr) (s : SamplerState C K X) (n : Int) :
    SamplerState C K X × Option PyErr :=
  let s1 := if (s.configs.length : Int) + n > s.cache.length then s.clearCache else s   -- 142-143
  let (s2, k) := useCache n.toNat s1                                                    -- 146-154
  if (k : Int) < n then inner s2 (n - k) else (s2, none)                                -- 157-158

end base

/-! ### RandomSampler -/

section random
variable {C K S : Type}

/-- random_sampler.py:23-29: iterations `i, i+1, ...` of the loop, `k` of them. -/
def randomLoop (o : Objective C K) (samples : Draws C) : Nat → Nat → SamplerState C K S → SamplerState C K S × Option PyErr
  | _, 0, s => (s, none)
  | i, k + 1, s =>
    match samples.get i with
    | .error e => (s, some e)
    | .ok c =>
      match o.eval s.calls c with
      | .error e => (s.tick, some e)
      | .ok v => randomLoop o samples (i + 1) k (s.tick.record c v)

/-- random_sampler.py:20-29 `RandomSampler._sample`; `extra` is the random state of the sampler's config space. -/
def randomSample (o : Objective C K) (d : Drawer C S) (s : SamplerState C K S) (n : Int) : SamplerState C K S × Option PyErr :=
  let (samples, r) := d.sampleConfiguration s.extra n
  randomLoop o samples 0 n.toNat { s with extra := r }

end random

/-! ### GridSampler -/

section grid
variable {C K G : Type}

/-- state added by GridSampler: `_grid` and the state of its `random.Random`. -/
structure GridExtra (C G : Type) where
  grid : Option (List C)
  rng : G

/-- `int(np.ceil(n ** (1 / d)))` for `n ≥ 1, d ≥ 1` in exact arithmetic: the smallest `k` with `n ≤ k ^ d` (see
`ceilRoot_eq_ceil`). -/
def ceilRoot (d n : Nat) : Nat := ((List.range (n + 1)).find? fun k => decide (n ≤ k ^ d)).getD n

/-- What a GridSampler gets from outside: number of hyperparameters, the value computed for `int(np.ceil(n ** (1 / n_dims)))`
(`ceilRoot n_dims` in exact arithmetic; for floating-point numbers see Props/GridRounding), `generate_grid(cs, {hp: k})`,
`random.shuffle`. -/
structure GridEnv (C G : Type) where
  nDims : Nat
  perAxis : Nat → Nat
  generate : Nat → List C
  shuffle : G → List C → List C × G

/-- grid_sampler.py:40-48 (without progress bar): the loop until `target` points are recorded. The argument `grid` is
`self._grid`; the configuration is appended before the objective is evaluated. -/
def gridLoop [DecidableEq C] (o : Objective C K) (target : Nat) : List C → SamplerState C K (GridExtra C G) →
    SamplerState C K (GridExtra C G) × Option PyErr
  | [], s => if s.configs.length < target then (s, some .index) else (s, none)
  | c :: rest, s =>
    if s.configs.length < target then
      let s1 := { s with extra := { s.extra with grid := some rest } }
      if c ∈ s.configs then gridLoop o target rest s1
      else
        match o.eval s.calls c with
        | .error e => ({ s1 with configs := s.configs ++ [c] }.tick, some e)
        | .ok v => gridLoop o target rest (s1.record c v).tick
    else (s, none)

/-- grid_sampler.py:32-38: generate a new grid if there is none or too few points are left. ZeroDivisionError for an empty
config space. -/
def gridPrepare (env : GridEnv C G) (s : SamplerState C K (GridExtra C G)) (expected : Nat) :
    Py (List C × SamplerState C K (GridExtra C G)) :=
  let fresh : Py (List C × SamplerState C K (GridExtra C G)) :=
    if env.nDims = 0 then .error .zeroDivision
    else
      let (g, r) := env.shuffle s.extra.rng (env.generate (env.perAxis expected))
      .ok (g, { s with extra := ⟨some g, r⟩ })
  match s.extra.grid with
  | none => fresh
  | some g => if s.configs.length + g.length < expected then fresh else .ok (g, s)

/-- grid_sampler.py:31-48 `GridSampler._sample`; only ever called with `n ≥ 1`. -/
def gridSample [DecidableEq C] (o : Objective C K) (env : GridEnv C G) (s : SamplerState C K (GridExtra C G)) (n : Int) :
    SamplerState C K (GridExtra C G) × Option PyErr :=
  let expected := ((s.configs.length : Int) + n).toNat
  match gridPrepare env s expected with
  | .error e => (s, some e)
  | .ok (g, s1) => gridLoop o expected g s1

/-- ConfigSpace's `generate_grid` on one hyperparameter (values, `k` steps): floats are evenly spaced from lower to upper
(log axes: evenly spaced logarithms), categoricals/ordinals/constants give all their values. Integer hyperparameters:
evenly spaced points rounded down, parameter `intGrid`. -/
noncomputable def axisGrid (intGrid : Hp ℝ → Nat → List (Val ℝ)) (k : Nat) (hp : Hp ℝ) : List (Val ℝ) :=
  match hp.kind with
  | .float l u false => (linspace l u k).map .num
  | .float l u true => (linspace (Real.log l) (Real.log u) k).map fun x => .num (Real.exp x)
  | .integer _ _ _ => intGrid hp k
  | .categorical cs => cs.map .str
  | .ordinal cs => cs.map .str
  | .constant v => [v]

/-- cartesian product of the value lists -/
def cartesian {α : Type} : List (List α) → List (List α)
  | [] => [[]]
  | vs :: rest => vs.flatMap fun v => (cartesian rest).map (v :: ·)

/-- ConfigSpace's `generate_grid(cs, {hp.name: k})` for spaces without conditions: all combinations, as value lists. -/
noncomputable def generateGrid (intGrid : Hp ℝ → Nat → List (Val ℝ)) (cs : ConfigSpace ℝ) (k : Nat) : List (List (Val ℝ)) :=
  cartesian (cs.map (axisGrid intGrid k))

end grid

/-! ### user programs -/

/-- One call of a user on a sampler. -/
inductive SOp
  | sample (n : Int)
  | reset
  | clearCache
  | saveCache
  deriving DecidableEq, Repr

section history
variable {C K X : Type}

/-- one call; a user may catch the exception and go on with the state left behind. `saveCache` does not change the sampler. -/
def sstep (sample : SamplerState C K X → Int → SamplerState C K X × Option PyErr) (s : SamplerState C K X) :
    SOp → SamplerState C K X × Option PyErr
  | .sample n => sample s n
  | .reset => (s.reset, none)
  | .clearCache => (s.clearCache, none)
  | .saveCache => (s, none)

/-- a sequence of calls: final state and the outcome of each call. -/
def srun (sample : SamplerState C K X → Int → SamplerState C K X × Option PyErr) :
    SamplerState C K X → List SOp → SamplerState C K X × List (Option PyErr)
  | s, [] => (s, [])
  | s, op :: ops =>
    let (s', e) := sstep sample s op
    let (s'', es) := srun sample s' ops
    (s'', e :: es)

end history

/-! ### cache files -/

section cache
variable {C K X V : Type}

/-- Content of the cache file: absent, not parsable (or without the expected keys), or the two lists. -/
inductive CacheFile (V K : Type)
  | absent
  | corrupt
  | data (xs : List V) (ys : List K)
  deriving DecidableEq, Repr

/-- sampler/__init__.py:104-106: the loop over the entries; an entry that is no valid configuration stops it (the exception is
caught and logged, lines 108-111), the entries before it stay in the cache. -/
def loadLoop (ofVec : V → Py C) : List (V × K) → List (C × K)
  | [] => []
  | (x, y) :: rest =>
    match ofVec x with
    | .error _ => []
    | .ok c => (c, y) :: loadLoop ofVec rest

/-- sampler/__init__.py:94-111 `_load_cache`: the new content of `_cache`. -/
def loadCache (ofVec : V → Py C) : CacheFile V K → List (C × K)
  | .absent => []
  | .corrupt => []
  | .data xs ys => loadLoop ofVec (xs.zip ys)

/-- sampler/__init__.py:113-132 `save_cache`: the content of the file afterwards. -/
def saveCache (toVec : C → V) (s : SamplerState C K X) (file : CacheFile V K) : CacheFile V K :=
  if s.cache.length > 0 then file
  else if s.configs.length = 0 then file
  else .data (s.configs.map toVec) s.ys

/-- sampler/__init__.py:22-38 `Sampler.__init__` (the state; `extra` comes from the subclass). -/
def samplerInit (ofVec : V → Py C) (file : CacheFile V K) (extra : X) : SamplerState C K X :=
  { configs := [], ys := [], cache := loadCache ofVec file, calls := 0, extra }

/-- What `_hash` digests (sampler/__init__.py:49-56): class, hyperparameters, extra arguments, objective, all as strings,
concatenated. -/
structure HashInput where
  cls : String
  space : String
  args : List String
  obj : String

def HashInput.text (h : HashInput) : String := h.cls ++ h.space ++ String.join h.args ++ h.obj

/-- sampler/__init__.py:49-56 `_hash` -/
def cacheKey (md5 : String → String) (h : HashInput) : String := md5 h.text

/-- Everything a user chooses when building a sampler. -/
structure SamplerSpec where
  cls : String
  space : String
  seed : String
  obj : String
  minimize : Bool
  /-- BayesianOptimizationSampler only: `str` of acq_class, acq_class_kwargs, initial_points, surrogate class -/
  boArgs : List String
  /-- BayesianOptimizationSampler only: the options of the surrogate model (kernel) -/
  surrogate : String

/-- The hash of a sampler: `_hash(seed)` for Random/Grid (sampler/__init__.py:33), with the additional arguments for
BayesianOptimizationSampler (bayesian_optimization.py:53). -/
def SamplerSpec.hashInput (s : SamplerSpec) : HashInput := ⟨s.cls, s.space, s.seed :: s.boArgs, s.obj⟩

end cache
end PyPDP
