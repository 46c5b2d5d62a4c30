/-
Model of the progress bar of `Sampler.sample(n, show_progress=True)` (sampler/__init__.py:134-160, random_sampler.py:20-31,
grid_sampler.py:31-51, bayesian_optimization.py:81-113), next to Model/Sampler and Model/Bayes, which leave it out.

Not modelled: how tqdm draws the bar (`refresh`), its clock, its terminal.
-/
import Verif.Model.Bayes

namespace PyPDP

/-- What an observer of the bar sees at one call of `update`: the lengths of `config_list` and `y_list` at that moment, and the
count of the bar after it. -/
structure Moment where
  configs : Nat
  ys : Nat
  shown : Int
  deriving DecidableEq, Repr

/-- A `tqdm` bar: its description, its total, its count, the calls of `update` so far, and how often it has been closed. -/
structure Bar where
  desc : String
  total : Int
  shown : Int
  moments : List Moment
  closed : Nat
  deriving DecidableEq, Repr

/-- The argument `pbar`: `none` is a `ProgressDummy` (utils/utils.py:231-241), whose methods do nothing. -/
abbrev Pbar := Option Bar

/-- `pbar.update(k)` while the sampler is in state `s` -/
def Pbar.update {C K X : Type} (b : Pbar) (s : SamplerState C K X) (k : Int) : Pbar :=
  b.map fun b => { b with shown := b.shown + k, moments := b.moments ++ [⟨s.configs.length, s.ys.length, b.shown + k⟩] }

/-- `pbar.close()` -/
def Pbar.close (b : Pbar) : Pbar := b.map fun b => { b with closed := b.closed + 1 }

/-- sampler/__init__.py:40-41 `__str__`, `obj` being `self.obj_func.__name__` (`none` for a callable without this attribute, such as a
`functools.partial`: AttributeError). -/
def samplerStr (cls : String) (obj : Option String) : Py String :=
  match obj with
  | some name => .ok (cls ++ "(" ++ name ++ ")")
  | none => .error .attribute

/-- sampler/__init__.py:137-140 -/
def openBar (showProgress : Bool) (cls : String) (obj : Option String) (n : Int) : Py Pbar :=
  if showProgress then (samplerStr cls obj).map fun desc => some ⟨desc, n, 0, [], 0⟩ else .ok none

/-- State, bar and exception after a call. -/
abbrev BarRun (C K X : Type) := SamplerState C K X × Pbar × Option PyErr

section base
variable {C K X : Type}

/-- sampler/__init__.py:147-154 with the bar -/
def useCacheBar : Nat → SamplerState C K X → Pbar → SamplerState C K X × Pbar × Nat
  | 0, s, b => (s, b, 0)
  | n + 1, s, b =>
    match s.cache with
    | [] => (s, b, 0)
    | (c, v) :: rest =>
      let s1 := { s with cache := rest }.record c v
      let (s', b', k) := useCacheBar n s1 (b.update s1 1)
      (s', b', k + 1)

/-- sampler/__init__.py:134-160 `Sampler.sample` with the bar; `cls`, `obj` are the names of the sampler class and of the objective. -/
def sampleBar (cls : String) (obj : Option String) (inner : SamplerState C K X → Pbar → Int → BarRun C K X) (showProgress : Bool)
    (s : SamplerState C K X) (n : Int) : BarRun C K X :=
  match openBar showProgress cls obj n with
  | .error e => (s, none, some e)
  | .ok b =>
    let s1 := if (s.configs.length : Int) + n > s.cache.length then s.clearCache else s   -- 142-143
    let (s2, b2, k) := useCacheBar n.toNat s1 b                                           -- 146-154
    if (k : Int) < n then                                                                 -- 157-158
      match inner s2 b2 (n - k) with
      | (s3, b3, some e) => (s3, b3, some e)
      | (s3, b3, none) => (s3, b3.close, none)
    else (s2, b2.close, none)                                                             -- 160

end base

section random
variable {C K S : Type}

/-- random_sampler.py:23-31 with the bar -/
def randomLoopBar (o : Objective C K) (samples : Draws C) : Nat → Nat → SamplerState C K S → Pbar → BarRun C K S
  | _, 0, s, b => (s, b, none)
  | i, k + 1, s, b =>
    match samples.get i with
    | .error e => (s, b, some e)
    | .ok c =>
      match o.eval s.calls c with
      | .error e => (s.tick, b, some e)
      | .ok v =>
        let s1 := s.tick.record c v
        randomLoopBar o samples (i + 1) k s1 (b.update s1 1)

/-- random_sampler.py:20-31 with the bar -/
def randomSampleBar (o : Objective C K) (d : Drawer C S) (s : SamplerState C K S) (b : Pbar) (n : Int) : BarRun C K S :=
  let (samples, r) := d.sampleConfiguration s.extra n
  randomLoopBar o samples 0 n.toNat { s with extra := r } b

/-- `RandomSampler(...).sample(n, show_progress=...)` -/
def randomSamplerBar (obj : Option String) (o : Objective C K) (d : Drawer C S) : Bool → SamplerState C K S → Int → BarRun C K S :=
  sampleBar "RandomSampler" obj (randomSampleBar o d)

end random

section grid
variable {C K G : Type}

/-- grid_sampler.py:40-51 with the bar -/
def gridLoopBar [DecidableEq C] (o : Objective C K) (target : Nat) : List C → SamplerState C K (GridExtra C G) → Pbar →
    BarRun C K (GridExtra C G)
  | [], s, b => if s.configs.length < target then (s, b, some .index) else (s, b, none)
  | c :: rest, s, b =>
    if s.configs.length < target then
      let s1 := { s with extra := { s.extra with grid := some rest } }
      if c ∈ s.configs then gridLoopBar o target rest s1 b
      else
        match o.eval s.calls c with
        | .error e => ({ s1 with configs := s.configs ++ [c] }.tick, b, some e)
        | .ok v =>
          let s2 := (s1.record c v).tick
          gridLoopBar o target rest s2 (b.update s2 1)
    else (s, b, none)

/-- grid_sampler.py:31-51 with the bar -/
def gridSampleBar [DecidableEq C] (o : Objective C K) (env : GridEnv C G) (s : SamplerState C K (GridExtra C G)) (b : Pbar) (n : Int) :
    BarRun C K (GridExtra C G) :=
  let expected := ((s.configs.length : Int) + n).toNat
  match gridPrepare env s expected with
  | .error e => (s, b, some e)
  | .ok (g, s1) => gridLoopBar o expected g s1 b

/-- `GridSampler(...).sample(n, show_progress=...)` -/
def gridSamplerBar [DecidableEq C] (obj : Option String) (o : Objective C K) (env : GridEnv C G) :
    Bool → SamplerState C K (GridExtra C G) → Int → BarRun C K (GridExtra C G) :=
  sampleBar "GridSampler" obj (gridSampleBar o env)

end grid

section bo
variable {C K M S : Type} [LinearOrder K]

/-- bayesian_optimization.py:100-113 with the bar: `boStep` is lines 101-111, the bar is updated after the surrogate is fitted. -/
def boLoopBar (o : Objective C K) (env : BOEnv C K M S) : Nat → BOState C K M S → Pbar → BarRun C K (BOExtra C K M S)
  | 0, s, b => (s, b, none)
  | k + 1, s, b =>
    match boStep o env s with
    | (s', some e) => (s', b, some e)
    | (s', none) => boLoopBar o env k s' (b.update s' 1)

/-- bayesian_optimization.py:97-113 with the bar -/
def boAcquireBar (o : Objective C K) (env : BOEnv C K M S) (s : BOState C K M S) (b : Pbar) (k : Nat) : BarRun C K (BOExtra C K M S) :=
  match fitSurrogate env false s with
  | (s', some e) => (s', b, some e)
  | (s', none) => boLoopBar o env k s' b

/-- bayesian_optimization.py:86-113 with the bar -/
def boInnerBar (o : Objective C K) (env : BOEnv C K M S) (s : BOState C K M S) (b : Pbar) (n : Int) : BarRun C K (BOExtra C K M S) :=
  if (s.configs.length : Int) < env.initialPoints then
    match boInitial o env s n with
    | (s1, some e) => (s1, b, some e)
    | (s1, none) =>
      let already := (s1.configs.length : Int) - s.configs.length                        -- 93
      boAcquireBar o env s1 (b.update s1 already) (n - already).toNat                    -- 94
  else boAcquireBar o env s b n.toNat

/-- bayesian_optimization.py:81-84: `sample(n, show_progress=...)`; the last fit comes after the bar is closed. -/
def boSampleBar (obj : Option String) (o : Objective C K) (env : BOEnv C K M S) (showProgress : Bool) (s : BOState C K M S) (n : Int) :
    BarRun C K (BOExtra C K M S) :=
  match sampleBar "BayesianOptimizationSampler" obj (boInnerBar o env) showProgress s n with
  | (s1, b1, some e) => (s1, b1, some e)
  | (s1, b1, none) =>
    match fitSurrogate env false s1 with
    | (s2, e) => (s2, b1, e)

end bo
end PyPDP
