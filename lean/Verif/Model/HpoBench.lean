/-
Model of pyPDP/blackbox_functions/hpo_bench.py: the wrapper around a benchmark of HPOBench.

Parameter: the benchmark. `objective_function(configuration, rng)` returns a dictionary of numbers or raises; it may use and change the benchmark's own random
state `σ`. Contract of HPOBench (`hpobench.util.rng_helper.get_rng`): with an integer `rng` a new generator is seeded with it. Left out: `__repr__`.
-/
import Verif.Model.Blackbox

namespace PyPDP

/-- a benchmark -/
structure Benchmark (K σ : Type) where
  space : Option Int → ConfigSpace K
  objective : Config K → Option Int → σ → σ × Py (List (String × K))

/-- hpo_bench.py:21-25 `HPOBenchBlackbox.__init__`: the benchmark and the seed are kept, the config space is the one the benchmark hands out for the seed -/
structure HpoBlackbox (K σ : Type) where
  benchmark : Benchmark K σ
  seed : Option Int
  cs : ConfigSpace K

variable {K σ : Type}

def hpoInit (b : Benchmark K σ) (seed : Option Int) : HpoBlackbox K σ := ⟨b, seed, b.space seed⟩

/-- hpo_bench.py:30-32 `value_from_config` -/
def HpoBlackbox.valueFromConfig (f : HpoBlackbox K σ) (config : Config K) (s : σ) : σ × Py K :=
  match f.benchmark.objective config f.seed s with
  | (s', .error e) => (s', .error e)
  | (s', .ok result) =>
    match result.lookup "function_value" with
    | none => (s', .error .key)
    | some v => (s', .ok v)

/-- blackbox_functions/__init__.py:16-18 `__call__` -/
def HpoBlackbox.call [Field K] [LinearOrder K] [FloorRing K] (inv : Hp K → Val K → K) (f : HpoBlackbox K σ) (kwargs : List (String × Val K)) (s : σ) : σ × Py K :=
  match mkConfiguration inv f.cs kwargs with
  | .error e => (s, .error e)
  | .ok config => f.valueFromConfig config s

/-- a program that calls the function again and again, going on after exceptions -/
def HpoBlackbox.calls [Field K] [LinearOrder K] [FloorRing K] (inv : Hp K → Val K → K) (f : HpoBlackbox K σ) : List (List (String × Val K)) → σ → List (Py K)
  | [], _ => []
  | kwargs :: rest, s => (f.call inv kwargs s).2 :: f.calls inv rest (f.call inv kwargs s).1

/-- hpo_bench.py:35-129 `get_...(seed)`: the benchmark is built with `rng=seed`, which gives its own random state -/
def getBenchmark (build : Int → Benchmark K σ × σ) (seed : Int) : ConfigSpace K × HpoBlackbox K σ × σ :=
  let (b, s) := build seed
  let f := hpoInit b (some seed)
  (f.cs, f, s)

end PyPDP
