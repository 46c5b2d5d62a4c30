/-
Model of pyPDP/algorithms/partitioner/random_forest_partitioner.py (plotting: Model/Plotting).

The random generator is a parameter: a `ForestDraw` holds what it returns while one tree is built. `not_splittable_hp` (line 88) is the
list of a set; only membership in it is used later, so its order does not matter.
-/
import Verif.Model.Partitioner

namespace PyPDP
variable {K : Type}

/-- What the generator returns for one tree: `rng.integers(0, len(samples), size)`, `rng.integers(0, 2, n_params)`, `rng.choice(...)`. -/
structure ForestDraw where
  indices : List Nat
  mask : List Bool
  choice : Nat

/-- A `RandomForestPartitioner` (`ice`: the private attribute `_ice`) -/
structure RF (K : Type) where
  cfg : IceCfg K
  possible : List (Hp K)
  numSplits : Nat
  minPoints : Nat
  ice : Option (IceState K)
  trees : Option (List (DT K))

/-- random_forest_partitioner.py:21-42 `__init__` with partitioner/__init__.py:132-165 -/
def rfInit (space : ConfigSpace K) (predict : Predict K) (sel : Selection K) (samples : List (List K)) (perAxis numSplits minPoints : Nat) :
    Py (RF K) := do
  let c ← algorithmInit space predict sel samples perAxis
  return ⟨c, possibleSplits space c.selected [], numSplits, minPoints, none, none⟩

/-- random_forest_partitioner.py:44-54 `from_ICE` (the options for splitting keep their defaults 100 and 10) -/
def rfFromIce (ice : IceState K) : Py (RF K) := do
  let p ← rfInit ice.cfg.space ice.cfg.predict (.many (ice.cfg.selected.map .hp)) ice.cfg.samples ice.cfg.perAxis 100 10
  return { p with ice := some ice }

/-- partitioner/__init__.py:167-176 `ice` -/
def rfIce (p : RF K) : Py (IceState K) :=
  match p.ice with
  | some i => .ok i
  | none => ownIce p.cfg

/-- `rng.integers(0, n, size)` raises ValueError for `n = 0`; then `samples[indices]` (lines 72, 73) -/
def drawSamples (samples : List (List K)) (indices : List Nat) : Py (List (List K)) :=
  if samples.length = 0 then .error .value else indices.mapM (pyGet samples)

/-- lines 85-87: the hyperparameters a tree may split; `rng.choice` of an empty list is a ValueError -/
def drawSplittable (possible : List (Hp K)) (d : ForestDraw) : Py (List (Hp K)) :=
  if maskSelect d.mask possible = [] then
    if possible = [] then .error .value else (pyGet possible d.choice).map fun hp => [hp]
  else .ok (maskSelect d.mask possible)

/-- lines 71-96: one tree -/
def growTree [Field K] [LinearOrder K] [Transc K] (p : RF K) (i : IceState K) (maxDepth : Int) (d : ForestDraw) : Py (DT K) := do
  let sub ← drawSamples p.cfg.samples d.indices                                                  -- 72-73
  let c ← algorithmInit i.cfg.space i.cfg.predict (.many (i.cfg.selected.map .hp)) sub i.cfg.perAxis   -- 74-80
  let splittable ← drawSplittable p.possible d                                                   -- 84-87
  let notSplittable := p.possible.filter fun hp => decide (hp.name ∉ splittable.map Hp.name)      -- 88
  let dt ← dtFromIce (iceInit c) 100 1 (some (.many (notSplittable.map .hp)))                     -- 91-95
  let (dt, r) := dtPartition dt maxDepth                                                         -- 96
  let _ ← r
  return dt

/-- lines 70-97: the loop; trees are appended one by one -/
def growLoop [Field K] [LinearOrder K] [Transc K] (p : RF K) (i : IceState K) (maxDepth : Int) :
    List ForestDraw → List (DT K) → List (DT K) × Option PyErr
  | [], trees => (trees, none)
  | d :: ds, trees =>
    match growTree p i maxDepth d with
    | .error e => (trees, some e)
    | .ok t => growLoop p i maxDepth ds (trees ++ [t])

/-- random_forest_partitioner.py:56-97 `partition`; `draw k` is what the generator returns for tree number `k` (it has to fit the
requested size). `self.ice` is first read in line 75; reading it cannot depend on the draws, so the model reads it before the loop. `None > 0` in line 61 is a TypeError. -/
def rfPartition [Field K] [LinearOrder K] [Transc K] (p : RF K) (numTrees maxDepth : Int) (sampleSize : Option Int) (draw : Nat → ForestDraw) :
    RF K × Py Unit :=
  if 0 < numTrees then                                               -- 60
    match sampleSize with
    | none => (p, .error .type)                                      -- 61
    | some s =>
      if 0 < s then
        if 0 < maxDepth then                                         -- 62
          match rfIce p with
          | .error e => ({ p with trees := some [] }, .error e)
          | .ok i =>
            match growLoop p i maxDepth ((List.range numTrees.toNat).map draw) [] with
            | (trees, none) => ({ p with ice := some i, trees := some trees }, .ok ())
            | (trees, some e) => ({ p with ice := some i, trees := some trees }, .error e)
        else (p, .error .assertion)
      else (p, .error .assertion)
  else (p, .error .assertion)

/-! ### the incumbent region -/

/-- `sample_config in region`; `in None` is a TypeError -/
def inRegion [Field K] [LinearOrder K] [Transc K] (cs : ConfigSpace K) (region : Option (Node K)) (cfg : Config K) : Py Bool :=
  match region with
  | none => .error .type
  | some n => containsAll cs n.conds cfg

/-- lines 111-112: the number of regions that contain the configuration -/
def countRegions [Field K] [LinearOrder K] [Transc K] (cs : ConfigSpace K) (regions : List (Option (Node K))) (cfg : Config K) : Py Nat := do
  let bs ← regions.mapM fun r => inRegion cs r cfg
  return bs.count true

/-- lines 108-113: the indices of the samples (starting with `k`) that lie in enough regions -/
def overlapIndices [Field K] [LinearOrder K] [Transc K] (cs : ConfigSpace K) (ofVector : List K → Config K) (regions : List (Option (Node K)))
    (minOverlap : Int) : Nat → List (List K) → Py (List Nat)
  | _, [] => .ok []
  | k, s :: ss => do
    let n ← countRegions cs regions (ofVector s)
    let rest ← overlapIndices cs ofVector regions minOverlap (k + 1) ss
    return if minOverlap ≤ n then k :: rest else rest

/-- lines 99-127 `get_incumbent_region`. `ofVector` is `CS.Configuration(cs, vector=...)`. The result is a plain `Region` (depth and
conditions of a `Node` are not used). -/
def rfIncumbentRegion [Field K] [LinearOrder K] [Transc K] (ofVector : List K → Config K) (p : RF K) (incumbent : Config K)
    (minOverlap : Option Int) : Py (Node K) :=
  match p.trees with
  | none => .error .assertion                                                     -- 100
  | some [] => .error .assertion
  | some trees => do
    let overlap := minOverlap.getD (trees.length : Int)                           -- 101-102
    let regions ← trees.mapM fun dt => dtIncumbentRegion dt incumbent             -- 105
    let idx ← overlapIndices p.cfg.space ofVector regions overlap 0 p.cfg.samples -- 108-113
    let i ← rfIce p
    let (_, d) ← readAll i
    let x ← idx.mapM (pyGet d.x)                                                  -- 115-117
    let y ← idx.mapM (pyGet d.y)
    let v ← idx.mapM (pyGet d.v)
    mkNode 0 x y v []                                                             -- 119-125

end PyPDP
