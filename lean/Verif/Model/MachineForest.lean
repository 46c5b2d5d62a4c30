/-
Model of pyPDP/algorithms/partitioner/random_forest_partitioner.py over the arithmetic of a machine (Model/Machine): the trees are split, and
configurations are compared with their conditions, by the operations of the machine. The ICE curves of a tree are those of Model/Forest.
-/
import Verif.Model.Forest
import Verif.Model.Machine

namespace PyPDP
variable {K : Type} [Machine K] [Field K]

/-- random_forest_partitioner.py:71-96: one tree -/
def growTreeM (p : RF K) (i : IceState K) (maxDepth : Int) (d : ForestDraw) : Py (DT K) := do
  let sub ← drawSamples p.cfg.samples d.indices                                                  -- 72-73
  let c ← algorithmInit i.cfg.space i.cfg.predict (.many (i.cfg.selected.map .hp)) sub i.cfg.perAxis   -- 74-80
  let splittable ← drawSplittable p.possible d                                                   -- 84-87
  let notSplittable := p.possible.filter fun hp => decide (hp.name ∉ splittable.map Hp.name)      -- 88
  let dt ← dtFromIce (iceInit c) 100 1 (some (.many (notSplittable.map .hp)))                     -- 91-95
  let (dt, r) := dtPartitionM dt maxDepth                                                        -- 96
  let _ ← r
  return dt

/-- lines 70-97: the loop; trees are appended one by one -/
def growLoopM (p : RF K) (i : IceState K) (maxDepth : Int) : List ForestDraw → List (DT K) → List (DT K) × Option PyErr
  | [], trees => (trees, none)
  | d :: ds, trees =>
    match growTreeM p i maxDepth d with
    | .error e => (trees, some e)
    | .ok t => growLoopM p i maxDepth ds (trees ++ [t])

/-- random_forest_partitioner.py:56-97 `partition` -/
def rfPartitionM (p : RF K) (numTrees maxDepth : Int) (sampleSize : Option Int) (draw : Nat → ForestDraw) : RF K × Py Unit :=
  if 0 < numTrees then                                               -- 60
    match sampleSize with
    | none => (p, .error .type)                                      -- 61
    | some s =>
      if 0 < s then
        if 0 < maxDepth then                                         -- 62
          match rfIce p with
          | .error e => ({ p with trees := some [] }, .error e)
          | .ok i =>
            match growLoopM p i maxDepth ((List.range numTrees.toNat).map draw) [] with
            | (trees, none) => ({ p with ice := some i, trees := some trees }, .ok ())
            | (trees, some e) => ({ p with ice := some i, trees := some trees }, .error e)
        else (p, .error .assertion)
      else (p, .error .assertion)
  else (p, .error .assertion)

/-- `sample_config in region`; `in None` is a TypeError -/
def inRegionM (cs : ConfigSpace K) (region : Option (Node K)) (cfg : Config K) : Py Bool :=
  match region with
  | none => .error .type
  | some n => containsAllM cs n.conds cfg

/-- lines 111-112: the number of regions that contain the configuration -/
def countRegionsM (cs : ConfigSpace K) (regions : List (Option (Node K))) (cfg : Config K) : Py Nat := do
  let bs ← regions.mapM fun r => inRegionM cs r cfg
  return bs.count true

/-- lines 108-113: the indices of the samples (starting with `k`) that lie in enough regions -/
def overlapIndicesM (cs : ConfigSpace K) (ofVector : List K → Config K) (regions : List (Option (Node K))) (minOverlap : Int) :
    Nat → List (List K) → Py (List Nat)
  | _, [] => .ok []
  | k, s :: ss => do
    let n ← countRegionsM cs regions (ofVector s)
    let rest ← overlapIndicesM cs ofVector regions minOverlap (k + 1) ss
    return if minOverlap ≤ n then k :: rest else rest

/-- random_forest_partitioner.py:99-127 `get_incumbent_region` -/
def rfIncumbentRegionM (ofVector : List K → Config K) (p : RF K) (incumbent : Config K) (minOverlap : Option Int) : Py (Node K) :=
  match p.trees with
  | none => .error .assertion                                                     -- 100
  | some [] => .error .assertion
  | some trees => do
    let overlap := minOverlap.getD (trees.length : Int)                           -- 101-102
    let regions ← trees.mapM fun dt => dtIncumbentRegionM dt incumbent            -- 105
    let idx ← overlapIndicesM p.cfg.space ofVector regions overlap 0 p.cfg.samples -- 108-113
    let i ← rfIce p
    let (_, d) ← readAll i
    let x ← idx.mapM (pyGet d.x)                                                  -- 115-117
    let y ← idx.mapM (pyGet d.y)
    let v ← idx.mapM (pyGet d.v)
    mkNode 0 x y v []                                                             -- 119-125

end PyPDP
