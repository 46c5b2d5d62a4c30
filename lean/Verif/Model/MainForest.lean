/-
Model of one replication (one seed) of `generate_data_trees` in examples/main_random_forest.py: StyblinskiTang, Bayesian optimisation,
Gaussian process, ICE, forests of several sizes, one decision tree, mean confidences.

Parameters as in Model/Main; in addition the numbers of trees with what the generator of the partitioner returns for each call of
`partition`, and the configuration of a vector. Left out: the file with the results (the rows are returned) and `plot_tree_data` (pandas). The ICE object is
shared by the partitioners and the loop; here it is a value, reading it several times gives the same arrays (C41).
-/
import Verif.Model.Main
import Verif.Model.Forest

namespace PyPDP

/-- a line of the file: `num_trees`, `base_mc`, `region_mc` (nan is written as such) -/
structure ForestRow where
  numTrees : Int
  base : ℝ
  region : Py ℝ

/-- `np.mean(np.sqrt(ice.y_variances)).item()` (lines 70, 78) -/
noncomputable def iceMeanConfidence (i : IceState ℝ) : Py ℝ := do
  let (_, d) ← readAll i
  mean (d.v.flatten.map Real.sqrt)

/-- examples/main_random_forest.py:63-72 -/
noncomputable def forestRows (ofVector : List ℝ → Config ℝ) (best : Config ℝ) (ice : IceState ℝ) (depth size : Int) :
    RF ℝ → List (Int × (Nat → ForestDraw)) → Py (List ForestRow)
  | _, [] => .ok []
  | p, (n, draw) :: rest =>
    match rfPartition p n depth (some size) draw with                                 -- 66
    | (_, .error e) => .error e
    | (p', .ok _) => do
      let region ← rfIncumbentRegion ofVector p' best (some ⌈(n : ℝ) / 2⌉)            -- 64, 67-68
      let base ← iceMeanConfidence ice                                                -- 70
      let rows ← forestRows ofVector best ice depth size p' rest
      return ⟨n, base, meanConfidence region⟩ :: rows                                 -- 71-72

/-- the result of a replication; `dtBase`, `dtRegion`: the last line -/
structure ForestResult (S : Type) where
  space : ConfigSpace ℝ
  sampler : BOState (Config ℝ) ℝ GpSurrogate S
  incumbent : Config ℝ
  rows : List ForestRow
  dtBase : ℝ
  dtRegion : ℝ

/-- examples/main_random_forest.py:49-81. `d = 5`, `initial = 20`, `n = 170`, `name = "x1"`, `kind = LowerConfidenceBound(tau=1)`,
`nCandidates = 100`, `perAxis = 20`, `size = 200`, `depth = 3`; trees keep the defaults `num_splits_per_axis = 100`, `min_points_per_node = 10`
of `from_ICE`. -/
noncomputable def forestScript {S : Type} (i : MainInput S) (ofVector : List ℝ → Config ℝ) (calls : List (Int × (Nat → ForestDraw))) (d : Nat) (name : String)
    (kind : AcqKind) (initial n nCandidates : Int) (perAxis : Nat) (size depth : Int) : Py (ForestResult S) := do
  let f ← forNDimensions i.order (-5) 5 false styblinskiTangValue (d : ℝ) none none                     -- 49
  let (env, m) ← gpSampler i.choose kind true initial (f.cs.map Hp.name) i.drawer i.acqDrawer nCandidates   -- 51-53
  let start := samplerInit i.ofVec i.file
    { rng := i.rng, model := m, eta := none, fittedHash := none, nextObj := 0, lastFit := none, fits := 0 }
  match boSample (callObjective i.inv f) env start n with                                               -- 54
  | (_, some e) => .error e
  | (sampler, none) =>
    match GpSurrogate.new.fit i.choose (sampler.configs.map Config.vector) sampler.ys with              -- 56-57
    | (_, .error e) => .error e
    | (surrogate, .ok _) =>
      let samples ← samplesOf i.iceDraws
      let c ← algorithmInit f.cs surrogate.predict (.name name) samples perAxis                         -- 59
      let p ← rfFromIce (iceInit c)                                                                     -- 60
      match ← incumbent true sampler with
      | (none, _) => .error .attribute
      | (some best, _) =>
        let rows ← forestRows ofVector best (iceInit c) depth size p calls                              -- 63-72
        let tree ← dtFromIce (iceInit c) 100 10 none                                                    -- 75
        match dtPartition tree depth with                                                               -- 76
        | (_, .error e) => .error e
        | (tree', .ok _) =>
          match ← dtIncumbentRegion tree' best with                                                     -- 77
          | none => .error .attribute
          | some region =>
            let dtBase ← iceMeanConfidence (iceInit c)                                                  -- 78
            let dtRegion ← meanConfidence region                                                        -- 79
            return ⟨f.cs, sampler, best, rows, dtBase, dtRegion⟩                                        -- 81

end PyPDP
