/-
Model of the innermost loop body of `figure_6_table_1_data_generation` in examples/main_paper.py (one seed, one dimension, one `tau`; `f_class` is
StyblinskiTang): Bayesian optimisation, discrepancy of the samples, Gaussian process, decision tree, and one line of the table for every number
of splits. The same partitioner is partitioned again for every line.

Parameters as in Model/Main; in addition the uniform draws of `maximum_mean_discrepancy`. Left out: the file (the rows are returned), progress bar
and prints, the drawing of the figure.
-/
import Verif.Model.Main
import Verif.Model.MMD

namespace PyPDP

/-- a line of the table: `splits`, `mc`, `nll`; `region` and `implied` are what they are computed from -/
structure PaperRow where
  splits : Int
  region : Node ℝ
  implied : ConfigSpace ℝ
  mc : ℝ
  nll : ℝ

/-- examples/main_paper.py:206-213; `best` is `sampler.incumbent_config`, `none` for None -/
noncomputable def paperRows {β : Type} (inv : Hp ℝ → Val ℝ → ℝ) (order : SpaceOrder ℝ) (best : Py (Option (Config ℝ) × β)) : DT ℝ → List Int → Py (List PaperRow)
  | _, [] => .ok []
  | tree, splits :: rest =>
    match dtPartition tree splits with                                                                    -- 207
    | (_, .error e) => .error e
    | (tree', .ok _) => do
      match ← best with                                                                                   -- 208
      | (none, _) => .error .attribute
      | (some cfg, _) =>
        match ← dtIncumbentRegion tree' cfg with
        | none => .error .attribute
        | some region =>
          let mc ← meanConfidence region                                                                  -- 209
          let implied ← regionImplied tree'.cfg.space region.conds                                        -- 210
          let nll ← negativeLogLikelihood inv tree'.cfg.space tree'.cfg.selected region (trueStyblinskiTang order implied)   -- 211
          let rows ← paperRows inv order best tree' rest
          return ⟨splits, region, implied, mc, nll⟩ :: rows                                               -- 213

/-- what one replication computes -/
structure PaperResult (S : Type) where
  space : ConfigSpace ℝ
  sampler : BOState (Config ℝ) ℝ GpSurrogate S
  /-- nan is written as such -/
  mmd : Py ℝ
  root : Node ℝ
  baseMc : ℝ
  baseNll : ℝ
  rows : List PaperRow

/-- examples/main_paper.py:181-214. `d = 3, 5, 8` with `n = 80, 150, 250`, `initial = 4 d`, `kind = LowerConfidenceBound(tau)`, `nCandidates = 100`,
`name = "x1"`, `perAxis = 20`, `numSplits = 100`, `minPoints = 10` (the defaults of the partitioner), `splits = (1, 3)`. -/
noncomputable def paperScript {S : Type} (i : MainInput S) (uniform : Int → List (Config ℝ)) (d : Nat) (name : String) (kind : AcqKind)
    (n nCandidates : Int) (perAxis numSplits minPoints : Nat) (splits : List Int) : Py (PaperResult S) := do
  let f ← forNDimensions i.order (-5) 5 false styblinskiTangValue (d : ℝ) none none                       -- 181
  let (env, m) ← gpSampler i.choose kind true (4 * d) (f.cs.map Hp.name) i.drawer i.acqDrawer nCandidates -- 183-190
  let start := samplerInit i.ofVec i.file
    { rng := i.rng, model := m, eta := none, fittedHash := none, nextObj := 0, lastFit := none, fits := 0 }
  match boSample (callObjective i.inv f) env start (n + env.initialPoints) with                           -- 191
  | (_, some e) => .error e
  | (sampler, none) =>
    let mmd := maximumMeanDiscrepancy (sampler.configs.map Config.vector)
      ((uniform (n + env.initialPoints)).map Config.vector)                                               -- 193
    match GpSurrogate.new.fit i.choose (sampler.configs.map Config.vector) sampler.ys with                -- 195-196
    | (_, .error e) => .error e
    | (surrogate, .ok _) =>
      let samples ← samplesOf i.iceDraws
      let tree ← dtInit f.cs surrogate.predict (.name name) samples perAxis numSplits minPoints none      -- 198-202
      let baseMc ← meanConfidence tree.root                                                               -- 203
      let baseNll ← negativeLogLikelihood i.inv f.cs tree.cfg.selected tree.root (trueStyblinskiTang i.order f.cs)   -- 204
      let rows ← paperRows i.inv i.order (incumbent true sampler) tree splits                             -- 206-214
      return ⟨f.cs, sampler, mmd, tree.root, baseMc, baseNll, rows⟩

end PyPDP
