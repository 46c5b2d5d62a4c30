/-
Model of `plot_sampling_bias` of examples/main_sampler_analysis.py for the default function (the Styblinski-Tang function).

Parameters: for every sampler and every repetition what is random or chosen by a library: as in Model/Main, and the shuffled grid and the uniform draws of
`maximum_mean_discrepancy`. The two places of the figure in one column are a pair of axes. Left out: the texts of the titles (their two numbers are `mmd`), the
sharing of limits between the axes of one figure, sizes, the progress bar, showing the figure.
-/
import Verif.Model.PaperFigures
import Verif.Model.MMD
import Verif.Model.Bayes

namespace PyPDP
variable {S : Type}

/-- a value of the dictionary `sampler_factories` -/
inductive BiasSampler
  | bayes (kind : AcqKind)
  | random
  | grid

/-- one repetition with one sampler -/
structure BiasInput (S : Type) where
  main : MainInput S
  shuffle : List (Config ℝ) → List (Config ℝ)
  uniform : Draws (Config ℝ)

/-- the place of a value in the range of a hyperparameter (without `log`) -/
noncomputable def unitValue (hp : Hp ℝ) (v : Val ℝ) : ℝ :=
  match hp.kind, v with
  | .float l u false, .num x => (x - l) / (u - l)
  | _, _ => 0

/-- the configuration with the given values of a space of floats without `log` -/
noncomputable def valuesConfig (cs : ConfigSpace ℝ) (vs : List (Val ℝ)) : Config ℝ := ⟨List.zipWith unitValue cs vs, List.zip (cs.map Hp.name) vs⟩

/-- ConfigSpace's `generate_grid` with the same number of steps for all axes -/
noncomputable def gridConfigs (cs : ConfigSpace ℝ) (k : Nat) : List (Config ℝ) := (generateGrid (fun _ _ => []) cs k).map (valuesConfig cs)

open Classical in
/-- examples/main_sampler_analysis.py:49-85, 103-105: `sampler.sample(n)` for a new sampler: the sampler afterwards, without what its class adds. The grid
sampler computes its root exactly (which floating-point numbers do for up to four dimensions, see C136). -/
noncomputable def biasSample (f : BlackboxFn ℝ) (initial nCandidates n : Int) (i : BiasInput S) : BiasSampler → Py (SamplerState (Config ℝ) ℝ Unit)
  | .bayes kind => do
    let (env, m) ← gpSampler i.main.choose kind true initial (f.cs.map Hp.name) i.main.drawer i.main.acqDrawer nCandidates
    match boSample (callObjective i.main.inv f) env (startSampler i.main m) n with
    | (_, some e) => .error e
    | (s, none) => .ok ⟨s.configs, s.ys, s.cache, s.calls, ()⟩
  | .random =>
    match sampleWith (randomSample (callObjective i.main.inv f) i.main.drawer) (samplerInit i.main.ofVec i.main.file i.main.rng) n with
    | (_, some e) => .error e
    | (s, none) => .ok ⟨s.configs, s.ys, s.cache, s.calls, ()⟩
  | .grid =>
    match gridSampler (callObjective i.main.inv f) ⟨f.cs.length, ceilRoot f.cs.length, gridConfigs f.cs, fun (_ : Unit) l => (i.shuffle l, ())⟩
      (samplerInit i.main.ofVec i.main.file ⟨none, ()⟩) n with
    | (_, some e) => .error e
    | (s, none) => .ok ⟨s.configs, s.ys, s.cache, s.calls, ()⟩

/-- what is kept of one repetition: `X` and `y` of the sampler, the surrogate, `x_pdp`, `y_pdp` and `y_variances`, the discrepancy (the value nan is `.error .nan`, nothing
is raised) -/
structure BiasRun where
  configs : List (Config ℝ)
  ys : List ℝ
  surrogate : GpSurrogate
  curve : IceCurve ℝ
  mmd : Py ℝ

/-- examples/main_sampler_analysis.py:99-115: one repetition. `initial = 4 d`, `nCandidates = 100`, `perAxis = 50`. -/
noncomputable def biasRun (order : SpaceOrder ℝ) (d : Nat) (nCandidates n : Int) (perAxis : Nat) (kind : BiasSampler) (i : BiasInput S) : Py BiasRun := do
  let f ← forNDimensions order (-5) 5 false styblinskiTangValue (d : ℝ) none none                         -- 100-101
  let s ← biasSample f (4 * d) nCandidates n i kind                                                       -- 103-105
  match GpSurrogate.new.fit i.main.choose (s.configs.map Config.vector) s.ys with                         -- 106-107
  | (_, .error e) => .error e
  | (gp, .ok _) =>
    let samples ← samplesOf i.main.iceDraws
    let pdp ← pdpInit f.cs gp.predict (.many [.name "x1"]) samples perAxis                                -- 108-111
    let curve ← (pdpCurve pdp).2                                                                          -- 112-114
    let uniform ← samplesOf i.uniform
    return ⟨s.configs, s.ys, gp, curve, maximumMeanDiscrepancy (s.configs.map Config.vector) uniform⟩     -- 115

/-- `np.mean` and `np.std` of the discrepancies; `none` if one of them is nan -/
noncomputable def titleNumbers (mmds : List (Py ℝ)) : Option (ℝ × ℝ) :=
  match mmds.mapM id with
  | .ok l => some (npMean l, npStd l)
  | .error _ => none

/-- one column of the figure -/
structure BiasColumn where
  runs : List BiasRun
  top : Ax ℝ
  bottom : Ax ℝ
  mmd : Option (ℝ × ℝ)

/-- examples/main_sampler_analysis.py:93-153: one sampler. `single`: it is the only one, so `axes.T` has a single axis for it. With no repetition `arr_x` is a list, which has
no attribute `shape`. `perPlot = 200`. -/
noncomputable def biasColumn (order : SpaceOrder ℝ) (inv : Hp ℝ → Val ℝ → ℝ) (d : Nat) (nCandidates n : Int) (perAxis perPlot : Nat) (single : Bool) (f : BlackboxFn ℝ)
    (x : BiasSampler × List (BiasInput S)) : Show BiasColumn := do
  let runs ← Show.lift (x.2.mapM (biasRun order d nCandidates n perAxis x.1))                             -- 98-115
  if single then Show.lift (.error .type)                                                                 -- 120
  else
    match runs.getLast? with
    | none => Show.lift (.error .attribute)                                                               -- 134
    | some last =>
      let means ← Show.lift (meanRows (runs.map fun r => r.curve.y))                                      -- 117
      let variances ← Show.lift (meanRows (runs.map fun r => r.curve.v))                                  -- 118
      let selected ← Show.lift (convertHyperparameters (.many [.name "x1"]) f.cs)
      let curve : IceCurve ℝ := ⟨f.cs, selected, last.curve.x, means, variances⟩                          -- 126-133
      let top ← Show.on (curveValues "blue" curve) Ax.new                                                 -- 134
      let top ← Show.on (curveConfidences "blue" "lightblue" 3 curve) top                                 -- 135-140
      let others := (f.cs.filter fun hp => hp.name ≠ "x1").map fun hp => SelItem.name hp.name
      let (truth, _) ← Show.lift (styblinskiTangPdIntegral order f.cs others)                             -- 142
      let top ← Show.on (plotFunction (truth.call inv) truth.cs perPlot "black") top                      -- 143
      let ranges ← Show.lift (getUniformDistributedRanges selected variances.length false)                -- 146-149
      let xs ← Show.lift (pyGet ranges 0)
      let bottom ← Show.on (plotLine "" xs (variances.map Real.sqrt)) Ax.new                              -- 150
      return ⟨runs, top, { bottom with ylabel := "Std" }, titleNumbers (runs.map BiasRun.mmd)⟩            -- 152-153

/-- examples/main_sampler_analysis.py:92-153: the loop over the samplers -/
noncomputable def biasColumns (order : SpaceOrder ℝ) (inv : Hp ℝ → Val ℝ → ℝ) (d : Nat) (nCandidates n : Int) (perAxis perPlot : Nat) (single : Bool) (f : BlackboxFn ℝ) :
    List (BiasSampler × List (BiasInput S)) → Show (List BiasColumn)
  | [] => pure []
  | x :: rest => do
    let c ← biasColumn order inv d nCandidates n perAxis perPlot single f x
    let cs ← biasColumns order inv d nCandidates n perAxis perPlot single f rest
    return c :: cs

/-- examples/main_sampler_analysis.py:30-157 `plot_sampling_bias`. `d = 2`, `points = 56`. `plt.subplots(2, 0)` raises a ValueError. The saved axes: the upper row, then the
lower row. -/
noncomputable def samplingBias (order : SpaceOrder ℝ) (inv : Hp ℝ → Val ℝ → ℝ) (figureName : String) (d : Nat) (points nCandidates : Int) (perAxis perPlot : Nat)
    (samplers : List (BiasSampler × List (BiasInput S))) : Show (List BiasColumn) := do
  let f ← Show.lift (forNDimensions order (-5) 5 false styblinskiTangValue (d : ℝ) none none)             -- 46
  if samplers.length = 0 then Show.lift (.error .value)                                                   -- 90
  else
    let columns ← biasColumns order inv d nCandidates (points + 4 * d) perAxis perPlot (samplers.length == 1) f samplers
    Show.save figureName (columns.map BiasColumn.top ++ columns.map BiasColumn.bottom)                    -- 156
    return columns

/-- examples/main_sampler_analysis.py:49-85: the default samplers, each with the same number of repetitions -/
noncomputable def defaultBias (a b c r g : List (BiasInput S)) : List (BiasSampler × List (BiasInput S)) :=
  [(.bayes (.lcb (1 / 10)), a), (.bayes (.lcb 2), b), (.bayes (.lcb 5), c), (.random, r), (.grid, g)]

end PyPDP
