/-
Model of examples/main_hpo_bench.py: `svm` and `rf`.

Parameters and simplifications as in Model/MainMeta and Model/HpoBench. The benchmark is called through `benchmarkFn`: with an integer seed its own random state does
not count (C108), so `state` is any state. `arrayDraws` and `matrixDraws` are what `sample_configuration` returned in the two array functions (Model/AdvancedPlots). Not
modelled: titles, layout, `analyze_openml_tasks` (a query of OpenML that the script does not call).
-/
import Verif.Model.MainMeta
import Verif.Model.HpoBench

namespace PyPDP
variable {S σ : Type}

/-- the function that the sampler calls -/
def benchmarkFn (f : HpoBlackbox ℝ σ) (state : σ) : BlackboxFn ℝ := ⟨f.cs, fun c => (f.valueFromConfig c state).2⟩

/-- examples/main_hpo_bench.py:28-36 and 84-93. The local variable `initial_points = 12` is not passed to the sampler, whose default is 5. -/
noncomputable def benchmarkRun (i : MainInput S) (f : BlackboxFn ℝ) : Show (BOState (Config ℝ) ℝ GpSurrogate S × GpSurrogate) := do
  let (env, m) ← Show.lift (gpSampler i.choose (.lcb 1) true 5 (f.cs.map Hp.name) i.drawer i.acqDrawer 100)   -- 32, 89
  let s ← Show.sampled (boSample (callObjective i.inv f) env (startSampler i m) (80 + 12))                 -- 33, 90
  let gp ← Show.changed (GpSurrogate.new.fit i.choose (s.configs.map Config.vector) s.ys)                  -- 35-36, 92-93
  return (s, gp)

/-- examples/main_hpo_bench.py:53-79 and 96-121: the two array functions; `name` is `svm` or `rf` -/
noncomputable def benchmarkArrays (task : Int) (name : String) (gp : GpSurrogate) (cs : ConfigSpace ℝ) (arrayDraws : Nat → Draws (Config ℝ))
    (matrixDraws : Hp ℝ → Hp ℝ → Draws (Config ℝ)) : Show Unit := do
  let axes ← Show.changed (hyperparameterArray1D gp.predict cs 50 arrayDraws)
  Show.save (toString task ++ "_" ++ name ++ "_hyperparameters_1D") axes
  let (mean, std) ← showMatrix (hyperparameterArray2D gp.predict cs 50 matrixDraws)
  Show.save (toString task ++ "_" ++ name ++ "_hyperparameters_2D_mean") mean.flatten
  Show.save (toString task ++ "_" ++ name ++ "_hyperparameters_2D_std") std.flatten

/-- examples/main_hpo_bench.py:27-80 `svm`; `f` is what `get_SVMBenchmarkMF` returned -/
noncomputable def svmScript (i : MainInput S) (argsort : List ℝ → List Nat) (f : HpoBlackbox ℝ σ) (state : σ) (task : Int) (arrayDraws : Nat → Draws (Config ℝ))
    (matrixDraws : Hp ℝ → Hp ℝ → Draws (Config ℝ)) : Show (BOState (Config ℝ) ℝ GpSurrogate S × GpSurrogate) := do
  let (s, gp) ← benchmarkRun i (benchmarkFn f state)
  let ax ← Show.on (surrogateMeans "blue" gp.predict f.cs 100) Ax.new                                      -- 40
  let ax ← Show.on (samplerPlot argsort "red" f.cs .none s) ax                                             -- 41
  Show.save (toString task ++ "_svm_mean") [ax]                                                            -- 43
  let ax ← Show.on (surrogateConfidences "blue" "lightblue" gp.predict f.cs 100) Ax.new                    -- 47
  let ax ← Show.on (samplerPlot argsort "red" f.cs .none s) ax                                             -- 48
  Show.save (toString task ++ "_svm_confidence") [ax]                                                      -- 50
  benchmarkArrays task "svm" gp f.cs arrayDraws matrixDraws
  return (s, gp)

/-- examples/main_hpo_bench.py:83-122 `rf`; `f` is what `get_RFBenchmarkMF` returned -/
noncomputable def rfScript (i : MainInput S) (f : HpoBlackbox ℝ σ) (state : σ) (task : Int) (arrayDraws : Nat → Draws (Config ℝ))
    (matrixDraws : Hp ℝ → Hp ℝ → Draws (Config ℝ)) : Show (BOState (Config ℝ) ℝ GpSurrogate S × GpSurrogate) := do
  let (s, gp) ← benchmarkRun i (benchmarkFn f state)
  benchmarkArrays task "rf" gp f.cs arrayDraws matrixDraws
  return (s, gp)

end PyPDP
