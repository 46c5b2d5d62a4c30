/-
Model of examples/main_presentation.py: functions that yield figures one after the other, and the decorator that saves them.

Parameters and simplifications as in Model/Main.lean; in addition `argsort` is `np.argsort`, `randomColor` what `get_random_color` returns, `palette` the
constant `RANDOM_COLORS`. A figure is the list of its axes at the time it is saved. Contract of matplotlib used: `Axes.annotate(text, xy, ...)` has two required
arguments. Left out: legends, `tight_layout`, prints, the limits `set_ylim` of `bo_introduction`.
-/
import Verif.Model.Main2D

namespace PyPDP

/-- what the decorator has saved: the number of figures so far and the files of the folder -/
structure Gallery where
  count : Nat
  files : List (String × List (Ax ℝ))

/-- A generator driven by `save_yielded_plots`: what was yielded before an exception has been saved. -/
def Show (α : Type) := Gallery → Gallery × Py α

/-- examples/main_presentation.py:45: `f"{i:02d}_{fig_name}.png"` -/
def figureFile (i : Nat) (name : String) : String := (if i < 10 then "0" else "") ++ toString i ++ "_" ++ name ++ ".png"

namespace Show
variable {α β : Type}

protected def pure (a : α) : Show α := fun g => (g, .ok a)

protected def bind (p : Show α) (f : α → Show β) : Show β := fun g =>
  match p g with
  | (g', .ok a) => f a g'
  | (g', .error e) => (g', .error e)

instance : Monad Show where
  pure := Show.pure
  bind := Show.bind

/-- a computation that yields nothing -/
def lift (r : Py α) : Show α := fun g => (g, r)

/-- a method that changes its object and may raise -/
def sampled (r : α × Option PyErr) : Show α := fun g =>
  match r with
  | (_, some e) => (g, .error e)
  | (s, none) => (g, .ok s)

/-- a method that changes its object and may raise -/
def changed (r : α × Py β) : Show α := fun g =>
  match r with
  | (_, .error e) => (g, .error e)
  | (s, .ok _) => (g, .ok s)

/-- a plot on an axis -/
def on (p : Plot ℝ Unit) (ax : Ax ℝ) : Show (Ax ℝ) := changed (p ax)

/-- a plot on an axis that changes its object -/
def onWith (r : α × Ax ℝ × Py Unit) : Show (α × Ax ℝ) := changed ((r.1, r.2.1), r.2.2)

/-- examples/main_presentation.py:44-48: a yielded figure is saved under its number and name -/
def figure (name : String) (axes : List (Ax ℝ)) : Show Unit := fun g =>
  (⟨g.count + 1, saveFig g.files (figureFile g.count name) axes⟩, .ok ())

end Show

/-- `ax.annotate(text)`, `ax.annotate(text, xy)`: without the point it is a TypeError -/
def annotate (xy : Option (ℝ × ℝ)) : Py Unit :=
  match xy with
  | none => .error .type
  | some _ => .ok ()

/-- examples/main_presentation.py:224-226; `plot_config_space` draws on the current axis, which is the one just created -/
noncomputable def annotatedLeaves (cs : ConfigSpace ℝ) (palette : List String) : Nat → List (Node ℝ) → Ax ℝ → Show (Ax ℝ)
  | _, [], ax => pure ax
  | k, leaf :: rest, ax => do
    let implied ← Show.lift (regionImplied cs leaf.conds)
    let color ← Show.lift (pyGet palette k)
    let ax ← Show.on (plotConfigSpace implied .none color) ax                                             -- 225
    let _ ← Show.lift (meanConfidence leaf)
    Show.lift (annotate none)                                                                             -- 226
    annotatedLeaves cs palette (k + 1) rest ax

/-- the sampler a run starts with -/
noncomputable def startSampler {S : Type} (i : MainInput S) (m : GpSurrogate) : BOState (Config ℝ) ℝ GpSurrogate S :=
  samplerInit i.ofVec i.file { rng := i.rng, model := m, eta := none, fittedHash := none, nextObj := 0, lastFit := none, fits := 0 }

/-- examples/main_presentation.py:155-236 `algorithm_walkthrough`. `d = 2`, `name = "x1"`, `kind = LowerConfidenceBound()`, `n = 50`, `nCandidates = 100`,
`perPlot = 50`, `perAxis = 20`, `numSplits = 100`, `minPoints = 10`, `depth = 3`. -/
noncomputable def walkthrough {S : Type} (i : MainInput S) (argsort : List ℝ → List Nat) (randomColor : Nat → String) (palette : List String) (d : Nat)
    (name : String) (kind : AcqKind) (n nCandidates : Int) (perPlot perAxis numSplits minPoints : Nat) (depth : Int) : Show Unit := do
  let f ← Show.lift (forNDimensions i.order (-5) 5 false styblinskiTangValue (d : ℝ) none none)           -- 157
  let (env, m) ← Show.lift (gpSampler i.choose kind true (4 * d) (f.cs.map Hp.name) i.drawer i.acqDrawer nCandidates)   -- 169-176
  let first ← Show.sampled (boSample (callObjective i.inv f) env (startSampler i m) env.initialPoints)    -- 178
  let ax ← Show.on (plotFunction (f.call i.inv) f.cs perPlot "black") Ax.new                              -- 179
  Show.figure "Blackboxfunction" [ax]
  let ax ← Show.on (samplerPlot argsort "red" f.cs .none first) ax                                        -- 181
  Show.figure "Sampler" [ax]
  let sampler ← Show.sampled (boSample (callObjective i.inv f) env first n)                               -- 184
  let ax ← Show.on (samplerPlot argsort "red" f.cs .none sampler) ax
  Show.figure "Sampler" [ax]
  let gp ← Show.changed (GpSurrogate.new.fit i.choose (sampler.configs.map Config.vector) sampler.ys)     -- 189-190
  let ax ← Show.on (surrogateMeans "blue" gp.predict f.cs perPlot) Ax.new
  Show.figure "Surrogate_Means" [ax]
  let ax ← Show.on (surrogateConfidences "blue" "lightblue" gp.predict f.cs perPlot) Ax.new
  Show.figure "Surrogate_Confidences" [ax]
  let samples ← Show.lift (samplesOf i.iceDraws)
  let c ← Show.lift (algorithmInit f.cs gp.predict (.name name) samples perAxis)                          -- 200
  let (ice, ax) ← Show.onWith (icePlot "red" (1 / 10) (iceInit c) Ax.new)                                 -- 202
  Show.figure "ICE" [ax]
  let pdp ← Show.lift (pdpFromIce ice)                                                                    -- 206
  let (pdp, ax) ← Show.onWith (pdpPlotValues "black" pdp ax)                                              -- 208
  Show.figure "PDP" [ax]
  let (pdp, ax) ← Show.onWith (pdpPlotConfidences "black" "black" (3 / 2) pdp ax)                         -- 210
  let (pdp, ax) ← Show.onWith (pdpPlotValues "black" pdp ax)
  Show.figure "PDP_with_confidence" [ax]
  let ice ← Show.lift (pdpIce pdp)
  let tree ← Show.lift (dtFromIce ice numSplits minPoints none)                                           -- 216
  let tree ← Show.changed (dtPartition tree depth)                                                        -- 217
  let ax ← Show.on (dtPlot ((List.range tree.leaves.length).map randomColor) (1 / 10) tree) Ax.new        -- 218
  Show.figure "DecisionTreePartitioner" [ax]
  let ax ← Show.on (plotFunction (f.call i.inv) f.cs perPlot "black") Ax.new                              -- 223
  let ax ← annotatedLeaves f.cs palette 0 tree.leaves ax                                                  -- 224-226
  let ax ← Show.on (samplerPlot argsort "red" f.cs .none sampler) ax                                      -- 228
  Show.figure "DT All Regions" [ax]
  let ax ← Show.on (plotFunction (f.call i.inv) f.cs perPlot "black") Ax.new                              -- 233
  let best ← Show.lift (incumbent true sampler)
  let region ← match best with
    | (none, _) => Show.lift (.error .attribute)
    | (some cfg, _) => Show.lift (dtIncumbentRegion tree cfg)                                             -- 234
  match region with
  | none => Show.lift (.error .attribute)
  | some region => do
    let implied ← Show.lift (regionImplied f.cs region.conds)
    let ax ← Show.on (plotConfigSpace implied .none "orange") ax                                          -- 235
    Show.figure "DT Incumbent Region" [ax]

end PyPDP
