/-
Model of `figure_1_3`, `figure_2` and `figure_4` of examples/main_paper.py for the default function (the two-dimensional Styblinski-Tang function).

Parameters as in Model/Main, for `figure_1_3` once for every sampler; a figure is the list of its axes when it is saved. `plt.subplots(1, n)` returns an array of
axes for `n ≥ 2`, a bare axis (which is no sequence) for `n = 1`, and raises a ValueError for `n = 0`. Left out: titles, legends, the sharing of limits between
the axes of one figure (all axes get the same horizontal limits anyway), sizes, showing the figures.
-/
import Verif.Model.MainMeta
import Verif.Model.MainIntroduction

namespace PyPDP
variable {S : Type}

/-- a sampler in the dictionary `samplers` -/
inductive PaperSampler
  | bayes (kind : AcqKind)
  | random

/-- `sampler.sample(n)` for a new sampler with the default of 5 initial points: the sampler afterwards, without what its class adds -/
noncomputable def paperSample (f : BlackboxFn ℝ) (nCandidates n : Int) (i : MainInput S) : PaperSampler → Py (SamplerState (Config ℝ) ℝ Unit)
  | .bayes kind => do
    let (env, m) ← gpSampler i.choose kind true 5 (f.cs.map Hp.name) i.drawer i.acqDrawer nCandidates
    match boSample (callObjective i.inv f) env (startSampler i m) n with
    | (_, some e) => .error e
    | (s, none) => .ok ⟨s.configs, s.ys, s.cache, s.calls, ()⟩
  | .random =>
    match sampleWith (randomSample (callObjective i.inv f) i.drawer) (samplerInit i.ofVec i.file i.rng) n with
    | (_, some e) => .error e
    | (s, none) => .ok ⟨s.configs, s.ys, s.cache, s.calls, ()⟩

/-- examples/main_paper.py:68-87: what is drawn for one sampler. `nCandidates = 100`, `perPlot = 200`, `perAxis = 20`. -/
noncomputable def biasPanel (argsort : List ℝ → List Nat) (f truth : BlackboxFn ℝ) (nCandidates n : Int) (perPlot perAxis : Nat) (x : MainInput S × PaperSampler) :
    Show (Ax ℝ × Ax ℝ) := do
  let s ← Show.lift (paperSample f nCandidates n x.1 x.2)                                                 -- 72
  let gp ← Show.changed (GpSurrogate.new.fit x.1.choose (s.configs.map Config.vector) s.ys)               -- 73-74
  let samples ← Show.lift (samplesOf x.1.iceDraws)
  let pdp ← Show.lift (pdpInit f.cs gp.predict (.name "x1") samples perAxis)                              -- 75
  let ax1 ← Show.on (plotFunction (f.call x.1.inv) f.cs perPlot "black") Ax.new                           -- 78
  let ax1 ← Show.on (samplerPlot argsort "red" f.cs .none s) ax1                                          -- 79
  let ax3 ← Show.on (plotFunction (truth.call x.1.inv) truth.cs perPlot "black") Ax.new                   -- 83
  let (pdp, ax3) ← Show.onWith (pdpPlotValues "blue" pdp ax3)                                             -- 84
  let (_, ax3) ← Show.onWith (pdpPlotConfidences "lightblue" "lightsalmon" (3 / 2) pdp ax3)               -- 85
  return (ax1, ax3)

/-- examples/main_paper.py:68-87: the loop -/
noncomputable def biasPanels (argsort : List ℝ → List Nat) (f truth : BlackboxFn ℝ) (nCandidates n : Int) (perPlot perAxis : Nat) :
    List (MainInput S × PaperSampler) → Show (List (Ax ℝ × Ax ℝ))
  | [] => pure []
  | x :: rest => do
    let p ← biasPanel argsort f truth nCandidates n perPlot perAxis x
    let ps ← biasPanels argsort f truth nCandidates n perPlot perAxis rest
    return p :: ps

/-- `zip(..., plt.subplots(1, n)[1])` -/
def subplotsRow (n : Nat) : Py Unit := if n = 0 then .error .value else if n = 1 then .error .type else .ok ()

/-- examples/main_paper.py:38-91 `figure_1_3`; `n = 50` -/
noncomputable def figure13 (order : SpaceOrder ℝ) (argsort : List ℝ → List Nat) (samplers : List (MainInput S × PaperSampler)) (nCandidates n : Int)
    (perPlot perAxis : Nat) : Show Unit := do
  let f ← Show.lift (forNDimensions order (-5) 5 false styblinskiTangValue ((2 : Nat) : ℝ) none none)     -- 38
  let (truth, _) ← Show.lift (styblinskiTangPdIntegral order f.cs [.name "x2"])                           -- 63
  Show.lift (subplotsRow samplers.length)                                                                 -- 66-68
  let panels ← biasPanels argsort f truth nCandidates n perPlot perAxis samplers
  Show.save "Figure 1.png" (panels.map (·.1))                                                             -- 89
  Show.save "Figure 3.png" (panels.map (·.2))                                                             -- 90

/-- the samplers of lines 44-61, in the order of the dictionary -/
noncomputable def defaultSamplers (a b c : MainInput S) : List (MainInput S × PaperSampler) :=
  [(a, .bayes (.lcb (1 / 10))), (b, .bayes (.lcb 2)), (c, .random)]

/-- examples/main_paper.py:127-130, 133-136: one ICE curve beside the function it estimates, and its place in the large axis -/
noncomputable def icePanel (f : BlackboxFn ℝ) (inv : Hp ℝ → Val ℝ → ℝ) (perPlot : Nat) (lineColor gradientColor : String) (curve : IceCurve ℝ) (large : Ax ℝ) :
    Show (Ax ℝ × Ax ℝ) := do
  let implied ← Show.lift (impliedConfigSpace curve)
  let ax ← Show.on (plotFunction (f.call inv) implied perPlot "black") (Ax.new.setYlim (-75, 150))
  let ax ← Show.on (curveValues "red" curve) ax
  let ax ← Show.on (curveConfidences lineColor gradientColor (3 / 2) curve) ax
  let large ← Show.on (plotConfigSpace implied .none lineColor) large
  return (large, ax)

/-- examples/main_paper.py:94-141 `figure_2`; `kind = LowerConfidenceBound(0.1)`, `n = 40`, `nCandidates = 100`, `perLarge = 200`, `perPlot = 100`, `perAxis = 20`,
`first = 0`, `second = 20` -/
noncomputable def figure2 (i : MainInput S) (argsort : List ℝ → List Nat) (kind : AcqKind) (n nCandidates : Int) (perLarge perPlot perAxis : Nat)
    (first second : Int) : Show (BOState (Config ℝ) ℝ GpSurrogate S) := do
  let f ← Show.lift (forNDimensions i.order (-5) 5 false styblinskiTangValue ((2 : Nat) : ℝ) none none)   -- 94
  let (env, m) ← Show.lift (gpSampler i.choose kind true 5 (f.cs.map Hp.name) i.drawer i.acqDrawer nCandidates)   -- 96-101
  let large ← Show.on (plotFunction (f.call i.inv) f.cs perLarge "black") Ax.new                          -- 116
  let s ← Show.sampled (boSample (callObjective i.inv f) env (startSampler i m) n)                        -- 117
  let large ← Show.on (samplerPlot argsort "red" f.cs .none s) large                                      -- 118
  let c ← Show.lift (algorithmInit f.cs s.extra.model.predict (.name "x1") (s.configs.map Config.vector) perAxis)   -- 121
  let curve1 ← Show.lift (iceGet (iceInit c) first).2                                                     -- 122
  let curve2 ← Show.lift (iceGet (iceGet (iceInit c) first).1 second).2                                   -- 123
  let (large, ax1) ← icePanel f i.inv perPlot "red" "lightsalmon" curve1 large                            -- 126-129
  let (large, ax2) ← icePanel f i.inv perPlot "green" "lightgreen" curve2 large                           -- 132-135
  Show.save "Figure 2.png" [large, ax1, ax2]                                                              -- 140
  return s

/-- what `figure_4` computes -/
structure Figure4 where
  tree : DT ℝ
  left : Node ℝ
  right : Node ℝ

/-- examples/main_paper.py:144-161 `figure_4`; `kind = LowerConfidenceBound(0.1)`, `n = 50`, `nCandidates = 100`, `perAxis = 20`, `numSplits = 100`, `minPoints = 10`.
`left` and `right` are the regions that the code calls `left_region` and `right_region`. -/
noncomputable def figure4 (i : MainInput S) (kind : AcqKind) (n nCandidates : Int) (perAxis numSplits minPoints : Nat) : Show Figure4 := do
  let f ← Show.lift (forNDimensions i.order (-5) 5 false styblinskiTangValue ((2 : Nat) : ℝ) none none)   -- 144
  let (env, m) ← Show.lift (gpSampler i.choose kind true (2 * 4) (f.cs.map Hp.name) i.drawer i.acqDrawer nCandidates)   -- 147
  let s ← Show.sampled (boSample (callObjective i.inv f) env (startSampler i m) n)                        -- 148
  let gp ← Show.changed (GpSurrogate.new.fit i.choose (s.configs.map Config.vector) s.ys)                 -- 150-151
  let samples ← Show.lift (samplesOf i.iceDraws)
  let tree ← Show.lift (dtInit f.cs gp.predict (.name "x1") samples perAxis numSplits minPoints none)     -- 153
  let tree ← Show.changed (dtPartition tree 1)                                                            -- 154
  match tree.leaves with
  | [left, right] => do                                                                                   -- 156
    let ax ← Show.on (regionPlot "green" (1 / 10) f.cs tree.cfg.selected tree.cfg.numGrid left) Ax.new    -- 158
    let ax ← Show.on (regionPlot "blue" (1 / 10) f.cs tree.cfg.selected tree.cfg.numGrid right) ax        -- 159
    Show.save "Figure 4.png" [ax]                                                                         -- 160
    return ⟨tree, left, right⟩
  | _ => Show.lift (.error .assertion)                                                                    -- 155

end PyPDP
