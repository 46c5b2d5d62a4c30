/-
Model of pyplot's figures and of the argument `ax` of the plotting functions (pyPDP/utils/plotting.py 15-38 and the callers of `get_ax`).

The functions of Model/Plotting, Model/Plots and Model/AcquisitionPlot get one axis. Here the axes are objects: they are numbered in the order
of their creation, every plotting function gets `None`, an axis or something else for `ax`, resolves it with `get_ax` and hands on what the code
hands on. Contracts of matplotlib used: `plt.gcf()` is the current figure and makes one if there is none, `fig.gca()` the current axis of the
figure, which it makes if there is none; `plt.figure()` makes a new current figure, `fig.add_subplot` a new current axis of the figure; methods of an
axis change neither.

Colours: `mc.to_rgb` of a valid colour only rewrites it, invalid colours are not modelled. `np.random.uniform(size=3)` draws three numbers from the
global generator of numpy (`draw`).
Not modelled: `plt.close`, `plt.clf`, layouts, the sizes of figures.
-/
import Verif.Model.AdvancedPlots
import Mathlib.Logic.Function.Basic

namespace PyPDP

/-- a `plt.Figure`: the numbers of its axes, and which one is current -/
structure Figure where
  axes : List Nat
  current : Option Nat
  deriving DecidableEq, Repr

/-- The state of pyplot: the axes made so far are those with a number below `count`; `current` is the position of the current figure. -/
structure Plt (K : Type) where
  axes : Nat → Ax K
  count : Nat
  figures : List Figure
  current : Option Nat

/-- before anything was plotted -/
def Plt.new {K : Type} : Plt K := ⟨fun _ => Ax.new, 0, [], none⟩

/-- the argument `ax`: None, an axis, or an object that is not an axis (such as the array of axes `plt.subplots` returns) -/
inductive AxArg
  | none
  | axis (r : Nat)
  | other
  deriving DecidableEq, Repr

/-- A function that works on pyplot. -/
def Sess (K α : Type) := Plt K → Plt K × Py α

namespace Sess
variable {K α β : Type}

protected def pure (a : α) : Sess K α := fun w => (w, .ok a)

protected def bind (p : Sess K α) (f : α → Sess K β) : Sess K β := fun w =>
  match p w with
  | (w', .ok a) => f a w'
  | (w', .error e) => (w', .error e)

instance : Monad (Sess K) where
  pure := Sess.pure
  bind := Sess.bind

/-- a computation that does not touch pyplot -/
def lift (r : Py α) : Sess K α := fun w => (w, r)

/-- raise an exception -/
def raise (e : PyErr) : Sess K α := fun w => (w, .error e)

/-- methods of the axis number `r` -/
def onAx (r : Nat) (p : Plot K α) : Sess K α := fun w =>
  ({ w with axes := Function.update w.axes r (p (w.axes r)).1 }, (p (w.axes r)).2)

end Sess

open Sess

section pyplot
variable {K : Type}

/-- `plt.figure()` -/
def newFigure : Sess K Nat := fun w =>
  ({ w with figures := w.figures ++ [⟨[], none⟩], current := some w.figures.length }, .ok w.figures.length)

/-- `plt.gcf()`: the position of the current figure -/
def gcf : Sess K Nat := fun w =>
  match w.current with
  | some i => (w, .ok i)
  | none => newFigure w

/-- `fig.add_subplot(...)` -/
def addSubplot (i : Nat) : Sess K Nat := fun w =>
  ({ w with
      axes := Function.update w.axes w.count Ax.new
      count := w.count + 1
      figures := w.figures.modify i fun f => ⟨f.axes ++ [w.count], some w.count⟩ }, .ok w.count)

/-- `fig.gca()` -/
def figGca (i : Nat) : Sess K Nat := fun w =>
  match (w.figures[i]?).bind Figure.current with
  | some r => (w, .ok r)
  | none => addSubplot i w

/-- utils/plotting.py:28-38 `get_ax` -/
def getAx : AxArg → Sess K Nat
  | .none => do
    let fig ← gcf                                     -- 33
    figGca fig                                        -- 35
  | .axis r => pure r                                 -- 38
  | .other => raise .assertion                        -- 37

end pyplot

/-! ### the helpers of utils/plotting.py -/

section helpers
variable {K : Type} [Field K] [LinearOrder K]

/-- utils/plotting.py:168-176 `plot_line` -/
def plotLineS (color : String) (x y : List K) (a : AxArg) : Sess K Unit := do
  let ax ← getAx a
  onAx ax (drawLine color 1 x y)

/-- utils/plotting.py:233-246 `plot_2D` -/
def plot2DS (xs ys vs : List K) (a : AxArg) : Sess K Unit := do
  let ax ← getAx a
  onAx ax (plot2D xs ys vs)

/-- utils/plotting.py:249-300 `plot_config_space` -/
def plotConfigSpaceS {K : Type} (cs : ConfigSpace K) (sel : Selection K) (color : String) (a : AxArg) : Sess K Unit := do
  let ax ← getAx a
  let hps ← lift (getHyperparameters sel cs)
  onAx ax (checkAndSetAxis hps false)
  onAx ax (drawSpace color hps)

end helpers

/-- utils/plotting.py:128-165 `plot_function` -/
noncomputable def plotFunctionS (f : List (String × Val ℝ) → Py ℝ) (cs : ConfigSpace ℝ) (samplesPerAxis : Nat) (color : String) (a : AxArg) :
    Sess ℝ Unit := do
  let ax ← getAx a
  if 2 < (parametersOf cs).length then raise .value
  else if (parametersOf cs).length = 0 then raise .value
  else do
    let ranges ← lift (getUniformDistributedRanges (parametersOf cs) samplesPerAxis false)
    onAx ax (checkAndSetAxis (parametersOf cs))
    onAx ax (plotValues f (constantsOf cs) color ranges (parametersOf cs))

/-- utils/plotting.py:179-201 `plot_1D_confidence_color_gradients` -/
noncomputable def confidenceGradientsS (x means : List ℝ) (stds variances : Option (List ℝ)) (color : String) (steps : Int) (maxSigma : ℝ)
    (a : AxArg) : Sess ℝ Unit := do
  let ax ← getAx a
  let s ← lift (getStds stds variances)
  onAx ax (bandLoop color steps.toNat maxSigma x means s 0 steps.toNat)

/-- utils/plotting.py:204-230 `plot_1D_confidence_lines`: the standard deviations come before the axis -/
noncomputable def confidenceLinesS (x means : List ℝ) (stds variances : Option (List ℝ)) (color : String) (ks : KSigmas ℝ) (a : AxArg) :
    Sess ℝ Unit := do
  let s ← lift (getStds stds variances)                                             -- 214
  let ax ← getAx a                                                                  -- 215
  onAx ax (muLine color x means ks.hasZero)
  onAx ax (sigmaLoop color x means s (ks.rest.mergeSort fun a b => decide (a ≤ b)))

/-! ### single curves -/

section curve
variable {K : Type} [Field K] [LinearOrder K] [Transc K]

/-- ice.py:48-60 -/
def drawValuesS (color : String) (rows : List (List (Val K))) (vals : List K) (idx : List Nat) (ax : Nat) : List (Hp K) → Sess K Unit
  | [_] => do
    let i ← lift (pyGet idx 0)
    let x ← lift (numberColumn i rows)
    plotLineS color x vals (.axis ax)                                               -- 52
  | [_, _] => do
    let i ← lift (pyGet idx 0)
    let j ← lift (pyGet idx 1)
    let x ← lift (numberColumn i rows)
    let y ← lift (numberColumn j rows)
    plot2DS x y vals (.axis ax)                                                     -- 57
  | _ => raise .notImplemented

/-- ice.py:39-60 `ICECurve.plot_values` -/
def curveValuesS (color : String) (c : IceCurve K) (a : AxArg) : Sess K Unit := do
  let ax ← getAx a
  onAx ax (checkAndSetAxis c.selected)
  let idx ← lift (getSelectedIdx c.selected c.space)
  let rows ← lift (curvePoints c)
  drawValuesS color rows c.y idx ax c.selected

/-- ice.py:62-95 `ICECurve.plot_incumbent` -/
def curveIncumbentS (color : String) (c : IceCurve K) (a : AxArg) : Sess K Unit := do
  let ax ← getAx a
  onAx ax (checkAndSetAxis c.selected)
  let idx ← lift (getSelectedIdx c.selected c.space)
  let rows ← lift (curvePoints c)
  let m ← lift (argmin c.y)
  onAx ax (drawIncumbent color rows m idx c.selected)

end curve

/-- ice.py:108-137 -/
noncomputable def drawConfidencesS (lineColor gradientColor : String) (maxSigma : ℝ) (rows : List (List (Val ℝ))) (y sigmas : List ℝ)
    (idx : List Nat) (ax : Nat) : List (Hp ℝ) → Sess ℝ Unit
  | [_] => do
    let i ← lift (pyGet idx 0)
    let x ← lift (numberColumn i rows)
    confidenceGradientsS x y (some sigmas) none gradientColor 100 maxSigma (.axis ax)     -- 113-120
    confidenceLinesS x y (some sigmas) none lineColor (.seq [1, 2]) (.axis ax)            -- 121-129
  | [_, _] => do
    let i ← lift (pyGet idx 0)
    let j ← lift (pyGet idx 1)
    let x ← lift (numberColumn i rows)
    let y ← lift (numberColumn j rows)
    plot2DS x y sigmas (.axis ax)                                                         -- 134
  | _ => raise .notImplemented

/-- ice.py:97-137 `ICECurve.plot_confidences` -/
noncomputable def curveConfidencesS (lineColor gradientColor : String) (maxSigma : ℝ) (c : IceCurve ℝ) (a : AxArg) : Sess ℝ Unit := do
  let ax ← getAx a
  onAx ax (checkAndSetAxis c.selected)
  let idx ← lift (getSelectedIdx c.selected c.space)
  let rows ← lift (curvePoints c)
  drawConfidencesS lineColor gradientColor maxSigma rows c.y (c.v.map Real.sqrt) idx ax c.selected

/-! ### ICE, PDP, regions -/

section families
variable {K : Type} [Field K] [LinearOrder K] [Transc K]

/-- ice.py:259-277 `ICE.plot`: everything is done on the resolved axis -/
def icePlotS (color : String) (alpha : K) (s : IceState K) (a : AxArg) (w : Plt K) : IceState K × Plt K × Py Unit :=
  match getAx a w with
  | (w1, .error e) => (s, w1, .error e)
  | (w1, .ok ax) =>
    let (s', ax', r) := icePlot color alpha s (w1.axes ax)
    (s', { w1 with axes := Function.update w1.axes ax ax' }, r)

/-- pdp.py:80-83 `PDP.plot_values`: the curve comes before the axis -/
def pdpPlotValuesS (color : String) (s : PdpState K) (a : AxArg) (w : Plt K) : PdpState K × Plt K × Py Unit :=
  match pdpCurve s with
  | (s', .error e) => (s', w, .error e)
  | (s', .ok c) => (s', curveValuesS color c a w)

/-- pdp.py:85-95 `PDP.plot_confidences` -/
noncomputable def pdpPlotConfidencesS (lineColor gradientColor : String) (maxSigma : ℝ) (s : PdpState ℝ) (a : AxArg) (w : Plt ℝ) :
    PdpState ℝ × Plt ℝ × Py Unit :=
  match pdpCurve s with
  | (s', .error e) => (s', w, .error e)
  | (s', .ok c) => (s', curveConfidencesS lineColor gradientColor maxSigma c a w)

/-- partitioner/__init__.py:116-117 `Region.plot_values` -/
def regionPlotValuesS (color : String) (cs : ConfigSpace K) (selected : List (Hp K)) (n : Node K) (a : AxArg) : Sess K Unit := do
  let c ← lift (regionPdp cs selected n)
  curveValuesS color c a

/-- partitioner/__init__.py:119-128 `Region.plot_confidences` -/
noncomputable def regionPlotConfidencesS (lineColor gradientColor : String) (maxSigma : ℝ) (cs : ConfigSpace ℝ) (selected : List (Hp ℝ))
    (n : Node ℝ) (a : AxArg) : Sess ℝ Unit := do
  let c ← lift (regionPdp cs selected n)
  curveConfidencesS lineColor gradientColor maxSigma c a

/-- decision_tree_partitioner.py:171-190 `DTRegion.plot` -/
def regionPlotS (color : String) (alpha : K) (cs : ConfigSpace K) (selected : List (Hp K)) (P : Nat) (n : Node K) (a : AxArg) : Sess K Unit := do
  let ax ← getAx a
  onAx ax (checkAndSetAxis selected)
  onAx ax (drawRegion color alpha cs P n selected)

/-- utils/plotting.py:23-25 `get_random_color`, `n` times; `draw` is `np.random.uniform()` of the global generator, `name` makes a colour of three
numbers -/
def randomColors {G : Type} (draw : G → K × G) (name : K → K → K → String) : Nat → G → List String × G
  | 0, g => ([], g)
  | n + 1, g =>
    let (r, g1) := draw g
    let (gr, g2) := draw g1
    let (b, g3) := draw g2
    let (cs, g4) := randomColors draw name n g3
    (name r gr b :: cs, g4)

/-- decision_tree_partitioner.py:319-320, random_forest_partitioner.py:140-141: a colour list that was not passed is drawn -/
def resolveColors {G : Type} (draw : G → K × G) (name : K → K → K → String) (n : Nat) (colors : Option (List String)) (g : G) : List String × G :=
  match colors with
  | some cs => (cs, g)
  | none => randomColors draw name n g

/-- decision_tree_partitioner.py:323-324 -/
def leafLoopS (alpha : K) (cs : ConfigSpace K) (selected : List (Hp K)) (P : Nat) (colors : List String) (ax : Nat) :
    Nat → List (Node K) → Sess K Unit
  | _, [] => pure ()
  | i, leaf :: rest => do
    let color ← lift (pyGet colors i)
    regionPlotS color alpha cs selected P leaf (.axis ax)                           -- 324
    leafLoopS alpha cs selected P colors ax (i + 1) rest

/-- decision_tree_partitioner.py:312-324 `DecisionTreePartitioner.plot`; `g` is the state of the global generator -/
def dtPlotS {G : Type} (draw : G → K × G) (name : K → K → K → String) (colors : Option (List String)) (alpha : K) (p : DT K) (a : AxArg) (g : G)
    (w : Plt K) : G × Plt K × Py Unit :=
  match getAx a w with
  | (w1, .error e) => (g, w1, .error e)
  | (w1, .ok ax) =>
    if p.leaves.length = 0 then (g, w1, .error .assertion)                          -- 317
    else
      let (cols, g') := resolveColors draw name p.leaves.length colors g            -- 319-320
      if cols.length ≠ p.leaves.length then (g', w1, .error .assertion)             -- 321
      else (g', leafLoopS alpha p.cfg.space p.cfg.selected p.cfg.numGrid cols ax 0 p.leaves w1)

/-- decision_tree_partitioner.py:326-337 `plot_incumbent_cs` -/
def dtPlotIncumbentS (color : String) (incumbent : Config K) (p : DT K) (a : AxArg) : Sess K Unit := do
  let ax ← getAx a
  let region ← lift (dtIncumbentRegion p incumbent)
  let leaf ← lift (match region with
    | some n => .ok n
    | none => .error .attribute)
  let cs ← lift (regionImplied p.cfg.space leaf.conds)
  plotConfigSpaceS cs (.many ((otherHps cs p.cfg.selected).map .hp)) color (.axis ax)     -- 336

/-- random_forest_partitioner.py:143-144 -/
def forestLoopS (incumbent : Config K) (ax : Nat) : List (DT K × String) → Sess K Unit
  | [] => pure ()
  | (tree, color) :: rest => do
    dtPlotIncumbentS color incumbent tree (.axis ax)
    forestLoopS incumbent ax rest

/-- random_forest_partitioner.py:133-144 `plot_incumbent_regions`; without trees both the comprehension and `zip` are TypeErrors -/
def rfPlotIncumbentS {G : Type} (draw : G → K × G) (name : K → K → K → String) (colors : Option (List String)) (incumbent : Config K) (p : RF K)
    (a : AxArg) (g : G) (w : Plt K) : G × Plt K × Py Unit :=
  match getAx a w with
  | (w1, .error e) => (g, w1, .error e)
  | (w1, .ok ax) =>
    match p.trees with
    | none => (g, w1, .error .type)
    | some trees =>
      let (cols, g') := resolveColors draw name trees.length colors g
      (g', forestLoopS incumbent ax (trees.zip cols) w1)

end families

/-! ### surrogate models, samplers, acquisition functions -/

/-- surrogate_models/__init__.py:112-127, 146-161 with the axis handed on -/
noncomputable def drawSurrogateS (predict : Predict ℝ) (n : Nat) (pick : List ℝ × List ℝ → List ℝ)
    (line : List ℝ → List ℝ × List ℝ → AxArg → Sess ℝ Unit) (ranges : List (List ℝ)) (ax : Nat) : List (Hp ℝ) → Sess ℝ Unit
  | [_] => do
    let p ← lift (predict ((linspace 0 1 n).map fun t => [t]))
    let x ← lift (pyGet ranges 0)
    line x p (.axis ax)
  | [_, _] => do
    let x ← lift (pyGet ranges 0)
    let y ← lift (pyGet ranges 1)
    let p ← lift (predict (meshPoints (linspace 0 1 n)))
    let z ← lift (reshape2 n n (pick p))
    onAx ax (Plot.add (.mesh x y (transpose2 n z)))
  | _ => raise .notImplemented

/-- the common part of `plot_means` and `plot_confidences` -/
noncomputable def surrogatePlotS (predict : Predict ℝ) (cs : ConfigSpace ℝ) (n : Nat) (pick : List ℝ × List ℝ → List ℝ)
    (line : List ℝ → List ℝ × List ℝ → AxArg → Sess ℝ Unit) (a : AxArg) : Sess ℝ Unit := do
  let ax ← getAx a
  if cs.length < 3 then do
    onAx ax (checkAndSetAxis cs)
    let ranges ← lift (getUniformDistributedRanges cs n false)
    drawSurrogateS predict n pick line ranges ax cs
  else raise .assertion

/-- surrogate_models/__init__.py:97-130 `plot_means` -/
noncomputable def surrogateMeansS (color : String) (predict : Predict ℝ) (cs : ConfigSpace ℝ) (n : Nat) (a : AxArg) : Sess ℝ Unit :=
  surrogatePlotS predict cs n (·.1) (fun x p => plotLineS color x p.1) a

/-- surrogate_models/__init__.py:132-165 `plot_confidences` -/
noncomputable def surrogateConfidencesS (lineColor gradientColor : String) (predict : Predict ℝ) (cs : ConfigSpace ℝ) (n : Nat) (a : AxArg) :
    Sess ℝ Unit :=
  surrogatePlotS predict cs n (·.2) (fun x p a => do
    confidenceGradientsS x p.1 (some p.2) none gradientColor 100 (3 / 2) a
    confidenceLinesS x p.1 (some p.2) none lineColor (.seq [1, 2]) a) a

/-- sampler/__init__.py:195-233 `Sampler.plot` -/
def samplerPlotS {K X : Type} (argsort : List K → List Nat) (color : String) (cs : ConfigSpace K) (sel : Selection K)
    (s : SamplerState (Config K) K X) (a : AxArg) : Sess K Unit := do
  let ax ← getAx a
  let hps ← lift (getHyperparameters sel cs)
  onAx ax (checkAndSetAxis hps)
  onAx ax (drawSamples2 argsort color s.configs s.ys hps)

/-- acquisition_function.py:61-103 `AcquisitionFunction.plot`: everything is done on the resolved axis -/
def acqPlotS {K S : Type} [Field K] [LinearOrder K] (argsort : List K → List Nat) (colorAcq colorOpt : String) (showOptimum : Bool)
    (cs : ConfigSpace K) (d : Drawer (Config K) S) (n : Int) (value : Config K → K) (sel : Selection K) (rng : S) (a : AxArg) (w : Plt K) :
    S × Plt K × Py Unit :=
  match getAx a w with
  | (w1, .error e) => (rng, w1, .error e)
  | (w1, .ok ax) =>
    let (rng', ax', r) := acqPlot argsort colorAcq colorOpt showOptimum cs d n value sel rng (w1.axes ax)
    (rng', { w1 with axes := Function.update w1.axes ax ax' }, r)

/-! ### whole figures -/

/-- advanced_plots.py:36-52 `plot_full_pdp` -/
noncomputable def fullPdpS (s : PdpState ℝ) (w : Plt ℝ) : PdpState ℝ × Plt ℝ × Py Unit :=
  match (do
    let fig ← newFigure                                                             -- 42
    figGca fig : Sess ℝ Nat) w with                                                 -- 44
  | (w1, .error e) => (s, w1, .error e)
  | (w1, .ok ax) =>
    match pdpIce s with
    | .error e => (s, w1, .error e)
    | .ok i =>
      match icePlotS "red" (1 / 10) i (.axis ax) w1 with                            -- 47
      | (i1, w2, .error e) => ({ s with ice := some i1 }, w2, .error e)
      | (i1, w2, .ok _) =>
        match pdpPlotValuesS "black" { s with ice := some i1 } (.axis ax) w2 with   -- 48
        | (s2, w3, .error e) => (s2, w3, .error e)
        | (s2, w3, .ok _) => pdpPlotConfidencesS "black" "blue" (3 / 2) s2 (.axis ax) w3   -- 49

/-- advanced_plots.py:55-80 `plot_2D_ICE_Curve_with_confidence`: the two axes -/
noncomputable def curveWithConfidenceS (c : IceCurve ℝ) (fig : Option Nat) : Sess ℝ (Nat × Nat) := do
  let i ← match fig with
    | some i => pure i
    | none => newFigure                                                             -- 62
  let axM ← addSubplot i                                                            -- 65
  let axS ← addSubplot i                                                            -- 66
  curveValuesS "red" c (.axis axM)
  curveIncumbentS "white" c (.axis axM)
  curveConfidencesS "red" "xkcd:light red" (3 / 2) c (.axis axS)
  curveIncumbentS "white" c (.axis axS)
  pure (axM, axS)

/-- advanced_plots.py:13-33 `plot_full_bayesian` -/
noncomputable def fullBayesianS {X S : Type} (argsort : List ℝ → List Nat) (predict : Predict ℝ) (cs : ConfigSpace ℝ)
    (s : SamplerState (Config ℝ) ℝ X) (d : Drawer (Config ℝ) S) (n : Int) (value : Config ℝ → ℝ) (rng : S) (w : Plt ℝ) :
    S × Plt ℝ × Py Unit :=
  match (do
    let fig ← newFigure                                                             -- 19
    let axF ← addSubplot fig                                                        -- 21
    let axA ← addSubplot fig                                                        -- 22
    surrogateMeansS "blue" predict cs 100 (.axis axF)                               -- 26
    surrogateConfidencesS "blue" "lightblue" predict cs 100 (.axis axF)             -- 27
    samplerPlotS argsort "red" cs (.name "x1") s (.axis axF)                        -- 28
    pure axA : Sess ℝ Nat) w with
  | (w1, .error e) => (rng, w1, .error e)
  | (w1, .ok axA) =>
    match acqPlotS argsort "darkgreen" "red" true cs d n value (.name "x1") rng (.axis axA) w1 with   -- 29
    | (rng1, w2, .error e) => (rng1, w2, .error e)
    | (rng1, w2, .ok _) =>
      match getOptimum (cs.map Hp.name) d n value rng1 with                         -- 30
      | (rng2, .error e) => (rng2, w2, .error e)
      | (rng2, .ok opt) =>
        (rng2, onAx axA (do
          let v ← Plot.lift (pickedNumber "x1" opt)
          Plot.add (.points "" [0] [v]) : Plot ℝ Unit) w2)

end PyPDP
