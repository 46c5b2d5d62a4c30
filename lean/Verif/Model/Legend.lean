/-
Model of the legends of the plots: pyPDP/utils/plotting.py, the `plot` methods of the classes, `plot_full_pdp` and `plot_full_bayesian`.

The functions of Model/Plotting, Model/Plots, Model/AcquisitionPlot and Model/AdvancedPlots once more, now with the labels (that the labels are
the only difference is proved in Props/LegendErase). An axis has, besides what it had there, the labelled artists in the order in which they
were drawn: this is what `ax.legend()` lists. `plt.legend()` lists those of the current axis, which is the one that was added last.

Contracts of matplotlib used: artists without a label, with an empty one or with one that begins with an underscore are not listed. Parameters: the
names of the classes of surrogate model, sampler and acquisition function, and `str(optimum)`. Not modelled: titles, position and colours of the
legend itself.
-/
import Verif.Model.AdvancedPlots

namespace PyPDP

/-- an axis with its labelled artists: labels and what they belong to -/
structure LAx (K : Type) where
  ax : Ax K
  handles : List (String × Shape K)

/-- a new axis -/
def LAx.new {K : Type} : LAx K := ⟨Ax.new, []⟩

/-- A function that works on an axis. -/
def LPlot (K α : Type) := LAx K → LAx K × Py α

namespace LPlot
variable {K α β : Type}

protected def pure (a : α) : LPlot K α := fun la => (la, .ok a)

protected def bind (p : LPlot K α) (f : α → LPlot K β) : LPlot K β := fun la =>
  match p la with
  | (la', .ok a) => f a la'
  | (la', .error e) => (la', .error e)

instance : Monad (LPlot K) where
  pure := LPlot.pure
  bind := LPlot.bind

/-- calls without `label=` -/
def of (p : Plot K α) : LPlot K α := fun la => (⟨(p la.ax).1, la.handles⟩, (p la.ax).2)

end LPlot

/-- the artists that a legend lists -/
def shownLabel : Option String → Bool
  | none => false
  | some l => l ≠ "" && !(l.toList.head? == some '_')

/-- a call that draws one artist with `label=l` -/
def LPlot.labelled {K : Type} (l : Option String) (p : Plot K Unit) : LPlot K Unit := fun la =>
  match p la.ax with
  | (ax, .error e) => (⟨ax, la.handles⟩, .error e)
  | (ax, .ok _) =>
    match l, ax.shapes.getLast? with
    | some t, some s => if shownLabel l then (⟨ax, la.handles ++ [(t, s)]⟩, .ok ()) else (⟨ax, la.handles⟩, .ok ())
    | _, _ => (⟨ax, la.handles⟩, .ok ())

/-! ### confidence lines -/

/-- an entry of `k_sigmas` -/
inductive Factor
  | int (n : Int)
  | float (x : ℝ)

noncomputable def Factor.value : Factor → ℝ
  | .int n => n
  | .float x => x

/-- the integer next to `x`, the even one if there are two -/
noncomputable def roundEven (x : ℝ) : Int :=
  if Int.fract x < 1 / 2 then ⌊x⌋
  else if 1 / 2 < Int.fract x then ⌊x⌋ + 1
  else if ⌊x⌋ % 2 = 0 then ⌊x⌋ else ⌊x⌋ + 1

/-- `f"{n / 100:.2f}"` for a number of hundredths -/
def hundredths (n : Nat) : String := toString (n / 100) ++ "." ++ toString (n / 10 % 10) ++ toString (n % 10)

/-- utils/plotting.py:225-228, the factor in the label. (For negative ones, which raise in line 229, the sign of the result is not modelled.) -/
noncomputable def Factor.text : Factor → String
  | .int n => toString n
  | .float x => hundredths (roundEven (100 * x)).toNat

/-- utils/plotting.py:225-228 -/
noncomputable def sigmaLabel (name : String) (k : Factor) : String := name ++ "-$\\mu\\pm$" ++ k.text ++ "$\\sigma$"

/-- utils/plotting.py:219, surrogate_models/__init__.py:119 -/
def muLabel (name : String) : String := name ++ "-$\\mu$"

/-- `0 in k_sigmas` -/
noncomputable def factorsHaveZero : KSigmas Factor → Bool
  | .seq ks => decide (0 ∈ ks.map Factor.value)
  | .iter ks => decide (0 ∈ ks.map Factor.value)

/-- what is left of `k_sigmas` afterwards -/
noncomputable def factorsRest : KSigmas Factor → List Factor
  | .seq ks => ks
  | .iter ks => (ks.dropWhile fun k => decide (k.value ≠ 0)).drop 1

/-- utils/plotting.py:221-230 -/
noncomputable def sigmaLoopL (name color : String) (x means stds : List ℝ) : List Factor → LPlot ℝ Unit
  | [] => pure ()
  | k :: ks =>
    if k.value = 0 then sigmaLoopL name color x means stds ks
    else do
      let lo ← LPlot.of (Plot.lift (offsetBy (-k.value) means stds))
      LPlot.labelled (some (sigmaLabel name k)) (drawLine color (1 / k.value * (1 / 5)) x lo)
      let hi ← LPlot.of (Plot.lift (offsetBy k.value means stds))
      LPlot.of (drawLine color (1 / k.value * (1 / 5)) x hi)
      sigmaLoopL name color x means stds ks

/-- utils/plotting.py:218-219 -/
noncomputable def muLineL (name color : String) (x means : List ℝ) (hasZero : Bool) : LPlot ℝ Unit :=
  if hasZero then LPlot.labelled (some (muLabel name)) (drawLine color (3 / 10) x means) else pure ()

/-- utils/plotting.py:204-230 `plot_1D_confidence_lines` -/
noncomputable def confidenceLinesL (name : String) (x means : List ℝ) (stds variances : Option (List ℝ)) (color : String) (ks : KSigmas Factor) :
    LPlot ℝ Unit := do
  let s ← LPlot.of (Plot.lift (getStds stds variances))
  muLineL name color x means (factorsHaveZero ks)
  sigmaLoopL name color x means s ((factorsRest ks).mergeSort fun a b => decide (a.value ≤ b.value))

/-! ### functions -/

/-- utils/plotting.py:147-163; `name` is `f.__name__` (a callable without this attribute is an AttributeError in one dimension) -/
noncomputable def plotValuesL (name : Option String) (f : List (String × Val ℝ) → Py ℝ) (consts : List (String × Val ℝ)) (color : String)
    (ranges : List (List ℝ)) : List (Hp ℝ) → LPlot ℝ Unit
  | [p] => do
    let x ← LPlot.of (Plot.lift (pyGet ranges 0))
    let y ← LPlot.of (Plot.lift (x.mapM fun t => f ((p.name, .num t) :: consts)))
    match name with
    | none => LPlot.of (Plot.raise .attribute)
    | some l => LPlot.labelled (some l) (drawLine color 1 x y)
  | hps => LPlot.of (plotValues f consts color ranges hps)

/-- utils/plotting.py:128-165 `plot_function` -/
noncomputable def plotFunctionL (name : Option String) (f : List (String × Val ℝ) → Py ℝ) (cs : ConfigSpace ℝ) (samplesPerAxis : Nat) (color : String) :
    LPlot ℝ Unit :=
  if 2 < (parametersOf cs).length then LPlot.of (Plot.raise .value)
  else if (parametersOf cs).length = 0 then LPlot.of (Plot.raise .value)
  else do
    let ranges ← LPlot.of (Plot.lift (getUniformDistributedRanges (parametersOf cs) samplesPerAxis false))
    LPlot.of (checkAndSetAxis (parametersOf cs))
    plotValuesL name f (constantsOf cs) color ranges (parametersOf cs)

/-! ### curves and families of curves -/

/-- ice.py:48-60; `name` is the name of the curve -/
noncomputable def drawValuesL (name color : String) (rows : List (List (Val ℝ))) (vals : List ℝ) (idx : List Nat) : List (Hp ℝ) → LPlot ℝ Unit
  | [_] => do
    let i ← LPlot.of (Plot.lift (pyGet idx 0))
    let x ← LPlot.of (Plot.lift (numberColumn i rows))
    LPlot.labelled (some name) (plotLine color x vals)
  | hps => LPlot.of (drawValues color rows vals idx hps)

/-- ice.py:39-60 `ICECurve.plot_values` -/
noncomputable def curveValuesL (name color : String) (c : IceCurve ℝ) : LPlot ℝ Unit := do
  LPlot.of (checkAndSetAxis c.selected)
  let idx ← LPlot.of (Plot.lift (getSelectedIdx c.selected c.space))
  let rows ← LPlot.of (Plot.lift (curvePoints c))
  drawValuesL name color rows c.y idx c.selected

/-- ice.py:108-137 -/
noncomputable def drawConfidencesL (name lineColor gradientColor : String) (maxSigma : ℝ) (rows : List (List (Val ℝ))) (y sigmas : List ℝ) (idx : List Nat) :
    List (Hp ℝ) → LPlot ℝ Unit
  | [_] => do
    let i ← LPlot.of (Plot.lift (pyGet idx 0))
    let x ← LPlot.of (Plot.lift (numberColumn i rows))
    LPlot.of (confidenceGradients x y (some sigmas) none gradientColor 100 maxSigma)
    confidenceLinesL name x y (some sigmas) none lineColor (.seq [.int 1, .int 2])
  | hps => LPlot.of (drawConfidences lineColor gradientColor maxSigma rows y sigmas idx hps)

/-- ice.py:97-137 `ICECurve.plot_confidences` -/
noncomputable def curveConfidencesL (name lineColor gradientColor : String) (maxSigma : ℝ) (c : IceCurve ℝ) : LPlot ℝ Unit := do
  LPlot.of (checkAndSetAxis c.selected)
  let idx ← LPlot.of (Plot.lift (getSelectedIdx c.selected c.space))
  let rows ← LPlot.of (Plot.lift (curvePoints c))
  drawConfidencesL name lineColor gradientColor maxSigma rows c.y (c.v.map Real.sqrt) idx c.selected

/-- ice.py:259-277 `ICE.plot` -/
noncomputable def icePlotL (color : String) (alpha : ℝ) (s : IceState ℝ) (la : LAx ℝ) : IceState ℝ × LAx ℝ × Py Unit :=
  match LPlot.of (checkAndSetAxis s.cfg.selected true "Prediction") la with
  | (la1, .error e) => (s, la1, .error e)
  | (la1, .ok _) =>
    match s.cfg.selected with
    | [hp] =>
      match readX s with
      | (s1, .error e) => (s1, la1, .error e)
      | (s1, .ok x) =>
        match readY s1 with
        | (s2, .error e) => (s2, la1, .error e)
        | (s2, .ok y) =>
          let (la2, r) := (do
            LPlot.of (drawCurves color alpha s.cfg.space hp s.cfg.numGrid x y)
            LPlot.labelled (some "ICE") (drawLine color 1 [] []) : LPlot ℝ Unit) la1
          (s2, la2, r)
    | _ => (s, la1, .error .notImplemented)

/-- pdp.py:80-83 `PDP.plot_values` -/
noncomputable def pdpPlotValuesL (color : String) (s : PdpState ℝ) (la : LAx ℝ) : PdpState ℝ × LAx ℝ × Py Unit :=
  match pdpCurve s with
  | (s', .error e) => (s', la, .error e)
  | (s', .ok c) =>
    let (la', r) := curveValuesL "PDP" color c la
    (s', la', r)

/-- pdp.py:85-95 `PDP.plot_confidences` -/
noncomputable def pdpPlotConfidencesL (lineColor gradientColor : String) (maxSigma : ℝ) (s : PdpState ℝ) (la : LAx ℝ) : PdpState ℝ × LAx ℝ × Py Unit :=
  match pdpCurve s with
  | (s', .error e) => (s', la, .error e)
  | (s', .ok c) =>
    let (la', r) := curveConfidencesL "PDP" lineColor gradientColor maxSigma c la
    (s', la', r)

/-- partitioner/__init__.py:116-117 `Region.plot_values` -/
noncomputable def regionPlotValuesL (color : String) (cs : ConfigSpace ℝ) (selected : List (Hp ℝ)) (n : Node ℝ) : LPlot ℝ Unit := do
  let c ← LPlot.of (Plot.lift (regionPdp cs selected n))
  curveValuesL "PDP in Region" color c

/-- partitioner/__init__.py:119-128 `Region.plot_confidences` -/
noncomputable def regionPlotConfidencesL (lineColor gradientColor : String) (maxSigma : ℝ) (cs : ConfigSpace ℝ) (selected : List (Hp ℝ)) (n : Node ℝ) :
    LPlot ℝ Unit := do
  let c ← LPlot.of (Plot.lift (regionPdp cs selected n))
  curveConfidencesL "PDP in Region" lineColor gradientColor maxSigma c

/-! ### surrogate model, sampler, acquisition function -/

/-- surrogate_models/__init__.py:112-127, 146-161 -/
noncomputable def drawSurrogateL (predict : Predict ℝ) (n : Nat) (pick : List ℝ × List ℝ → List ℝ) (line : List ℝ → List ℝ × List ℝ → LPlot ℝ Unit)
    (ranges : List (List ℝ)) : List (Hp ℝ) → LPlot ℝ Unit
  | [_] => do
    let p ← LPlot.of (Plot.lift (predict ((linspace 0 1 n).map fun t => [t])))
    let x ← LPlot.of (Plot.lift (pyGet ranges 0))
    line x p
  | hps => LPlot.of (drawSurrogate predict n pick (fun _ _ => pure ()) ranges hps)

/-- the common part of `plot_means` and `plot_confidences` -/
noncomputable def surrogatePlotL (predict : Predict ℝ) (cs : ConfigSpace ℝ) (n : Nat) (pick : List ℝ × List ℝ → List ℝ)
    (line : List ℝ → List ℝ × List ℝ → LPlot ℝ Unit) : LPlot ℝ Unit :=
  if cs.length < 3 then do
    LPlot.of (checkAndSetAxis cs)
    let ranges ← LPlot.of (Plot.lift (getUniformDistributedRanges cs n false))
    drawSurrogateL predict n pick line ranges cs
  else LPlot.of (Plot.raise .assertion)

/-- surrogate_models/__init__.py:97-130 `plot_means`; `cls` is the name of the class -/
noncomputable def surrogateMeansL (cls color : String) (predict : Predict ℝ) (cs : ConfigSpace ℝ) (n : Nat) : LPlot ℝ Unit :=
  surrogatePlotL predict cs n (·.1) fun x p => LPlot.labelled (some (muLabel cls)) (plotLine color x p.1)

/-- surrogate_models/__init__.py:132-165 `plot_confidences` -/
noncomputable def surrogateConfidencesL (cls lineColor gradientColor : String) (predict : Predict ℝ) (cs : ConfigSpace ℝ) (n : Nat) : LPlot ℝ Unit :=
  surrogatePlotL predict cs n (·.2) fun x p => do
    LPlot.of (confidenceGradients x p.1 (some p.2) none gradientColor 100 (3 / 2))
    confidenceLinesL cls x p.1 (some p.2) none lineColor (.seq [.int 1, .int 2])

/-- sampler/__init__.py:204-206: the label if none is given -/
def samplerLabel (cls : String) (n : Nat) : Option String → String
  | some l => l
  | none => "Sampled points (" ++ toString n ++ ", " ++ cls ++ ")"

/-- sampler/__init__.py:216-233 -/
noncomputable def drawSamplesL (argsort : List ℝ → List Nat) (color label : String) (configs : List (Config ℝ)) (ys : List ℝ) : List (Hp ℝ) → LPlot ℝ Unit
  | [hp] => do
    let x ← LPlot.of (Plot.lift (configs.mapM (configNumber hp.name)))
    let xo ← LPlot.of (Plot.lift (takeOrder (argsort x) x))
    let yo ← LPlot.of (Plot.lift (takeOrder (argsort x) ys))
    LPlot.labelled (some label) (drawPoints color xo yo)
  | [hp1, hp2] => do
    let x1 ← LPlot.of (Plot.lift (configs.mapM (configNumber hp1.name)))
    let x2 ← LPlot.of (Plot.lift (configs.mapM (configNumber hp2.name)))
    if configs.length = 0 then LPlot.of (Plot.raise .value) else LPlot.labelled (some label) (drawPoints color x1 x2)
  | _ => LPlot.of (Plot.raise .notImplemented)

/-- sampler/__init__.py:195-233 `Sampler.plot` -/
noncomputable def samplerPlotL {X : Type} (cls : String) (label : Option String) (argsort : List ℝ → List Nat) (color : String) (cs : ConfigSpace ℝ)
    (sel : Selection ℝ) (s : SamplerState (Config ℝ) ℝ X) : LPlot ℝ Unit := do
  let hps ← LPlot.of (Plot.lift (getHyperparameters sel cs))
  LPlot.of (checkAndSetAxis hps)
  drawSamplesL argsort color (samplerLabel cls s.configs.length label) s.configs s.ys hps

/-- acquisition_function.py:89-97 -/
noncomputable def drawOptimumL (text : Picked (Config ℝ) → String) (color : String) (value : Config ℝ → ℝ) (opt : Picked (Config ℝ)) : LPlot ℝ Unit := do
  let x ← LPlot.of (Plot.lift (firstValue opt))
  let y ← LPlot.of (Plot.lift (valueAt value opt))
  LPlot.labelled (some ("Optimum (" ++ text opt ++ ")")) (drawPoints color [x] [y])

/-- acquisition_function.py:79-103 -/
noncomputable def drawAcquisitionL (cls : String) (text : Picked (Config ℝ) → String) (argsort : List ℝ → List Nat) (colorAcq colorOpt : String)
    (showOptimum : Bool) (cs : ConfigSpace ℝ) (value : Config ℝ → ℝ) (rows : List (List (Val ℝ))) (ys : List ℝ) (opt : Picked (Config ℝ)) :
    List (Hp ℝ) → LPlot ℝ Unit
  | [_] => do
    let x ← LPlot.of (Plot.lift (numberColumn 0 rows))
    let xo ← LPlot.of (Plot.lift (takeOrder (argsort x) x))
    let yo ← LPlot.of (Plot.lift (takeOrder (argsort x) ys))
    LPlot.of (drawBand colorAcq (3 / 10) xo yo (yo.map fun _ => 0))
    LPlot.labelled (some cls) (plotLine colorAcq xo yo)
    if showOptimum then drawOptimumL text colorOpt value opt else pure ()
  | hps => LPlot.of (drawAcquisition argsort colorAcq colorOpt showOptimum cs value rows ys opt hps)

/-- acquisition_function.py:61-103 `AcquisitionFunction.plot` -/
noncomputable def acqPlotL {S : Type} (cls : String) (text : Picked (Config ℝ) → String) (argsort : List ℝ → List Nat) (colorAcq colorOpt : String)
    (showOptimum : Bool) (cs : ConfigSpace ℝ) (d : Drawer (Config ℝ) S) (n : Int) (value : Config ℝ → ℝ) (sel : Selection ℝ) (rng : S) (la : LAx ℝ) :
    S × LAx ℝ × Py Unit :=
  match getHyperparameters sel cs with
  | .error e => (rng, la, .error e)
  | .ok hps =>
    match LPlot.of (checkAndSetAxis hps true "Acquisition") la with
    | (la1, .error e) => (rng, la1, .error e)
    | (la1, .ok _) =>
      let (draws, rng1) := d.sampleConfiguration rng (n * hps.length)
      match acqConfigs draws with
      | .error e => (rng1, la1, .error e)
      | .ok configs =>
        match configs.mapM fun c => hps.mapM fun hp => configValue c hp.name with
        | .error e => (rng1, la1, .error e)
        | .ok rows =>
          match getOptimum (cs.map Hp.name) d n value rng1 with
          | (rng2, .error e) => (rng2, la1, .error e)
          | (rng2, .ok opt) =>
            let (la2, r) := drawAcquisitionL cls text argsort colorAcq colorOpt showOptimum cs value rows (configs.map value) opt hps la1
            (rng2, la2, r)

/-! ### figures -/

/-- advanced_plots.py:36-52 `plot_full_pdp`: the legend is that of the only axis -/
noncomputable def fullPdpL (s : PdpState ℝ) : PdpState ℝ × LAx ℝ × Py Unit :=
  match pdpIce s with
  | .error e => (s, LAx.new, .error e)
  | .ok i =>
    match icePlotL "red" (1 / 10) i LAx.new with
    | (i1, la1, .error e) => ({ s with ice := some i1 }, la1, .error e)
    | (i1, la1, .ok _) =>
      match pdpPlotValuesL "black" { s with ice := some i1 } la1 with
      | (s2, la2, .error e) => (s2, la2, .error e)
      | (s2, la2, .ok _) => pdpPlotConfidencesL "black" "blue" (3 / 2) s2 la2

/-- the names of the classes, and `str(optimum)` -/
structure FigureNames where
  surrogate : String
  sampler : String
  acquisition : String
  optimum : Picked (Config ℝ) → String

/-- advanced_plots.py:13-33 `plot_full_bayesian`: the two axes. The legend (31) is that of the second one. -/
noncomputable def fullBayesianL {X S : Type} (names : FigureNames) (argsort : List ℝ → List Nat) (predict : Predict ℝ) (cs : ConfigSpace ℝ)
    (s : SamplerState (Config ℝ) ℝ X) (d : Drawer (Config ℝ) S) (n : Int) (value : Config ℝ → ℝ) (rng : S) :
    S × LAx ℝ × LAx ℝ × Py (List (String × Shape ℝ)) :=
  match (do
    surrogateMeansL names.surrogate "blue" predict cs 100
    surrogateConfidencesL names.surrogate "blue" "lightblue" predict cs 100
    samplerPlotL names.sampler none argsort "red" cs (.name "x1") s : LPlot ℝ Unit) LAx.new with
  | (laF, .error e) => (rng, laF, LAx.new, .error e)
  | (laF, .ok _) =>
    match acqPlotL names.acquisition names.optimum argsort "darkgreen" "red" true cs d n value (.name "x1") rng LAx.new with
    | (rng1, laA, .error e) => (rng1, laF, laA, .error e)
    | (rng1, laA, .ok _) =>
      match getOptimum (cs.map Hp.name) d n value rng1 with
      | (rng2, .error e) => (rng2, laF, laA, .error e)
      | (rng2, .ok opt) =>
        match (do
          let v ← LPlot.of (Plot.lift (pickedNumber "x1" opt))
          LPlot.of (Plot.add (.points "" [0] [v])) : LPlot ℝ Unit) laA with
        | (laA', .error e) => (rng2, laF, laA', .error e)
        | (laA', .ok _) => (rng2, laF, laA', .ok laA'.handles)

end PyPDP
