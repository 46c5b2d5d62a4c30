/-
Model of the `plot` methods of the classes: ICECurve, ICE, PDP, Region, DTRegion, DecisionTreePartitioner, RandomForestPartitioner,
SurrogateModel, Sampler.

As in Model/Plotting every function gets its axis. Objects with cached values are passed and returned. Not modelled: legends, titles,
random colours (the colours are arguments), string values on an axis (a TypeError in the model).
-/
import Verif.Model.Plotting
import Mathlib.Data.List.Sort
import Verif.Model.Pdp
import Verif.Model.Forest
import Verif.Model.Acquisition

namespace PyPDP

section arrays
variable {K : Type}

/-- a two-dimensional array -/
def NdArr.asRows {α : Type} : NdArr α → Py (List (List α))
  | .d2 a => .ok a
  | _ => .error .index

/-- a three-dimensional array -/
def NdArr.asCube {α : Type} : NdArr α → Py (List (List (List α)))
  | .d3 a => .ok a
  | _ => .error .index

/-- a number of an unscaled array -/
def asNumber : Val K → Py K
  | .num v => .ok v
  | .str _ => .error .type

/-- `row[j]` as a number -/
def numberAt (j : Nat) (row : List (Val K)) : Py K := do
  let v ← pyGet row j
  asNumber v

/-- `a[:, j]` of an unscaled array -/
def numberColumn (j : Nat) (rows : List (List (Val K))) : Py (List K) := rows.mapM (numberAt j)

/-- `a.T` of an array of shape `(n, P)` -/
def transpose2 [Zero K] (P : Nat) (a : List (List K)) : List (List K) := (List.range P).map fun p => a.map fun row => row.getD p 0

end arrays

/-! ### single curves -/

section curve
variable {K : Type} [Field K] [LinearOrder K] [Transc K]

/-- ice.py:46, 68, 105: the unscaled points of a curve -/
def curvePoints (c : IceCurve K) : Py (List (List (Val K))) := do
  let a ← unscale DType.float (.d2 c.x) c.space
  a.asRows

/-- ice.py:48-60, given the column indices and the unscaled points; also 107-137 for two dimensions -/
def drawValues (color : String) (rows : List (List (Val K))) (vals : List K) (idx : List Nat) : List (Hp K) → Plot K Unit
  | [_] => do
    let i ← Plot.lift (pyGet idx 0)
    let x ← Plot.lift (numberColumn i rows)
    plotLine color x vals
  | [_, _] => do
    let i ← Plot.lift (pyGet idx 0)
    let j ← Plot.lift (pyGet idx 1)
    let x ← Plot.lift (numberColumn i rows)
    let y ← Plot.lift (numberColumn j rows)
    plot2D x y vals
  | _ => Plot.raise .notImplemented

/-- ice.py:39-60 `ICECurve.plot_values` -/
def curveValues (color : String) (c : IceCurve K) : Plot K Unit := do
  checkAndSetAxis c.selected
  let idx ← Plot.lift (getSelectedIdx c.selected c.space)
  let rows ← Plot.lift (curvePoints c)
  drawValues color rows c.y idx c.selected

/-- ice.py:74-95, given the unscaled points and the index of the minimum -/
def drawIncumbent (color : String) (rows : List (List (Val K))) (m : Nat) (idx : List Nat) : List (Hp K) → Plot K Unit
  | [_] => do
    let row ← Plot.lift (pyGet rows m)
    let i ← Plot.lift (pyGet idx 0)
    let x ← Plot.lift (numberAt i row)
    Plot.add (.vline color x)
  | [_, _] => do
    let row ← Plot.lift (pyGet rows m)
    let i ← Plot.lift (pyGet idx 0)
    let j ← Plot.lift (pyGet idx 1)
    let x ← Plot.lift (numberAt i row)
    let y ← Plot.lift (numberAt j row)
    Plot.add (.points color [x] [y])
  | _ => Plot.raise .notImplemented

/-- ice.py:62-95 `ICECurve.plot_incumbent` -/
def curveIncumbent (color : String) (c : IceCurve K) : Plot K Unit := do
  checkAndSetAxis c.selected
  let idx ← Plot.lift (getSelectedIdx c.selected c.space)
  let rows ← Plot.lift (curvePoints c)
  let m ← Plot.lift (argmin c.y)
  drawIncumbent color rows m idx c.selected

end curve

/-- ice.py:108-137, given the column indices, the unscaled points and the standard deviations -/
noncomputable def drawConfidences (lineColor gradientColor : String) (maxSigma : ℝ) (rows : List (List (Val ℝ))) (y sigmas : List ℝ)
    (idx : List Nat) : List (Hp ℝ) → Plot ℝ Unit
  | [_] => do
    let i ← Plot.lift (pyGet idx 0)
    let x ← Plot.lift (numberColumn i rows)
    confidenceGradients x y (some sigmas) none gradientColor 100 maxSigma
    confidenceLines x y (some sigmas) none lineColor (.seq [1, 2])
  | [_, _] => do
    let i ← Plot.lift (pyGet idx 0)
    let j ← Plot.lift (pyGet idx 1)
    let x ← Plot.lift (numberColumn i rows)
    let y ← Plot.lift (numberColumn j rows)
    plot2D x y sigmas
  | _ => Plot.raise .notImplemented

/-- ice.py:97-137 `ICECurve.plot_confidences` -/
noncomputable def curveConfidences (lineColor gradientColor : String) (maxSigma : ℝ) (c : IceCurve ℝ) : Plot ℝ Unit := do
  checkAndSetAxis c.selected
  let idx ← Plot.lift (getSelectedIdx c.selected c.space)
  let rows ← Plot.lift (curvePoints c)
  drawConfidences lineColor gradientColor maxSigma rows c.y (c.v.map Real.sqrt) idx c.selected

/-! ### ICE, PDP, regions -/

section families
variable {K : Type} [Field K] [LinearOrder K] [Transc K]

/-- `unscale(x, cs)[:, :, idx]` -/
def cubeColumn (cs : ConfigSpace K) (x : List (List (List K))) (name : String) : Py (List (List K)) := do
  let a ← unscale DType.float (.d3 x) cs
  let cube ← a.asCube
  let idx ← cs.idx name
  cube.mapM (numberColumn idx)

/-- ice.py:271-274, decision_tree_partitioner.py:181-185: all curves, one line each -/
def drawCurves (color : String) (alpha : K) (cs : ConfigSpace K) (hp : Hp K) (P : Nat) (x : List (List (List K))) (y : List (List K)) :
    Plot K Unit := do
  let xs ← Plot.lift (cubeColumn cs x hp.name)
  drawColumns color alpha (transpose2 P xs) (transpose2 P y) 0 y.length

/-- ice.py:259-277 `ICE.plot`; the object is changed by the first reads of its arrays. The second `ax.plot` draws nothing but makes a
legend entry. -/
def icePlot (color : String) (alpha : K) (s : IceState K) (ax : Ax K) : IceState K × Ax K × Py Unit :=
  match checkAndSetAxis s.cfg.selected true "Prediction" ax with
  | (ax1, .error e) => (s, ax1, .error e)
  | (ax1, .ok _) =>
    match s.cfg.selected with
    | [hp] =>
      match readX s with
      | (s1, .error e) => (s1, ax1, .error e)
      | (s1, .ok x) =>
        match readY s1 with
        | (s2, .error e) => (s2, ax1, .error e)
        | (s2, .ok y) =>
          let (ax2, r) := (do
            drawCurves color alpha s.cfg.space hp s.cfg.numGrid x y
            drawLine color 1 [] []) ax1
          (s2, ax2, r)
    | _ => (s, ax1, .error .notImplemented)

/-- pdp.py:80-83 `PDP.plot_values` -/
def pdpPlotValues (color : String) (s : PdpState K) (ax : Ax K) : PdpState K × Ax K × Py Unit :=
  match pdpCurve s with
  | (s', .error e) => (s', ax, .error e)
  | (s', .ok c) =>
    let (ax', r) := curveValues color c ax
    (s', ax', r)

/-- pdp.py:85-95 `PDP.plot_confidences` -/
noncomputable def pdpPlotConfidences (lineColor gradientColor : String) (maxSigma : ℝ) (s : PdpState ℝ) (ax : Ax ℝ) :
    PdpState ℝ × Ax ℝ × Py Unit :=
  match pdpCurve s with
  | (s', .error e) => (s', ax, .error e)
  | (s', .ok c) =>
    let (ax', r) := curveConfidences lineColor gradientColor maxSigma c ax
    (s', ax', r)

/-- partitioner/__init__.py:116-117 `Region.plot_values` -/
def regionPlotValues (color : String) (cs : ConfigSpace K) (selected : List (Hp K)) (n : Node K) : Plot K Unit := do
  let c ← Plot.lift (regionPdp cs selected n)
  curveValues color c

/-- partitioner/__init__.py:119-128 `Region.plot_confidences` -/
noncomputable def regionPlotConfidences (lineColor gradientColor : String) (maxSigma : ℝ) (cs : ConfigSpace ℝ) (selected : List (Hp ℝ))
    (n : Node ℝ) : Plot ℝ Unit := do
  let c ← Plot.lift (regionPdp cs selected n)
  curveConfidences lineColor gradientColor maxSigma c

/-- decision_tree_partitioner.py:179-190 -/
def drawRegion (color : String) (alpha : K) (cs : ConfigSpace K) (P : Nat) (n : Node K) : List (Hp K) → Plot K Unit
  | [hp] => drawCurves color alpha cs hp P n.x n.y
  | _ => Plot.raise .notImplemented

/-- decision_tree_partitioner.py:171-190 `DTRegion.plot`; `P` is the number of grid points (the second axis of `x_points`) -/
def regionPlot (color : String) (alpha : K) (cs : ConfigSpace K) (selected : List (Hp K)) (P : Nat) (n : Node K) : Plot K Unit := do
  checkAndSetAxis selected
  drawRegion color alpha cs P n selected

/-- decision_tree_partitioner.py:323-324 -/
def leafLoop (alpha : K) (cs : ConfigSpace K) (selected : List (Hp K)) (P : Nat) (colors : List String) : Nat → List (Node K) → Plot K Unit
  | _, [] => pure ()
  | i, leaf :: rest => do
    let color ← Plot.lift (pyGet colors i)
    regionPlot color alpha cs selected P leaf
    leafLoop alpha cs selected P colors (i + 1) rest

/-- decision_tree_partitioner.py:312-324 `DecisionTreePartitioner.plot` -/
def dtPlot (colors : List String) (alpha : K) (p : DT K) : Plot K Unit :=
  if p.leaves.length = 0 then Plot.raise .assertion
  else if colors.length ≠ p.leaves.length then Plot.raise .assertion
  else leafLoop alpha p.cfg.space p.cfg.selected p.cfg.numGrid colors 0 p.leaves

/-- decision_tree_partitioner.py:335: the hyperparameters of the implied space that are not equal to a selected one, sorted by
name. ConfigSpace also compares default value and quantisation, which the model does not have. -/
def otherHps [DecidableEq K] (cs : ConfigSpace K) (selected : List (Hp K)) : List (Hp K) :=
  (cs.filter fun hp => decide (hp ∉ selected)).insertionSort fun a b => a.name ≤ b.name

/-- decision_tree_partitioner.py:326-337 `plot_incumbent_cs`; without a leaf for the incumbent the region is None (AttributeError) -/
def dtPlotIncumbent (color : String) (incumbent : Config K) (p : DT K) : Plot K Unit := do
  let region ← Plot.lift (dtIncumbentRegion p incumbent)
  let leaf ← Plot.lift (match region with
    | some n => .ok n
    | none => .error .attribute)
  let cs ← Plot.lift (regionImplied p.cfg.space leaf.conds)
  plotConfigSpace cs (.many ((otherHps cs p.cfg.selected).map .hp)) color

/-- random_forest_partitioner.py:143-144 -/
def forestLoop (incumbent : Config K) : List (DT K × String) → Plot K Unit
  | [] => pure ()
  | (tree, color) :: rest => do
    dtPlotIncumbent color incumbent tree
    forestLoop incumbent rest

/-- random_forest_partitioner.py:133-144 `plot_incumbent_regions`; before `partition` there are no trees (`zip(None, ...)`: TypeError) -/
def rfPlotIncumbent (colors : List String) (incumbent : Config K) (p : RF K) : Plot K Unit :=
  match p.trees with
  | none => Plot.raise .type
  | some trees => forestLoop incumbent (trees.zip colors)

end families

/-! ### surrogate models -/

section surrogate

/-- surrogate_models/__init__.py:121-122, 155-156: `np.asarray([xx, yy]).T.reshape(-1, 2)` of `meshgrid(lin, lin)`: the second
coordinate runs fastest -/
def meshPoints {K : Type} (lin : List K) : List (List K) := lin.flatMap fun a => lin.map fun b => [a, b]

/-- surrogate_models/__init__.py:112-127, 146-161: the part after the axis; `pick` chooses what is shown in two dimensions, `line` draws
the one-dimensional plot -/
noncomputable def drawSurrogate (predict : Predict ℝ) (n : Nat) (pick : List ℝ × List ℝ → List ℝ)
    (line : List ℝ → List ℝ × List ℝ → Plot ℝ Unit) (ranges : List (List ℝ)) : List (Hp ℝ) → Plot ℝ Unit
  | [_] => do
    let p ← Plot.lift (predict ((linspace 0 1 n).map fun t => [t]))
    let x ← Plot.lift (pyGet ranges 0)
    line x p
  | [_, _] => do
    let x ← Plot.lift (pyGet ranges 0)
    let y ← Plot.lift (pyGet ranges 1)
    let p ← Plot.lift (predict (meshPoints (linspace 0 1 n)))
    let z ← Plot.lift (reshape2 n n (pick p))
    Plot.add (.mesh x y (transpose2 n z))
  | _ => Plot.raise .notImplemented

/-- the common part of `plot_means` and `plot_confidences` -/
noncomputable def surrogatePlot (predict : Predict ℝ) (cs : ConfigSpace ℝ) (n : Nat) (pick : List ℝ × List ℝ → List ℝ)
    (line : List ℝ → List ℝ × List ℝ → Plot ℝ Unit) : Plot ℝ Unit :=
  if cs.length < 3 then do
    checkAndSetAxis cs
    let ranges ← Plot.lift (getUniformDistributedRanges cs n false)
    drawSurrogate predict n pick line ranges cs
  else Plot.raise .assertion

/-- surrogate_models/__init__.py:97-130 `plot_means` -/
noncomputable def surrogateMeans (color : String) (predict : Predict ℝ) (cs : ConfigSpace ℝ) (n : Nat) : Plot ℝ Unit :=
  surrogatePlot predict cs n (·.1) fun x p => plotLine color x p.1

/-- surrogate_models/__init__.py:132-165 `plot_confidences` -/
noncomputable def surrogateConfidences (lineColor gradientColor : String) (predict : Predict ℝ) (cs : ConfigSpace ℝ) (n : Nat) : Plot ℝ Unit :=
  surrogatePlot predict cs n (·.2) fun x p => do
    confidenceGradients x p.1 (some p.2) none gradientColor 100 (3 / 2)
    confidenceLines x p.1 (some p.2) none lineColor (.seq [1, 2])

end surrogate

/-! ### samplers and acquisition functions -/

section sampler
variable {K : Type}

/-- `config[name]` as a number -/
def configNumber (name : String) (c : Config K) : Py K :=
  match c.get? name with
  | none => .error .key
  | some v => asNumber v

/-- `a[order]` -/
def takeOrder {α : Type} (order : List Nat) (a : List α) : Py (List α) := order.mapM (pyGet a)

/-- `ax.plot(x, y, linestyle="")`, `ax.scatter(x, y)` -/
def drawPoints (color : String) (xs ys : List K) : Plot K Unit :=
  if xs.length = ys.length then Plot.add (.points color xs ys) else Plot.raise .value

/-- sampler/__init__.py:216-233; `argsort` is `np.argsort` (not stable) -/
def drawSamples2 (argsort : List K → List Nat) (color : String) (configs : List (Config K)) (ys : List K) : List (Hp K) → Plot K Unit
  | [hp] => do
    let x ← Plot.lift (configs.mapM (configNumber hp.name))
    let xo ← Plot.lift (takeOrder (argsort x) x)
    let yo ← Plot.lift (takeOrder (argsort x) ys)
    drawPoints color xo yo
  | [hp1, hp2] => do
    let x1 ← Plot.lift (configs.mapM (configNumber hp1.name))
    let x2 ← Plot.lift (configs.mapM (configNumber hp2.name))
    if configs.length = 0 then Plot.raise .value else drawPoints color x1 x2       -- `x1, x2 = zip(*[])`
  | _ => Plot.raise .notImplemented

/-- sampler/__init__.py:195-233 `Sampler.plot` -/
def samplerPlot {X : Type} (argsort : List K → List Nat) (color : String) (cs : ConfigSpace K) (sel : Selection K)
    (s : SamplerState (Config K) K X) : Plot K Unit := do
  let hps ← Plot.lift (getHyperparameters sel cs)
  checkAndSetAxis hps
  drawSamples2 argsort color s.configs s.ys hps

end sampler

end PyPDP
