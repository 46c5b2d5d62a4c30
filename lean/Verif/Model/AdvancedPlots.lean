/-
Model of pyPDP/utils/advanced_plots.py.

Every figure is new, so its axes are new (`Ax.new`). Not modelled: legends, titles, layout, the shared limits of the y axes (`sharey`;
the one-dimensional plots set no limits for y).
-/
import Verif.Model.AcquisitionPlot

namespace PyPDP

/-! ### one object -/

/-- advanced_plots.py:36-52 `plot_full_pdp` -/
noncomputable def fullPdp (s : PdpState ℝ) : PdpState ℝ × Ax ℝ × Py Unit :=
  match pdpIce s with
  | .error e => (s, Ax.new, .error e)
  | .ok i =>
    match icePlot "red" (1 / 10) i Ax.new with                                             -- 47
    | (i1, ax1, .error e) => ({ s with ice := some i1 }, ax1, .error e)
    | (i1, ax1, .ok _) =>
      match pdpPlotValues "black" { s with ice := some i1 } ax1 with                       -- 48
      | (s2, ax2, .error e) => (s2, ax2, .error e)
      | (s2, ax2, .ok _) => pdpPlotConfidences "black" "blue" (3 / 2) s2 ax2               -- 49

/-- advanced_plots.py:55-80 `plot_2D_ICE_Curve_with_confidence`: the two axes (means, confidences) -/
noncomputable def curveWithConfidence (c : IceCurve ℝ) : Ax ℝ × Ax ℝ × Py Unit :=
  match (do curveValues "red" c; curveIncumbent "white" c : Plot ℝ Unit) Ax.new with       -- 71-72
  | (axM, .error e) => (axM, Ax.new, .error e)
  | (axM, .ok _) =>
    let (axS, r) := (do                                                                    -- 73-74
      curveConfidences "red" "xkcd:light red" (3 / 2) c
      curveIncumbent "white" c : Plot ℝ Unit) Ax.new
    (axM, axS, r)

/-! ### all hyperparameters -/

/-- advanced_plots.py:96-102: `ICE.from_random_points`, `PDP.from_ICE`; `draws` is what `sample_configuration` returned -/
noncomputable def pdpOfDraws (predict : Predict ℝ) (cs : ConfigSpace ℝ) (perAxis : Nat) (hp : Hp ℝ) (draws : Draws (Config ℝ)) :
    Py (PdpState ℝ) := do
  let samples ← samplesOf draws
  let c ← algorithmInit cs predict (.one hp) samples perAxis
  pdpFromIce (iceInit c)

/-- `pdp.plot_values(ax=ax); pdp.plot_confidences(ax=ax)` -/
noncomputable def bothPlots (s : PdpState ℝ) (ax : Ax ℝ) : PdpState ℝ × Ax ℝ × Py Unit :=
  match pdpPlotValues "red" s ax with
  | (s1, ax1, .error e) => (s1, ax1, .error e)
  | (s1, ax1, .ok _) => pdpPlotConfidences "red" "lightsalmon" (3 / 2) s1 ax1

/-- advanced_plots.py:96-104: one axis -/
noncomputable def arrayCell (predict : Predict ℝ) (cs : ConfigSpace ℝ) (perAxis : Nat) (draws : Draws (Config ℝ)) (hp : Hp ℝ) (ax : Ax ℝ) :
    Ax ℝ × Py Unit :=
  match pdpOfDraws predict cs perAxis hp draws with
  | .error e => (ax, .error e)
  | .ok s => (bothPlots s ax).2

/-- advanced_plots.py:95-105: the loop over `zip(hyperparameters, axes)`; an exception leaves the remaining axes as they are -/
noncomputable def arrayLoop (cell : Nat → Hp ℝ → Ax ℝ → Ax ℝ × Py Unit) : Nat → List (Hp ℝ) → List (Ax ℝ) → List (Ax ℝ) × Py Unit
  | i, hp :: hps, ax :: axs =>
    match cell i hp ax with
    | (ax', .error e) => (ax' :: axs, .error e)
    | (ax', .ok _) =>
      let (axs', r) := arrayLoop cell (i + 1) hps axs
      (ax' :: axs', r)
  | _, _, axs => (axs, .ok ())

/-- advanced_plots.py:83-106 `plot_hyperparameter_array_1D`: the axes in reading order. The `i`-th ICE object draws `draws i` (from a config
space seeded with None, 96-101: the argument `seed` does not reach it). -/
noncomputable def hyperparameterArray1D (predict : Predict ℝ) (cs : ConfigSpace ℝ) (perAxis : Nat) (draws : Nat → Draws (Config ℝ)) :
    List (Ax ℝ) × Py Unit :=
  match quadraticShape cs.length with
  | .error e => ([], .error e)
  | .ok (w, h) => arrayLoop (fun i => arrayCell predict cs perAxis (draws i)) 0 cs (List.replicate (h * w) Ax.new)

/-- advanced_plots.py:127-146: one cell: the axes of means and standard deviations. `draws` is what `sample_configuration` returned in
`PDP.from_random_points`. -/
noncomputable def matrixCell (predict : Predict ℝ) (cs : ConfigSpace ℝ) (perAxis : Nat) (draws : Draws (Config ℝ)) (hp2 hp1 : Hp ℝ) :
    Ax ℝ × Ax ℝ × Py Unit :=
  let hps := if hp1 = hp2 then [hp1] else [hp1, hp2]                                       -- 127-130
  match (do
    let samples ← samplesOf draws
    pdpInit cs predict (.many (hps.map .hp)) samples perAxis : Py (PdpState ℝ)) with       -- 131-137
  | .error e => (Ax.new, Ax.new, .error e)
  | .ok s =>
    if hps.length = 1 then
      match bothPlots s Ax.new with                                                        -- 139-140
      | (_, axM, .error e) => (axM, Ax.new, .error e)
      | (s1, axM, .ok _) =>
        let (_, axS, r) := pdpPlotConfidences "red" "lightsalmon" (3 / 2) s1 Ax.new        -- 141
        (axM, axS, r)
    else
      match pdpPlotValues "red" s Ax.new with                                              -- 145
      | (_, axM, .error e) => (axM, Ax.new, .error e)
      | (s1, axM, .ok _) =>
        let (_, axS, r) := pdpPlotConfidences "red" "lightsalmon" (3 / 2) s1 Ax.new        -- 146
        (axM, axS, r)

/-- advanced_plots.py:126-146: the cells of one row; after an exception the remaining axes stay empty -/
noncomputable def matrixRow (cell : Hp ℝ → Ax ℝ × Ax ℝ × Py Unit) : List (Hp ℝ) → List (Ax ℝ) × List (Ax ℝ) × Py Unit
  | [] => ([], [], .ok ())
  | hp1 :: hps =>
    match cell hp1 with
    | (m, s, .error e) => (m :: hps.map fun _ => Ax.new, s :: hps.map fun _ => Ax.new, .error e)
    | (m, s, .ok _) =>
      let (ms, ss, r) := matrixRow cell hps
      (m :: ms, s :: ss, r)

/-- advanced_plots.py:125-146: the rows -/
noncomputable def matrixRows (n : Nat) (row : Hp ℝ → List (Ax ℝ) × List (Ax ℝ) × Py Unit) :
    List (Hp ℝ) → List (List (Ax ℝ)) × List (List (Ax ℝ)) × Py Unit
  | [] => ([], [], .ok ())
  | hp2 :: hps =>
    match row hp2 with
    | (m, s, .error e) =>
      (m :: hps.map fun _ => List.replicate n Ax.new, s :: hps.map fun _ => List.replicate n Ax.new, .error e)
    | (m, s, .ok _) =>
      let (ms, ss, r) := matrixRows n row hps
      (m :: ms, s :: ss, r)

/-- advanced_plots.py:109-148 `plot_hyperparameter_array_2D`: the axes of the two figures, row by row (a single axis is wrapped, 121-124);
`plt.subplots(0, 0)` is a ValueError. The cell of `hp2` (row) and `hp1` (column) draws `draws hp2 hp1`; all cells use the same seed. -/
noncomputable def hyperparameterArray2D (predict : Predict ℝ) (cs : ConfigSpace ℝ) (perAxis : Nat)
    (draws : Hp ℝ → Hp ℝ → Draws (Config ℝ)) : List (List (Ax ℝ)) × List (List (Ax ℝ)) × Py Unit :=
  if cs.length = 0 then ([], [], .error .value)
  else matrixRows cs.length (fun hp2 => matrixRow (fun hp1 => matrixCell predict cs perAxis (draws hp2 hp1) hp2 hp1) cs) cs

/-! ### Bayesian optimisation -/

/-- `config[name]` of what `get_optimum` hands out; indexing a string with a string is a TypeError -/
def pickedNumber {K : Type} (name : String) : Picked (Config K) → Py K
  | .name _ => .error .type
  | .config c => configNumber name c

/-- advanced_plots.py:13-33 `plot_full_bayesian`: random state of the acquisition function, the two axes. `ax.plot(v, marker="x")` with a
single argument draws `v` over its index 0. -/
noncomputable def fullBayesian {X S : Type} (argsort : List ℝ → List Nat) (predict : Predict ℝ) (cs : ConfigSpace ℝ)
    (s : SamplerState (Config ℝ) ℝ X) (d : Drawer (Config ℝ) S) (n : Int) (value : Config ℝ → ℝ) (rng : S) :
    S × Ax ℝ × Ax ℝ × Py Unit :=
  match (do
    surrogateMeans "blue" predict cs 100                                                   -- 26
    surrogateConfidences "blue" "lightblue" predict cs 100                                 -- 27
    samplerPlot argsort "red" cs (.name "x1") s : Plot ℝ Unit) Ax.new with                 -- 28
  | (axF, .error e) => (rng, axF, Ax.new, .error e)
  | (axF, .ok _) =>
    match acqPlot argsort "darkgreen" "red" true cs d n value (.name "x1") rng Ax.new with -- 29
    | (rng1, axA, .error e) => (rng1, axF, axA, .error e)
    | (rng1, axA, .ok _) =>
      match getOptimum (cs.map Hp.name) d n value rng1 with                                -- 30
      | (rng2, .error e) => (rng2, axF, axA, .error e)
      | (rng2, .ok opt) =>
        let (axA', r) := (do
          let v ← Plot.lift (pickedNumber "x1" opt)
          Plot.add (.points "" [0] [v]) : Plot ℝ Unit) axA
        (rng2, axF, axA', r)

end PyPDP
