/-
The functions of Model/Legend draw what the functions of Model/Plotting, Model/Plots, Model/AcquisitionPlot and Model/AdvancedPlots draw.
-/
import Verif.Model.Legend

namespace PyPDP
variable {K α β : Type}

/-- without the labels, `q` does what `p` does -/
def Erases (q : LPlot K α) (p : Plot K α) : Prop := ∀ la, ((q la).1.ax, (q la).2) = p la.ax

theorem Erases.of (p : Plot K α) : Erases (LPlot.of p) p := fun _ => rfl

theorem Erases.pure (a : α) : Erases (pure a : LPlot K α) (Pure.pure a) := fun _ => rfl

theorem Erases.labelled (l : Option String) (p : Plot K Unit) : Erases (LPlot.labelled l p) p := by
  intro la
  unfold LPlot.labelled
  rcases h : p la.ax with ⟨ax, _ | _⟩
  · rfl
  · dsimp only
    split
    · split <;> rfl
    · rfl

theorem Erases.bind {q : LPlot K α} {p : Plot K α} (h : Erases q p) {g : α → LPlot K β} {f : α → Plot K β} (hg : ∀ a, Erases (g a) (f a)) :
    Erases (q >>= g) (p >>= f) := by
  intro la
  have h1 := h la
  show ((LPlot.bind q g la).1.ax, (LPlot.bind q g la).2) = Plot.bind p f la.ax
  unfold LPlot.bind Plot.bind
  rw [← h1]
  rcases q la with ⟨la', _ | a⟩
  · rfl
  · exact hg a la'

theorem Erases.run {q : LPlot K α} {p : Plot K α} (h : Erases q p) (la : LAx K) : p la.ax = ((q la).1.ax, (q la).2) := (h la).symm

theorem sigmaLoop_erases (name color : String) (x means stds : List ℝ) : ∀ ks : List Factor,
    Erases (sigmaLoopL name color x means stds ks) (sigmaLoop color x means stds (ks.map Factor.value))
  | [] => Erases.pure ()
  | k :: ks => by
    simp only [sigmaLoopL, List.map_cons, sigmaLoop]
    split
    · exact sigmaLoop_erases name color x means stds ks
    · exact (Erases.of _).bind fun lo => (Erases.labelled _ _).bind fun _ => (Erases.of _).bind fun hi => (Erases.of _).bind fun _ =>
        sigmaLoop_erases name color x means stds ks

/-- the factors as numbers -/
noncomputable def factorValues : KSigmas Factor → KSigmas ℝ
  | .seq ks => .seq (ks.map Factor.value)
  | .iter ks => .iter (ks.map Factor.value)

theorem factors_hasZero (ks : KSigmas Factor) : factorsHaveZero ks = (factorValues ks).hasZero := by
  cases ks <;> rfl

theorem factors_rest (ks : KSigmas Factor) : (factorsRest ks).map Factor.value = (factorValues ks).rest := by
  cases ks with
  | seq ks => rfl
  | iter ks =>
    simp only [factorsRest, factorValues, KSigmas.rest, List.map_drop]
    congr 1
    induction ks with
    | nil => rfl
    | cons k ks ih =>
      rw [List.map_cons, List.dropWhile_cons, List.dropWhile_cons]
      split <;> simp_all

theorem confidenceLines_erases (name : String) (x means : List ℝ) (stds variances : Option (List ℝ)) (color : String) (ks : KSigmas Factor) :
    Erases (confidenceLinesL name x means stds variances color ks) (confidenceLines x means stds variances color (factorValues ks)) := by
  unfold confidenceLinesL confidenceLines
  refine (Erases.of _).bind fun s => Erases.bind ?_ fun _ => ?_
  · rw [factors_hasZero]
    unfold muLineL muLine
    split
    · exact Erases.labelled _ _
    · exact Erases.pure ()
  · rw [← factors_rest]
    have : ((factorsRest ks).map Factor.value).mergeSort (fun a b => decide (a ≤ b)) =
        ((factorsRest ks).mergeSort fun a b => decide (a.value ≤ b.value)).map Factor.value :=
      (List.map_mergeSort (by intros; rfl)).symm
    rw [this]
    exact sigmaLoop_erases name color x means s _

theorem plotFunction_erases (l : String) (f : List (String × Val ℝ) → Py ℝ) (cs : ConfigSpace ℝ) (n : Nat) (color : String) :
    Erases (plotFunctionL (some l) f cs n color) (plotFunction f cs n color) := by
  unfold plotFunctionL plotFunction
  split
  · exact Erases.of _
  · split
    · exact Erases.of _
    · refine (Erases.of _).bind fun ranges => (Erases.of _).bind fun _ => ?_
      generalize parametersOf cs = hps
      match hps with
      | [] => exact Erases.of _
      | [_] => exact (Erases.of _).bind fun x => (Erases.of _).bind fun y => Erases.labelled _ _
      | [_, _] => exact Erases.of _
      | _ :: _ :: _ :: _ => exact Erases.of _

theorem curveValues_erases (name color : String) (c : IceCurve ℝ) : Erases (curveValuesL name color c) (curveValues color c) := by
  refine (Erases.of _).bind fun _ => (Erases.of _).bind fun idx => (Erases.of _).bind fun rows => ?_
  generalize c.selected = hps
  match hps with
  | [] => exact Erases.of _
  | [_] => exact (Erases.of _).bind fun i => (Erases.of _).bind fun x => Erases.labelled _ _
  | [_, _] => exact Erases.of _
  | _ :: _ :: _ :: _ => exact Erases.of _

theorem curveConfidences_erases (name lineColor gradientColor : String) (m : ℝ) (c : IceCurve ℝ) :
    Erases (curveConfidencesL name lineColor gradientColor m c) (curveConfidences lineColor gradientColor m c) := by
  refine (Erases.of _).bind fun _ => (Erases.of _).bind fun idx => (Erases.of _).bind fun rows => ?_
  generalize c.selected = hps
  match hps with
  | [] => exact Erases.of _
  | [_] =>
    refine (Erases.of _).bind fun i => (Erases.of _).bind fun x => (Erases.of _).bind fun _ => ?_
    have := confidenceLines_erases name x c.y (some (c.v.map Real.sqrt)) none lineColor (.seq [.int 1, .int 2])
    simpa [factorValues, Factor.value] using this
  | [_, _] => exact Erases.of _
  | _ :: _ :: _ :: _ => exact Erases.of _

theorem regionPlotValues_erases (color : String) (cs : ConfigSpace ℝ) (selected : List (Hp ℝ)) (n : Node ℝ) :
    Erases (regionPlotValuesL color cs selected n) (regionPlotValues color cs selected n) :=
  (Erases.of _).bind fun c => curveValues_erases _ color c

theorem regionPlotConfidences_erases (lineColor gradientColor : String) (m : ℝ) (cs : ConfigSpace ℝ) (selected : List (Hp ℝ)) (n : Node ℝ) :
    Erases (regionPlotConfidencesL lineColor gradientColor m cs selected n) (regionPlotConfidences lineColor gradientColor m cs selected n) :=
  (Erases.of _).bind fun c => curveConfidences_erases _ lineColor gradientColor m c

theorem surrogatePlot_erases (predict : Predict ℝ) (cs : ConfigSpace ℝ) (n : Nat) (pick : List ℝ × List ℝ → List ℝ)
    {lineL : List ℝ → List ℝ × List ℝ → LPlot ℝ Unit} {line : List ℝ → List ℝ × List ℝ → Plot ℝ Unit} (h : ∀ x p, Erases (lineL x p) (line x p)) :
    Erases (surrogatePlotL predict cs n pick lineL) (surrogatePlot predict cs n pick line) := by
  unfold surrogatePlotL surrogatePlot
  split
  · refine (Erases.of _).bind fun _ => (Erases.of _).bind fun ranges => ?_
    match cs with
    | [] => exact Erases.of _
    | [_] => exact (Erases.of _).bind fun p => (Erases.of _).bind fun x => h x p
    | [_, _] => exact Erases.of _
    | _ :: _ :: _ :: _ => exact Erases.of _
  · exact Erases.of _

theorem surrogateMeans_erases (cls color : String) (predict : Predict ℝ) (cs : ConfigSpace ℝ) (n : Nat) :
    Erases (surrogateMeansL cls color predict cs n) (surrogateMeans color predict cs n) :=
  surrogatePlot_erases predict cs n _ fun _ _ => Erases.labelled _ _

theorem surrogateConfidences_erases (cls lineColor gradientColor : String) (predict : Predict ℝ) (cs : ConfigSpace ℝ) (n : Nat) :
    Erases (surrogateConfidencesL cls lineColor gradientColor predict cs n) (surrogateConfidences lineColor gradientColor predict cs n) := by
  refine surrogatePlot_erases predict cs n _ fun x p => (Erases.of _).bind fun _ => ?_
  have := confidenceLines_erases cls x p.1 (some p.2) none lineColor (.seq [.int 1, .int 2])
  simpa [factorValues, Factor.value] using this

theorem samplerPlot_erases {X : Type} (cls : String) (label : Option String) (argsort : List ℝ → List Nat) (color : String) (cs : ConfigSpace ℝ)
    (sel : Selection ℝ) (s : SamplerState (Config ℝ) ℝ X) :
    Erases (samplerPlotL cls label argsort color cs sel s) (samplerPlot argsort color cs sel s) := by
  refine (Erases.of _).bind fun hps => (Erases.of _).bind fun _ => ?_
  match hps with
  | [] => exact Erases.of _
  | [_] => exact (Erases.of _).bind fun _ => (Erases.of _).bind fun _ => (Erases.of _).bind fun _ => Erases.labelled _ _
  | [_, _] =>
    refine (Erases.of _).bind fun _ => (Erases.of _).bind fun _ => ?_
    split
    · exact Erases.of _
    · exact Erases.labelled _ _
  | _ :: _ :: _ :: _ => exact Erases.of _

theorem drawAcquisition_erases (cls : String) (text : Picked (Config ℝ) → String) (argsort : List ℝ → List Nat) (colorAcq colorOpt : String)
    (showOptimum : Bool) (cs : ConfigSpace ℝ) (value : Config ℝ → ℝ) (rows : List (List (Val ℝ))) (ys : List ℝ) (opt : Picked (Config ℝ)) (hps : List (Hp ℝ)) :
    Erases (drawAcquisitionL cls text argsort colorAcq colorOpt showOptimum cs value rows ys opt hps)
      (drawAcquisition argsort colorAcq colorOpt showOptimum cs value rows ys opt hps) := by
  match hps with
  | [] => exact Erases.of _
  | [_] =>
    refine (Erases.of _).bind fun _ => (Erases.of _).bind fun _ => (Erases.of _).bind fun _ => (Erases.of _).bind fun _ => (Erases.labelled _ _).bind fun _ => ?_
    split
    · exact (Erases.of _).bind fun _ => (Erases.of _).bind fun _ => Erases.labelled _ _
    · exact Erases.pure ()
  | [_, _] => exact Erases.of _
  | _ :: _ :: _ :: _ => exact Erases.of _

theorem acqPlot_erases {S : Type} (cls : String) (text : Picked (Config ℝ) → String) (argsort : List ℝ → List Nat) (colorAcq colorOpt : String)
    (showOptimum : Bool) (cs : ConfigSpace ℝ) (d : Drawer (Config ℝ) S) (n : Int) (value : Config ℝ → ℝ) (sel : Selection ℝ) (rng : S) (la : LAx ℝ) :
    acqPlot argsort colorAcq colorOpt showOptimum cs d n value sel rng la.ax =
      (let r := acqPlotL cls text argsort colorAcq colorOpt showOptimum cs d n value sel rng la; (r.1, r.2.1.ax, r.2.2)) := by
  unfold acqPlot acqPlotL
  rcases getHyperparameters sel cs with _ | hps
  · rfl
  · dsimp only
    rw [(Erases.of (checkAndSetAxis hps true "Acquisition")).run]
    rcases LPlot.of (checkAndSetAxis hps true "Acquisition") la with ⟨la1, _ | _⟩
    · rfl
    · dsimp only
      rcases acqConfigs (d.sampleConfiguration rng (n * hps.length)).1 with _ | configs
      · rfl
      · dsimp only
        split
        · next h => simp only [h]
        · next rows h =>
          simp only [h]
          rcases getOptimum (cs.map Hp.name) d n value (d.sampleConfiguration rng (n * hps.length)).2 with ⟨rng2, _ | opt⟩
          · rfl
          · dsimp only
            rw [(drawAcquisition_erases cls text argsort colorAcq colorOpt showOptimum cs value rows (configs.map value) opt hps).run]

theorem icePlot_erases (color : String) (alpha : ℝ) (s : IceState ℝ) (la : LAx ℝ) :
    icePlot color alpha s la.ax = (let r := icePlotL color alpha s la; (r.1, r.2.1.ax, r.2.2)) := by
  unfold icePlot icePlotL
  rw [(Erases.of (checkAndSetAxis s.cfg.selected true "Prediction")).run]
  rcases LPlot.of (checkAndSetAxis s.cfg.selected true "Prediction") la with ⟨la1, _ | _⟩
  · rfl
  · dsimp only
    rcases s.cfg.selected with _ | ⟨hp, _ | ⟨_, _⟩⟩
    · rfl
    · dsimp only
      rcases readX s with ⟨s1, _ | x⟩
      · rfl
      · dsimp only
        rcases readY s1 with ⟨s2, _ | y⟩
        · rfl
        · dsimp only
          rw [((Erases.of (drawCurves color alpha s.cfg.space hp s.cfg.numGrid x y)).bind fun _ => Erases.labelled (some "ICE") (drawLine color 1 [] [])).run]
    · rfl

theorem pdpPlotValues_erases (color : String) (s : PdpState ℝ) (la : LAx ℝ) :
    pdpPlotValues color s la.ax = (let r := pdpPlotValuesL color s la; (r.1, r.2.1.ax, r.2.2)) := by
  unfold pdpPlotValues pdpPlotValuesL
  rcases pdpCurve s with ⟨s', _ | c⟩
  · rfl
  · dsimp only
    rw [(curveValues_erases "PDP" color c).run]

theorem pdpPlotConfidences_erases (lineColor gradientColor : String) (m : ℝ) (s : PdpState ℝ) (la : LAx ℝ) :
    pdpPlotConfidences lineColor gradientColor m s la.ax = (let r := pdpPlotConfidencesL lineColor gradientColor m s la; (r.1, r.2.1.ax, r.2.2)) := by
  unfold pdpPlotConfidences pdpPlotConfidencesL
  rcases pdpCurve s with ⟨s', _ | c⟩
  · rfl
  · dsimp only
    rw [(curveConfidences_erases "PDP" lineColor gradientColor m c).run]

theorem fullPdp_erases (s : PdpState ℝ) : fullPdp s = (let r := fullPdpL s; (r.1, r.2.1.ax, r.2.2)) := by
  unfold fullPdp fullPdpL
  rcases pdpIce s with _ | i
  · rfl
  · dsimp only
    rw [show (Ax.new : Ax ℝ) = LAx.new.ax from rfl, icePlot_erases]
    dsimp only
    rcases icePlotL "red" (1 / 10) i LAx.new with ⟨i1, la1, _ | _⟩
    · rfl
    · dsimp only
      rw [pdpPlotValues_erases]
      dsimp only
      rcases pdpPlotValuesL "black" { s with ice := some i1 } la1 with ⟨s2, la2, _ | _⟩
      · rfl
      · dsimp only
        rw [pdpPlotConfidences_erases]

theorem fullBayesian_erases {X S : Type} (names : FigureNames) (argsort : List ℝ → List Nat) (predict : Predict ℝ) (cs : ConfigSpace ℝ)
    (s : SamplerState (Config ℝ) ℝ X) (d : Drawer (Config ℝ) S) (n : Int) (value : Config ℝ → ℝ) (rng : S) :
    fullBayesian argsort predict cs s d n value rng =
      (let r := fullBayesianL names argsort predict cs s d n value rng; (r.1, r.2.1.ax, r.2.2.1.ax, r.2.2.2.map fun _ => ())) := by
  have h1 : Erases (do
      surrogateMeansL names.surrogate "blue" predict cs 100
      surrogateConfidencesL names.surrogate "blue" "lightblue" predict cs 100
      samplerPlotL names.sampler none argsort "red" cs (.name "x1") s : LPlot ℝ Unit) (do
      surrogateMeans "blue" predict cs 100
      surrogateConfidences "blue" "lightblue" predict cs 100
      samplerPlot argsort "red" cs (.name "x1") s : Plot ℝ Unit) :=
    (surrogateMeans_erases _ _ _ _ _).bind fun _ => (surrogateConfidences_erases _ _ _ _ _ _).bind fun _ => samplerPlot_erases _ _ _ _ _ _ _
  unfold fullBayesian fullBayesianL
  rw [show (Ax.new : Ax ℝ) = LAx.new.ax from rfl, h1.run]
  dsimp only
  rcases (do
      surrogateMeansL names.surrogate "blue" predict cs 100
      surrogateConfidencesL names.surrogate "blue" "lightblue" predict cs 100
      samplerPlotL names.sampler none argsort "red" cs (.name "x1") s : LPlot ℝ Unit) LAx.new with ⟨laF, _ | _⟩
  · rfl
  · dsimp only
    rw [acqPlot_erases names.acquisition names.optimum]
    dsimp only
    rcases acqPlotL names.acquisition names.optimum argsort "darkgreen" "red" true cs d n value (.name "x1") rng LAx.new with ⟨rng1, laA, _ | _⟩
    · rfl
    · dsimp only
      rcases getOptimum (cs.map Hp.name) d n value rng1 with ⟨rng2, _ | opt⟩
      · rfl
      · dsimp only
        have h2 : Erases (do
            let v ← LPlot.of (Plot.lift (pickedNumber "x1" opt))
            LPlot.of (Plot.add (.points "" [0] [v])) : LPlot ℝ Unit) (do
            let v ← Plot.lift (pickedNumber "x1" opt)
            Plot.add (.points "" [0] [v]) : Plot ℝ Unit) := (Erases.of _).bind fun _ => Erases.of _
        rw [h2.run]
        rcases (do
            let v ← LPlot.of (Plot.lift (pickedNumber "x1" opt))
            LPlot.of (Plot.add (.points "" [0] [v])) : LPlot ℝ Unit) laA with ⟨laA', _ | _⟩
        · rfl
        · rfl

end PyPDP
