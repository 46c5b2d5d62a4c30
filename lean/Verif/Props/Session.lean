/-
C162: on which axis the plotting functions draw.
-/
import Verif.Spec.Session
import Verif.Props.AcquisitionPlot

namespace PyPDP
open Spec Sess

section laws
variable {K α β γ : Type}

theorem Sess.bind_apply (p : Sess K α) (f : α → Sess K β) (w : Plt K) :
    (p >>= f) w = match p w with | (w', .ok a) => f a w' | (w', .error e) => (w', .error e) := rfl

theorem Sess.pure_bind' (a : α) (f : α → Sess K β) : (pure a : Sess K α) >>= f = f a := rfl

theorem Sess.pure_apply (a : α) (w : Plt K) : (pure a : Sess K α) w = (w, .ok a) := rfl

theorem Sess.bind_assoc' (p : Sess K α) (f : α → Sess K β) (g : β → Sess K γ) : (p >>= f) >>= g = p >>= fun a => f a >>= g := by
  funext w
  simp only [Sess.bind_apply]
  rcases p w with ⟨w', _ | a⟩ <;> rfl

theorem onAx_bind (r : Nat) (p : Plot K α) (f : α → Plot K β) : onAx r (p >>= f) = onAx r p >>= fun a => onAx r (f a) := by
  funext w
  simp only [Sess.bind_apply, onAx, Plot.bind_apply]
  rcases h : p (w.axes r) with ⟨ax', _ | a⟩
  · rfl
  · simp

theorem onAx_lift (r : Nat) (x : Py α) : onAx r (Plot.lift x : Plot K α) = Sess.lift x := by
  funext w
  simp [onAx, Plot.lift, Sess.lift]

theorem onAx_raise (r : Nat) (e : PyErr) : onAx r (Plot.raise e : Plot K α) = Sess.raise e := by
  funext w
  simp [onAx, Plot.raise, Sess.raise]

theorem onAx_pure (r : Nat) (a : α) : onAx r (pure a : Plot K α) = pure a := by
  funext w
  show (({ w with axes := Function.update w.axes r (w.axes r) } : Plt K), _) = _
  simp
  rfl

theorem lift_bind_ok {x : Py α} {a : α} (h : x = .ok a) (f : α → Sess K β) : (Sess.lift x : Sess K α) >>= f = f a := by
  subst h; rfl

end laws

/-! ### the argument -/

section argument
variable {K α S : Type}

theorem getAx_current {w : Plt K} {r : Nat} (h : Current w r) : getAx .none w = (w, .ok r) := by
  obtain ⟨i, f, h1, h2, h3⟩ := h
  show (gcf >>= figGca) w = _
  simp [Sess.bind_apply, gcf, h1, figGca, h2, h3]

theorem modify_last {α : Type} (l : List α) (a : α) (f : α → α) : (l ++ [a]).modify l.length f = l ++ [f a] := by
  induction l with
  | nil => rfl
  | cons x t ih => simpa using ih

theorem getAx_fresh {w : Plt K} (hw : Sound w) (h : ¬ ∃ r, Current w r) :
    ∃ w', Opened w w' ∧ Sound w' ∧ getAx .none w = (w', .ok w.count) := by
  rcases hc : w.current with _ | i
  · refine ⟨⟨Function.update w.axes w.count Ax.new, w.count + 1, w.figures ++ [⟨[w.count], some w.count⟩], some w.figures.length⟩, ⟨rfl, ?_, ?_, ?_, ?_, ?_⟩, ⟨?_, ?_, ?_⟩, ?_⟩
    · simp
    · intro r hr
      simp [hr]
    · exact ⟨w.figures.length, ⟨[w.count], some w.count⟩, rfl, by simp, rfl⟩
    · right
      simp [hc]
    · intro i hi
      have : i ≠ w.figures.length := fun e => hi (by rw [e])
      dsimp only
      rcases Nat.lt_or_gt_of_ne this with h | h
      · rw [List.getElem?_append_left h]
      · rw [List.getElem?_eq_none (by simpa using h), List.getElem?_eq_none h.le]
    · intro i hi
      simp at hi ⊢
      omega
    · intro f hf r hr
      dsimp only at hf ⊢
      rcases List.mem_append.1 hf with hf | hf
      · exact (hw.made f hf r hr).trans (Nat.lt_succ_self _)
      · simp only [List.mem_singleton] at hf
        subst hf
        simp at hr
        omega
    · intro f hf r hr
      rcases List.mem_append.1 hf with hf | hf
      · exact hw.current f hf r hr
      · simp only [List.mem_singleton] at hf
        subst hf
        simpa [eq_comm] using hr
    · show (gcf >>= figGca) w = _
      simp [Sess.bind_apply, gcf, hc, newFigure, figGca, addSubplot, modify_last]
  · have hi := hw.figure i hc
    have hn : (w.figures[i]?).bind Figure.current = none := by
      rcases hx : (w.figures[i]?).bind Figure.current with _ | r
      · rfl
      · obtain ⟨f, h2, h3⟩ := Option.bind_eq_some_iff.1 hx
        exact absurd ⟨r, i, f, hc, h2, h3⟩ h
    refine ⟨⟨Function.update w.axes w.count Ax.new, w.count + 1, w.figures.modify i fun f => ⟨f.axes ++ [w.count], some w.count⟩, some i⟩, ⟨rfl, ?_, ?_, ?_, ?_, ?_⟩, ⟨?_, ?_, ?_⟩, ?_⟩
    · simp
    · intro r hr
      simp [hr]
    · exact ⟨i, ⟨w.figures[i].axes ++ [w.count], some w.count⟩, rfl, by simp [List.getElem?_eq_getElem hi], rfl⟩
    · left
      simp [hc]
    · intro j hj
      have : i ≠ j := fun e => hj (by rw [e])
      simp [this]
    · intro j hj
      simp at hj ⊢
      omega
    · intro f hf r hr
      dsimp only at hf ⊢
      obtain ⟨j, hj, rfl⟩ := List.mem_iff_getElem.1 hf
      rw [List.getElem_modify] at hr
      rw [List.length_modify] at hj
      split at hr
      · simp only [List.mem_append, List.mem_singleton] at hr
        rcases hr with hr | hr
        · exact (hw.made _ (List.getElem_mem hj) r hr).trans (Nat.lt_succ_self _)
        · omega
      · exact (hw.made _ (List.getElem_mem hj) r hr).trans (Nat.lt_succ_self _)
    · intro f hf r hr
      dsimp only at hf
      obtain ⟨j, hj, rfl⟩ := List.mem_iff_getElem.1 hf
      rw [List.getElem_modify] at hr ⊢
      rw [List.length_modify] at hj
      split at hr
      · rename_i hij
        simp at hr
        simp [hij, hr]
      · rename_i hij
        simp only [hij, if_false] at hr ⊢
        exact hw.current _ (List.getElem_mem hj) r hr
    · show (gcf >>= figGca) w = _
      simp [Sess.bind_apply, gcf, hc, figGca, hn, addSubplot]

/-- a function that resolves its argument and draws on the resulting axis -/
theorem draws_of {f : Plot K α} {F : AxArg → Sess K α} (h : ∀ a, F a = getAx a >>= fun r => onAx r f) : DrawsOn f F where
  given r w := by rw [h]; rfl
  current w r hr := by
    rw [h, h, Sess.bind_apply, getAx_current hr]
    rfl
  fresh w hw hn := by
    obtain ⟨w', h1, h2, h3⟩ := getAx_fresh hw hn
    refine ⟨w', h1, h2, ?_⟩
    rw [h, h, Sess.bind_apply, h3]
    rfl
  other w := by rw [h]; rfl

theorem drawsWith_of {s : S} {f : Ax K → S × Ax K × Py α} {F : AxArg → Plt K → S × Plt K × Py α}
    (h : ∀ a w, F a w = match getAx a w with
      | (w1, .error e) => (s, w1, .error e)
      | (w1, .ok r) => ((f (w1.axes r)).1, { w1 with axes := Function.update w1.axes r (f (w1.axes r)).2.1 }, (f (w1.axes r)).2.2)) :
    DrawsWith s f F where
  given r w := by rw [h]; rfl
  current w r hr := by
    rw [h, h, getAx_current hr]
    rfl
  fresh w hw hn := by
    obtain ⟨w', h1, h2, h3⟩ := getAx_fresh hw hn
    refine ⟨w', h1, h2, ?_⟩
    rw [h, h, h3]
    rfl
  other w := by rw [h]; rfl

/-- two calls with the same argument -/
theorem Spec.DrawsOn.seq {β : Type} {f : Plot K α} {F : AxArg → Sess K α} {g : α → Plot K β} {G : α → AxArg → Sess K β} (hF : DrawsOn f F)
    (hG : ∀ a, DrawsOn (g a) (G a)) : DrawsOn (f >>= g) (fun x => F x >>= fun a => G a x) := by
  have hgiven : ∀ r w, (F (.axis r) >>= fun a => G a (.axis r)) w =
      ({ w with axes := Function.update w.axes r ((f >>= g) (w.axes r)).1 }, ((f >>= g) (w.axes r)).2) := by
    intro r w
    rw [Sess.bind_apply, hF.given, Plot.bind_apply]
    rcases h : f (w.axes r) with ⟨ax', e | a⟩
    · rfl
    · dsimp only
      rw [(hG a).given]
      simp
  have hcur : ∀ w r, Current w r → (F .none >>= fun a => G a .none) w = (F (.axis r) >>= fun a => G a (.axis r)) w := by
    intro w r hr
    rw [Sess.bind_apply, Sess.bind_apply, hF.current w r hr, hF.given]
    rcases h : f (w.axes r) with ⟨ax', e | a⟩
    · rfl
    · dsimp only
      exact (hG a).current _ r hr
  refine ⟨hgiven, hcur, ?_, ?_⟩
  · intro w hw hn
    obtain ⟨w', h1, h2, h3⟩ := hF.fresh w hw hn
    refine ⟨w', h1, h2, ?_⟩
    rw [← hcur w' w.count h1.current, Sess.bind_apply, Sess.bind_apply, h3, hF.current w' w.count h1.current]
  · intro w
    rw [Sess.bind_apply, hF.other]

end argument

/-! ### the functions -/

section functions
variable {K : Type} [Field K] [LinearOrder K]

theorem plotLineS_eq (color : String) (x y : List K) (a : AxArg) : plotLineS color x y a = getAx a >>= fun r => onAx r (plotLine color x y) := rfl

theorem plot2DS_eq {K : Type} (xs ys vs : List K) (a : AxArg) : plot2DS xs ys vs a = getAx a >>= fun r => onAx r (plot2D xs ys vs) := rfl

theorem plotConfigSpaceS_eq {K : Type} (cs : ConfigSpace K) (sel : Selection K) (color : String) (a : AxArg) :
    plotConfigSpaceS cs sel color a = getAx a >>= fun r => onAx r (plotConfigSpace cs sel color) := by
  unfold plotConfigSpaceS plotConfigSpace
  congr 1
  funext r
  simp only [onAx_bind, onAx_lift]

theorem plotFunctionS_eq (f : List (String × Val ℝ) → Py ℝ) (cs : ConfigSpace ℝ) (n : Nat) (color : String) (a : AxArg) :
    plotFunctionS f cs n color a = getAx a >>= fun r => onAx r (plotFunction f cs n color) := by
  unfold plotFunctionS plotFunction
  congr 1
  funext r
  split
  · rw [onAx_raise]
  split
  · rw [onAx_raise]
  · simp only [onAx_bind, onAx_lift]

theorem confidenceGradientsS_eq (x means : List ℝ) (stds variances : Option (List ℝ)) (color : String) (steps : Int) (maxSigma : ℝ) (a : AxArg) :
    confidenceGradientsS x means stds variances color steps maxSigma a =
      getAx a >>= fun r => onAx r (confidenceGradients x means stds variances color steps maxSigma) := by
  unfold confidenceGradientsS confidenceGradients
  congr 1
  funext r
  simp only [onAx_bind, onAx_lift]

theorem confidenceLinesS_axis (x means : List ℝ) (stds variances : Option (List ℝ)) (color : String) (ks : KSigmas ℝ) (r : Nat) :
    confidenceLinesS x means stds variances color ks (.axis r) = onAx r (confidenceLines x means stds variances color ks) := by
  unfold confidenceLinesS confidenceLines
  simp only [onAx_bind, onAx_lift]
  rfl

theorem confidenceLinesS_eq {x means : List ℝ} {stds variances : Option (List ℝ)} {s : List ℝ} (hs : getStds stds variances = .ok s)
    (color : String) (ks : KSigmas ℝ) (a : AxArg) :
    confidenceLinesS x means stds variances color ks a = getAx a >>= fun r => onAx r (confidenceLines x means stds variances color ks) := by
  have : ∀ r, onAx r (confidenceLines x means stds variances color ks) = confidenceLinesS x means stds variances color ks (.axis r) :=
    fun r => (confidenceLinesS_axis x means stds variances color ks r).symm
  simp only [this]
  unfold confidenceLinesS
  rw [hs]
  rfl

theorem drawValuesS_eq (color : String) (rows : List (List (Val K))) (vals : List K) (idx : List Nat) (r : Nat) (hps : List (Hp K)) :
    drawValuesS color rows vals idx r hps = onAx r (drawValues color rows vals idx hps) := by
  rcases hps with _ | ⟨p, _ | ⟨q, _ | ⟨o, t⟩⟩⟩
  · exact (onAx_raise r _).symm
  · simp only [drawValuesS, drawValues, onAx_bind, onAx_lift]; rfl
  · simp only [drawValuesS, drawValues, onAx_bind, onAx_lift]; rfl
  · exact (onAx_raise r _).symm

variable [Transc K]

theorem curveValuesS_eq (color : String) (c : IceCurve K) (a : AxArg) :
    curveValuesS color c a = getAx a >>= fun r => onAx r (curveValues color c) := by
  unfold curveValuesS curveValues
  congr 1
  funext r
  simp only [onAx_bind, onAx_lift, drawValuesS_eq]

theorem curveIncumbentS_eq (color : String) (c : IceCurve K) (a : AxArg) :
    curveIncumbentS color c a = getAx a >>= fun r => onAx r (curveIncumbent color c) := by
  unfold curveIncumbentS curveIncumbent
  congr 1
  funext r
  simp only [onAx_bind, onAx_lift]

theorem drawConfidencesS_eq (lc gc : String) (m : ℝ) (rows : List (List (Val ℝ))) (y sigmas : List ℝ) (idx : List Nat) (r : Nat) (hps : List (Hp ℝ)) :
    drawConfidencesS lc gc m rows y sigmas idx r hps = onAx r (drawConfidences lc gc m rows y sigmas idx hps) := by
  rcases hps with _ | ⟨p, _ | ⟨q, _ | ⟨o, t⟩⟩⟩
  · exact (onAx_raise r _).symm
  · simp only [drawConfidencesS, drawConfidences, onAx_bind, onAx_lift, confidenceGradientsS_eq, confidenceLinesS_axis]; rfl
  · simp only [drawConfidencesS, drawConfidences, onAx_bind, onAx_lift]; rfl
  · exact (onAx_raise r _).symm

theorem curveConfidencesS_eq (lc gc : String) (m : ℝ) (c : IceCurve ℝ) (a : AxArg) :
    curveConfidencesS lc gc m c a = getAx a >>= fun r => onAx r (curveConfidences lc gc m c) := by
  unfold curveConfidencesS curveConfidences
  congr 1
  funext r
  simp only [onAx_bind, onAx_lift, drawConfidencesS_eq]

theorem regionPlotS_eq (color : String) (alpha : K) (cs : ConfigSpace K) (sel : List (Hp K)) (P : Nat) (n : Node K) (a : AxArg) :
    regionPlotS color alpha cs sel P n a = getAx a >>= fun r => onAx r (regionPlot color alpha cs sel P n) := by
  unfold regionPlotS regionPlot
  congr 1
  funext r
  simp only [onAx_bind]

theorem leafLoopS_eq (alpha : K) (cs : ConfigSpace K) (sel : List (Hp K)) (P : Nat) (colors : List String) (r : Nat) (ls : List (Node K)) :
    ∀ i, leafLoopS alpha cs sel P colors r i ls = onAx r (leafLoop alpha cs sel P colors i ls) := by
  induction ls with
  | nil => intro i; exact (onAx_pure r ()).symm
  | cons l t ih =>
    intro i
    unfold leafLoopS leafLoop
    simp only [onAx_bind, onAx_lift, regionPlotS_eq, ih]
    rfl

theorem dtPlotIncumbentS_eq (color : String) (cfg : Config K) (p : DT K) (a : AxArg) :
    dtPlotIncumbentS color cfg p a = getAx a >>= fun r => onAx r (dtPlotIncumbent color cfg p) := by
  unfold dtPlotIncumbentS dtPlotIncumbent
  congr 1
  funext r
  simp only [onAx_bind, onAx_lift, plotConfigSpaceS_eq]
  rfl

theorem forestLoopS_eq (cfg : Config K) (r : Nat) (ts : List (DT K × String)) : forestLoopS cfg r ts = onAx r (forestLoop cfg ts) := by
  induction ts with
  | nil => exact (onAx_pure r ()).symm
  | cons x t ih =>
    unfold forestLoopS forestLoop
    simp only [onAx_bind, dtPlotIncumbentS_eq, ih]
    rfl

end functions

section surrogate

theorem surrogatePlotS_eq (predict : Predict ℝ) (cs : ConfigSpace ℝ) (n : Nat) (pick : List ℝ × List ℝ → List ℝ)
    {line : List ℝ → List ℝ × List ℝ → Plot ℝ Unit} {lineS : List ℝ → List ℝ × List ℝ → AxArg → Sess ℝ Unit}
    (hl : ∀ x p r, lineS x p (.axis r) = onAx r (line x p)) (a : AxArg) :
    surrogatePlotS predict cs n pick lineS a = getAx a >>= fun r => onAx r (surrogatePlot predict cs n pick line) := by
  unfold surrogatePlotS surrogatePlot
  congr 1
  funext r
  split
  · simp only [onAx_bind, onAx_lift]
    congr 1
    funext _
    congr 1
    funext ranges
    rcases cs with _ | ⟨p, _ | ⟨q, _ | ⟨o, t⟩⟩⟩
    · exact (onAx_raise r _).symm
    · simp only [drawSurrogateS, drawSurrogate, onAx_bind, onAx_lift, hl]
    · simp only [drawSurrogateS, drawSurrogate, onAx_bind, onAx_lift]
    · exact (onAx_raise r _).symm
  · rw [onAx_raise]

theorem surrogateMeansS_eq (color : String) (predict : Predict ℝ) (cs : ConfigSpace ℝ) (n : Nat) (a : AxArg) :
    surrogateMeansS color predict cs n a = getAx a >>= fun r => onAx r (surrogateMeans color predict cs n) :=
  surrogatePlotS_eq predict cs n _ (fun _ _ _ => rfl) a

theorem surrogateConfidencesS_eq (lc gc : String) (predict : Predict ℝ) (cs : ConfigSpace ℝ) (n : Nat) (a : AxArg) :
    surrogateConfidencesS lc gc predict cs n a = getAx a >>= fun r => onAx r (surrogateConfidences lc gc predict cs n) :=
  surrogatePlotS_eq predict cs n _ (fun x p r => by
    simp only [onAx_bind, confidenceGradientsS_eq, confidenceLinesS_axis]
    rfl) a

theorem samplerPlotS_eq {K X : Type} (argsort : List K → List Nat) (color : String) (cs : ConfigSpace K) (sel : Selection K)
    (s : SamplerState (Config K) K X) (a : AxArg) :
    samplerPlotS argsort color cs sel s a = getAx a >>= fun r => onAx r (samplerPlot argsort color cs sel s) := by
  unfold samplerPlotS samplerPlot
  congr 1
  funext r
  simp only [onAx_bind, onAx_lift]

end surrogate

/-! ### C162 -/

section main
variable {K : Type} [Field K] [LinearOrder K] [Transc K]

omit [Transc K] in
/-- the drawing functions of utils/plotting.py -/
theorem C162_helpers :
    (∀ (color : String) (x y : List K), DrawsOn (plotLine color x y) (plotLineS color x y)) ∧
    (∀ (x y v : List K), DrawsOn (plot2D x y v) (plot2DS x y v)) ∧
    (∀ (cs : ConfigSpace K) (sel : Selection K) (color : String), DrawsOn (plotConfigSpace cs sel color) (plotConfigSpaceS cs sel color)) ∧
    (∀ (f : List (String × Val ℝ) → Py ℝ) (cs : ConfigSpace ℝ) (n : Nat) (color : String),
      DrawsOn (plotFunction f cs n color) (plotFunctionS f cs n color)) ∧
    (∀ (x m : List ℝ) (s v : Option (List ℝ)) (color : String) (n : Int) (top : ℝ),
      DrawsOn (confidenceGradients x m s v color n top) (confidenceGradientsS x m s v color n top)) :=
  ⟨fun _ _ _ => draws_of fun _ => rfl, fun _ _ _ => draws_of fun _ => rfl, fun _ _ _ => draws_of (plotConfigSpaceS_eq _ _ _),
    fun _ _ _ _ => draws_of (plotFunctionS_eq _ _ _ _), fun _ _ _ _ _ _ _ => draws_of (confidenceGradientsS_eq _ _ _ _ _ _ _)⟩

/-- `plot_1D_confidence_lines` looks at the standard deviations first: if they are wrong, no figure is opened. -/
theorem C162_lines (x m : List ℝ) (s v : Option (List ℝ)) (color : String) (ks : KSigmas ℝ) :
    (∀ d, getStds s v = .ok d → DrawsOn (confidenceLines x m s v color ks) (confidenceLinesS x m s v color ks)) ∧
    (∀ e, getStds s v = .error e → ∀ a w, confidenceLinesS x m s v color ks a w = (w, .error e)) := by
  refine ⟨fun d hd => draws_of (confidenceLinesS_eq hd color ks), fun e he a w => ?_⟩
  unfold confidenceLinesS
  rw [he]
  rfl

/-- single curves -/
theorem C162_curves :
    (∀ (color : String) (c : IceCurve K), DrawsOn (curveValues color c) (curveValuesS color c)) ∧
    (∀ (color : String) (c : IceCurve K), DrawsOn (curveIncumbent color c) (curveIncumbentS color c)) ∧
    (∀ (line grad : String) (top : ℝ) (c : IceCurve ℝ), DrawsOn (curveConfidences line grad top c) (curveConfidencesS line grad top c)) :=
  ⟨fun _ _ => draws_of (curveValuesS_eq _ _), fun _ _ => draws_of (curveIncumbentS_eq _ _), fun _ _ _ _ => draws_of (curveConfidencesS_eq _ _ _ _)⟩

/-- `ICE.plot` -/
theorem C162_ice (color : String) (alpha : K) (s : IceState K) : DrawsWith s (icePlot color alpha s) (icePlotS color alpha s) :=
  drawsWith_of fun a w => by
    unfold icePlotS
    rcases getAx a w with ⟨w1, e | r⟩ <;> rfl

/-- the plots of a PDP: the curve is computed before an axis is looked for -/
theorem C162_pdp (color line grad : String) (top : ℝ) :
    (∀ (s s' : PdpState K) (c : IceCurve K), pdpCurve s = (s', .ok c) →
      DrawsWith s' (pdpPlotValues color s) (pdpPlotValuesS color s)) ∧
    (∀ (s s' : PdpState K) (e : PyErr), pdpCurve s = (s', .error e) → ∀ a w, pdpPlotValuesS color s a w = (s', w, .error e)) ∧
    (∀ (s s' : PdpState ℝ) (c : IceCurve ℝ), pdpCurve s = (s', .ok c) →
      DrawsWith s' (pdpPlotConfidences line grad top s) (pdpPlotConfidencesS line grad top s)) ∧
    (∀ (s s' : PdpState ℝ) (e : PyErr), pdpCurve s = (s', .error e) → ∀ a w, pdpPlotConfidencesS line grad top s a w = (s', w, .error e)) := by
  refine ⟨fun s s' c h => drawsWith_of fun a w => ?_, fun s s' e h a w => ?_, fun s s' c h => drawsWith_of fun a w => ?_, fun s s' e h a w => ?_⟩
  · unfold pdpPlotValuesS pdpPlotValues
    rw [h]
    dsimp only
    rw [curveValuesS_eq, Sess.bind_apply]
    rcases getAx a w with ⟨w1, e | r⟩ <;> rfl
  · unfold pdpPlotValuesS
    rw [h]
  · unfold pdpPlotConfidencesS pdpPlotConfidences
    rw [h]
    dsimp only
    rw [curveConfidencesS_eq, Sess.bind_apply]
    rcases getAx a w with ⟨w1, e | r⟩ <;> rfl
  · unfold pdpPlotConfidencesS
    rw [h]

/-- the plots of a region -/
theorem C162_region (color line grad : String) (top : ℝ) :
    (∀ (cs : ConfigSpace K) (sel : List (Hp K)) (n : Node K) (c : IceCurve K), regionPdp cs sel n = .ok c →
      DrawsOn (regionPlotValues color cs sel n) (regionPlotValuesS color cs sel n)) ∧
    (∀ (cs : ConfigSpace ℝ) (sel : List (Hp ℝ)) (n : Node ℝ) (c : IceCurve ℝ), regionPdp cs sel n = .ok c →
      DrawsOn (regionPlotConfidences line grad top cs sel n) (regionPlotConfidencesS line grad top cs sel n)) ∧
    (∀ (alpha : K) (cs : ConfigSpace K) (sel : List (Hp K)) (P : Nat) (n : Node K),
      DrawsOn (regionPlot color alpha cs sel P n) (regionPlotS color alpha cs sel P n)) := by
  refine ⟨fun cs sel n c h => draws_of fun a => ?_, fun cs sel n c h => draws_of fun a => ?_, fun _ _ _ _ _ => draws_of (regionPlotS_eq _ _ _ _ _ _)⟩
  · unfold regionPlotValuesS regionPlotValues
    rw [lift_bind_ok h, curveValuesS_eq]
    simp only [onAx_bind, onAx_lift, lift_bind_ok h]
  · unfold regionPlotConfidencesS regionPlotConfidences
    rw [lift_bind_ok h, curveConfidencesS_eq]
    simp only [onAx_bind, onAx_lift, lift_bind_ok h]

/-- the plots of a tree and of a forest with given colours, and of the region of an incumbent -/
theorem C162_trees {G : Type} (draw : G → K × G) (name : K → K → K → String) (g : G) :
    (∀ (colors : List String) (alpha : K) (p : DT K),
      DrawsWith g (fun ax => (g, dtPlot colors alpha p ax)) (fun a => dtPlotS draw name (some colors) alpha p a g)) ∧
    (∀ (color : String) (cfg : Config K) (p : DT K), DrawsOn (dtPlotIncumbent color cfg p) (dtPlotIncumbentS color cfg p)) ∧
    (∀ (colors : List String) (cfg : Config K) (p : RF K),
      DrawsWith g (fun ax => (g, rfPlotIncumbent colors cfg p ax)) (fun a => rfPlotIncumbentS draw name (some colors) cfg p a g)) := by
  refine ⟨fun colors alpha p => drawsWith_of fun a w => ?_, fun _ _ _ => draws_of (dtPlotIncumbentS_eq _ _ _), fun colors cfg p => drawsWith_of fun a w => ?_⟩
  · unfold dtPlotS dtPlot
    rcases getAx a w with ⟨w1, e | r⟩
    · rfl
    · by_cases h1 : p.leaves.length = 0
      · simp [h1, Plot.raise]
      by_cases h2 : colors.length = p.leaves.length
      · simp [h1, h2, resolveColors, leafLoopS_eq, onAx]
      · simp [h1, h2, resolveColors, Plot.raise]
  · unfold rfPlotIncumbentS rfPlotIncumbent
    rcases getAx a w with ⟨w1, e | r⟩
    · rfl
    · cases p.trees with
      | none => simp [Plot.raise]
      | some trees =>
        simp only [resolveColors, forestLoopS_eq]
        rfl

omit [Transc K] in
/-- surrogate models, samplers and acquisition functions -/
theorem C162_models :
    (∀ (color : String) (predict : Predict ℝ) (cs : ConfigSpace ℝ) (n : Nat),
      DrawsOn (surrogateMeans color predict cs n) (surrogateMeansS color predict cs n)) ∧
    (∀ (line grad : String) (predict : Predict ℝ) (cs : ConfigSpace ℝ) (n : Nat),
      DrawsOn (surrogateConfidences line grad predict cs n) (surrogateConfidencesS line grad predict cs n)) ∧
    (∀ {X : Type} (argsort : List K → List Nat) (color : String) (cs : ConfigSpace K) (sel : Selection K) (s : SamplerState (Config K) K X),
      DrawsOn (samplerPlot argsort color cs sel s) (samplerPlotS argsort color cs sel s)) ∧
    (∀ {S : Type} (argsort : List K → List Nat) (ca co : String) (opt : Bool) (cs : ConfigSpace K) (d : Drawer (Config K) S) (n : Int)
      (value : Config K → K) (sel : Selection K) (rng : S),
      DrawsWith rng (acqPlot argsort ca co opt cs d n value sel rng) (acqPlotS argsort ca co opt cs d n value sel rng)) :=
  ⟨fun _ _ _ _ => draws_of (surrogateMeansS_eq _ _ _ _), fun _ _ _ _ _ => draws_of (surrogateConfidencesS_eq _ _ _ _ _),
    fun _ _ _ _ _ => draws_of (samplerPlotS_eq _ _ _ _ _), fun _ _ _ _ _ _ _ _ _ _ => drawsWith_of fun a w => by
      unfold acqPlotS
      rcases getAx a w with ⟨w1, e | r⟩ <;> rfl⟩

/-- Calls one after the other without naming an axis draw on one axis. -/
theorem C162_together {K α β : Type} {f : Plot K α} {F : AxArg → Sess K α} {g : Plot K β} {G : AxArg → Sess K β} (hF : DrawsOn f F)
    (hG : DrawsOn g G) : DrawsOn (f >>= fun _ => g) (fun a => F a >>= fun _ => G a) :=
  hF.seq fun _ => hG

/-! colours that were not passed -/

omit [Field K] [LinearOrder K] [Transc K] in
theorem randomColors_eq {G : Type} (draw : G → K × G) (name : K → K → K → String) (n : Nat) :
    ∀ g, (randomColors draw name n g).2 = advance draw g (3 * n) ∧ (randomColors draw name n g).1.length = n ∧
      ∀ i < n, ∃ r gr b : K, (numbers draw g (3 * n))[3 * i]? = some r ∧ (numbers draw g (3 * n))[3 * i + 1]? = some gr ∧
        (numbers draw g (3 * n))[3 * i + 2]? = some b ∧ (randomColors draw name n g).1[i]? = some (name r gr b) := by
  induction n with
  | zero => exact fun g => ⟨rfl, rfl, fun i h => absurd h (Nat.not_lt_zero i)⟩
  | succ n ih =>
    intro g
    obtain ⟨h1, h2, h3⟩ := ih (draw (draw (draw g).2).2).2
    refine ⟨?_, ?_, ?_⟩
    · show (randomColors draw name n _).2 = _
      rw [h1]
      unfold advance
      rw [show 3 * (n + 1) = 3 * n + 1 + 1 + 1 by ring]
      simp only [Function.iterate_succ, Function.comp]
    · show (_ :: (randomColors draw name n _).1).length = _
      rw [List.length_cons, h2]
    · intro i hi
      have e : numbers draw g (3 * (n + 1)) = (draw g).1 :: (draw (draw g).2).1 :: (draw (draw (draw g).2).2).1 ::
          numbers draw (draw (draw (draw g).2).2).2 (3 * n) := by
        rw [show 3 * (n + 1) = 3 * n + 1 + 1 + 1 by ring]
        rfl
      have e2 : (randomColors draw name (n + 1) g).1 =
          name (draw g).1 (draw (draw g).2).1 (draw (draw (draw g).2).2).1 :: (randomColors draw name n (draw (draw (draw g).2).2).2).1 := rfl
      rw [e, e2]
      cases i with
      | zero => exact ⟨_, _, _, rfl, rfl, rfl, rfl⟩
      | succ i =>
        obtain ⟨r, gr, b, k1, k2, k3, k4⟩ := h3 i (by omega)
        refine ⟨r, gr, b, ?_, ?_, ?_, ?_⟩
        · rw [show 3 * (i + 1) = 3 * i + 1 + 1 + 1 by ring]; simpa using k1
        · rw [show 3 * (i + 1) + 1 = 3 * i + 1 + 1 + 1 + 1 by ring]; simpa using k2
        · rw [show 3 * (i + 1) + 2 = 3 * i + 2 + 1 + 1 + 1 by ring]; simpa using k3
        · simpa using k4

/-- Without colours, a tree draws three numbers per leaf from the global generator of numpy and uses them as the leaf's colour; a forest three
numbers per tree. -/
theorem C162_colours {G : Type} (draw : G → K × G) (name : K → K → K → String) (g : G) :
    (∀ (alpha : K) (p : DT K), p.leaves ≠ [] → ∃ colors : List String, colors.length = p.leaves.length ∧
      (∀ i < p.leaves.length, ∃ r gr b : K, (numbers draw g (3 * p.leaves.length))[3 * i]? = some r ∧
        (numbers draw g (3 * p.leaves.length))[3 * i + 1]? = some gr ∧ (numbers draw g (3 * p.leaves.length))[3 * i + 2]? = some b ∧
        colors[i]? = some (name r gr b)) ∧
      ∀ (a : AxArg) (w : Plt K), a ≠ .other → dtPlotS draw name none alpha p a g w =
        (advance draw g (3 * p.leaves.length), (dtPlotS draw name (some colors) alpha p a g w).2)) ∧
    (∀ (cfg : Config K) (p : RF K) (trees : List (DT K)), p.trees = some trees → ∃ colors : List String, colors.length = trees.length ∧
      (∀ i < trees.length, ∃ r gr b : K, (numbers draw g (3 * trees.length))[3 * i]? = some r ∧
        (numbers draw g (3 * trees.length))[3 * i + 1]? = some gr ∧ (numbers draw g (3 * trees.length))[3 * i + 2]? = some b ∧
        colors[i]? = some (name r gr b)) ∧
      ∀ (a : AxArg) (w : Plt K), a ≠ .other → rfPlotIncumbentS draw name none cfg p a g w =
        (advance draw g (3 * trees.length), (rfPlotIncumbentS draw name (some colors) cfg p a g w).2)) := by
  have hax : ∀ (a : AxArg) (w : Plt K), a ≠ .other → ∃ w1 r, getAx a w = (w1, .ok r) := by
    intro a w ha
    cases a with
    | none =>
      show ∃ w1 r, (gcf >>= figGca) w = (w1, .ok r)
      obtain ⟨w1, i, h1⟩ : ∃ w1 i, gcf w = (w1, .ok i) := by
        unfold gcf newFigure
        split
        · exact ⟨_, _, rfl⟩
        · exact ⟨_, _, rfl⟩
      rw [Sess.bind_apply, h1]
      dsimp only
      unfold figGca addSubplot
      split
      · exact ⟨_, _, rfl⟩
      · exact ⟨_, _, rfl⟩
    | axis r => exact ⟨w, r, rfl⟩
    | other => exact absurd rfl ha
  refine ⟨fun alpha p hp => ?_, fun cfg p trees hp => ?_⟩
  · obtain ⟨h1, h2, h3⟩ := randomColors_eq draw name p.leaves.length g
    refine ⟨(randomColors draw name p.leaves.length g).1, h2, h3, fun a w ha => ?_⟩
    obtain ⟨w1, r, hr⟩ := hax a w ha
    have hl : p.leaves.length ≠ 0 := by simpa using hp
    unfold dtPlotS
    simp only [hr, hl, if_false, resolveColors, h2, ne_eq, not_true, h1]
  · obtain ⟨h1, h2, h3⟩ := randomColors_eq draw name trees.length g
    refine ⟨(randomColors draw name trees.length g).1, h2, h3, fun a w ha => ?_⟩
    obtain ⟨w1, r, hr⟩ := hax a w ha
    unfold rfPlotIncumbentS
    simp only [hr, hp, resolveColors, h1]

end main

/-! ### whole figures -/

section figures

theorem onAx_apply {K α : Type} (r : Nat) (p : Plot K α) (w : Plt K) :
    onAx r p w = ({ w with axes := Function.update w.axes r (p (w.axes r)).1 }, (p (w.axes r)).2) := rfl

theorem range_two (n : Nat) : (List.range 2).map (n + ·) = [n, n + 1] := rfl

/-- `plot_full_pdp` makes a new figure with one axis. -/
theorem C162_full_pdp (s : PdpState ℝ) (w : Plt ℝ) : ∃ w', fullPdpS s w = ((fullPdp s).1, w', (fullPdp s).2.2) ∧ NewFigure w w' [(fullPdp s).2.1] := by
  obtain ⟨w1, hw1⟩ : ∃ w1 : Plt ℝ, w1 = ⟨Function.update w.axes w.count Ax.new, w.count + 1, w.figures ++ [⟨[w.count], some w.count⟩], some w.figures.length⟩ := ⟨_, rfl⟩
  have h0 : (newFigure >>= figGca : Sess ℝ Nat) w = (w1, .ok w.count) := by
    subst hw1
    simp [Sess.bind_apply, newFigure, figGca, addSubplot, modify_last]
  have hnew : ∀ ax : Ax ℝ, NewFigure w { w1 with axes := Function.update w1.axes w.count ax } [ax] := by
    intro ax
    subst hw1
    refine ⟨rfl, ?_, ?_, rfl, rfl⟩
    · intro i hi
      have : i = 0 := by simpa using hi
      subst this
      simp
    · intro r hr
      simp [hr.ne]
  have hself : ({ w1 with axes := Function.update w1.axes w.count Ax.new } : Plt ℝ) = w1 := by
    subst hw1
    simp
  have hax : w1.axes w.count = Ax.new := by
    subst hw1
    simp
  unfold fullPdpS fullPdp
  rw [h0]
  dsimp only
  rcases pdpIce s with e | i
  · exact ⟨w1, rfl, by rw [← hself]; exact hnew _⟩
  dsimp only
  rw [(C162_ice "red" (1 / 10) i).given, hax]
  rcases icePlot "red" (1 / 10) i Ax.new with ⟨i1, ax1, e | u⟩
  · exact ⟨_, rfl, hnew _⟩
  dsimp only
  have hv : ∀ (t : PdpState ℝ) (ax : Ax ℝ), pdpPlotValuesS "black" t (.axis w.count) { w1 with axes := Function.update w1.axes w.count ax } =
      ((pdpPlotValues "black" t ax).1, { w1 with axes := Function.update w1.axes w.count (pdpPlotValues "black" t ax).2.1 }, (pdpPlotValues "black" t ax).2.2) := by
    intro t ax
    rcases ht : pdpCurve t with ⟨t', e | c⟩
    · rw [(C162_pdp "black" "black" "blue" (3 / 2)).2.1 t t' e ht]
      simp [pdpPlotValues, ht]
    · rw [((C162_pdp "black" "black" "blue" (3 / 2)).1 t t' c ht).given]
      simp
  have hc : ∀ (t : PdpState ℝ) (ax : Ax ℝ), pdpPlotConfidencesS "black" "blue" (3 / 2) t (.axis w.count) { w1 with axes := Function.update w1.axes w.count ax } =
      ((pdpPlotConfidences "black" "blue" (3 / 2) t ax).1, { w1 with axes := Function.update w1.axes w.count (pdpPlotConfidences "black" "blue" (3 / 2) t ax).2.1 },
        (pdpPlotConfidences "black" "blue" (3 / 2) t ax).2.2) := by
    intro t ax
    rcases ht : pdpCurve t with ⟨t', e | c⟩
    · rw [(C162_pdp (K := ℝ) "black" "black" "blue" (3 / 2)).2.2.2 t t' e ht]
      simp [pdpPlotConfidences, ht]
    · rw [((C162_pdp (K := ℝ) "black" "black" "blue" (3 / 2)).2.2.1 t t' c ht).given]
      simp
  rw [hv]
  rcases pdpPlotValues "black" { s with ice := some i1 } ax1 with ⟨s2, ax2, e | u⟩
  · exact ⟨_, rfl, hnew _⟩
  dsimp only
  rw [hc]
  exact ⟨_, rfl, hnew _⟩


/-- two new axes in the figure `i` -/
private def twoAxes (w : Plt ℝ) (figs : List Figure) (i : Nat) (cur : Option Nat) (a b : Ax ℝ) : Plt ℝ :=
  ⟨Function.update (Function.update w.axes w.count a) (w.count + 1) b, w.count + 2,
    figs.modify i fun f => ⟨f.axes ++ [w.count, w.count + 1], some (w.count + 1)⟩, cur⟩

private theorem two_subplots (w : Plt ℝ) (figs : List Figure) (i : Nat) (cur : Option Nat) :
    addSubplot i (⟨w.axes, w.count, figs, cur⟩ : Plt ℝ) = (⟨Function.update w.axes w.count Ax.new, w.count + 1,
      figs.modify i fun f => ⟨f.axes ++ [w.count], some w.count⟩, cur⟩, .ok w.count) ∧
    addSubplot i (⟨Function.update w.axes w.count Ax.new, w.count + 1,
      figs.modify i fun f => ⟨f.axes ++ [w.count], some w.count⟩, cur⟩ : Plt ℝ) = (twoAxes w figs i cur Ax.new Ax.new, .ok (w.count + 1)) := by
  refine ⟨rfl, ?_⟩
  simp only [addSubplot, twoAxes, Prod.mk.injEq, Plt.mk.injEq, and_true, true_and]
  rw [List.modify_modify_eq]
  congr 1
  funext f
  simp

private theorem on_first {α : Type} (w : Plt ℝ) (figs : List Figure) (i : Nat) (cur : Option Nat) (a b : Ax ℝ) (p : Plot ℝ α) :
    onAx w.count p (twoAxes w figs i cur a b) = (twoAxes w figs i cur (p a).1 b, (p a).2) := by
  unfold onAx twoAxes
  have h : w.count ≠ w.count + 1 := by omega
  simp only [Function.update_self, Function.update_of_ne h, Prod.mk.injEq, Plt.mk.injEq, and_true]
  rw [Function.update_comm h, Function.update_idem, Function.update_comm h.symm]

private theorem on_second {α : Type} (w : Plt ℝ) (figs : List Figure) (i : Nat) (cur : Option Nat) (a b : Ax ℝ) (p : Plot ℝ α) :
    onAx (w.count + 1) p (twoAxes w figs i cur a b) = (twoAxes w figs i cur a (p b).1, (p b).2) := by
  unfold onAx twoAxes
  simp

private theorem twoAxes_new (w : Plt ℝ) (a b : Ax ℝ) :
    NewFigure w (twoAxes w (w.figures ++ [⟨[], none⟩]) w.figures.length (some w.figures.length) a b) [a, b] := by
  refine ⟨rfl, ?_, ?_, ?_, rfl⟩
  · intro i hi
    have h : w.count ≠ w.count + 1 := by omega
    match i, hi with
    | 0, _ => simp [twoAxes]
    | 1, _ => simp [twoAxes]
  · intro r hr
    have h1 : r ≠ w.count := by omega
    have h2 : r ≠ w.count + 1 := by omega
    simp [twoAxes, h1, h2]
  · show List.modify _ _ _ = _
    rw [modify_last]
    rfl

private theorem curves_on (c : IceCurve ℝ) (w : Plt ℝ) (figs : List Figure) (i : Nat) (cur : Option Nat) :
    (do
      let axM ← addSubplot i
      let axS ← addSubplot i
      curveValuesS "red" c (.axis axM)
      curveIncumbentS "white" c (.axis axM)
      curveConfidencesS "red" "xkcd:light red" (3 / 2) c (.axis axS)
      curveIncumbentS "white" c (.axis axS)
      pure (axM, axS) : Sess ℝ (Nat × Nat)) ⟨w.axes, w.count, figs, cur⟩ =
    (twoAxes w figs i cur (curveWithConfidence c).1 (curveWithConfidence c).2.1, (curveWithConfidence c).2.2.map fun _ => (w.count, w.count + 1)) := by
  obtain ⟨h1, h2⟩ := two_subplots w figs i cur
  have e1 : ∀ r, curveValuesS "red" c (.axis r) = onAx r (curveValues "red" c) := fun r => by rw [curveValuesS_eq]; rfl
  have e2 : ∀ r, curveIncumbentS "white" c (.axis r) = onAx r (curveIncumbent "white" c) := fun r => by rw [curveIncumbentS_eq]; rfl
  have e3 : ∀ r, curveConfidencesS "red" "xkcd:light red" (3 / 2) c (.axis r) = onAx r (curveConfidences "red" "xkcd:light red" (3 / 2) c) :=
    fun r => by rw [curveConfidencesS_eq]; rfl
  rw [Sess.bind_apply, h1]
  dsimp only
  rw [Sess.bind_apply, h2]
  dsimp only
  simp only [e1, e2, e3]
  rw [Sess.bind_apply, on_first]
  unfold curveWithConfidence
  rw [Plot.bind_apply]
  rcases curveValues "red" c Ax.new with ⟨a1, e | u⟩
  · rfl
  dsimp only
  rw [Sess.bind_apply, on_first]
  rcases curveIncumbent "white" c a1 with ⟨a2, e | u⟩
  · rfl
  dsimp only
  rw [Sess.bind_apply, on_second, Plot.bind_apply]
  rcases curveConfidences "red" "xkcd:light red" (3 / 2) c Ax.new with ⟨b1, e | u⟩
  · rfl
  dsimp only
  rw [Sess.bind_apply, on_second]
  rcases curveIncumbent "white" c b1 with ⟨b2, e | u⟩ <;> rfl

/-- `plot_2D_ICE_Curve_with_confidence` makes a new figure with two axes, or puts two new axes into the figure it is given, which need not be the
current one. -/
theorem C162_curve_figure (c : IceCurve ℝ) (w : Plt ℝ) :
    (∃ w', curveWithConfidenceS c none w = (w', (curveWithConfidence c).2.2.map fun _ => (w.count, w.count + 1)) ∧
      NewFigure w w' [(curveWithConfidence c).1, (curveWithConfidence c).2.1]) ∧
    ∀ (i : Nat) (f : Figure), w.figures[i]? = some f →
      ∃ w', curveWithConfidenceS c (some i) w = (w', (curveWithConfidence c).2.2.map fun _ => (w.count, w.count + 1)) ∧ w'.count = w.count + 2 ∧
        w'.axes w.count = (curveWithConfidence c).1 ∧ w'.axes (w.count + 1) = (curveWithConfidence c).2.1 ∧
        (∀ r < w.count, w'.axes r = w.axes r) ∧ w'.current = w.current ∧
        w'.figures = w.figures.set i ⟨f.axes ++ [w.count, w.count + 1], some (w.count + 1)⟩ := by
  constructor
  · refine ⟨_, ?_, twoAxes_new w _ _⟩
    exact curves_on c w _ _ _
  · intro i f hf
    refine ⟨_, curves_on c w w.figures i w.current, rfl, ?_, ?_, ?_, rfl, ?_⟩
    · have h : w.count ≠ w.count + 1 := by omega
      simp [twoAxes]
    · simp [twoAxes]
    · intro r hr
      have h1 : r ≠ w.count := by omega
      have h2 : r ≠ w.count + 1 := by omega
      simp [twoAxes, h1, h2]
    · show w.figures.modify i _ = _
      rw [List.modify_eq_set_getElem?, hf]
      rfl

/-- `plot_full_bayesian` makes a new figure with two axes, the lower one with the acquisition function is the current one. -/
theorem C162_full_bayesian {X S : Type} (argsort : List ℝ → List Nat) (predict : Predict ℝ) (cs : ConfigSpace ℝ)
    (s : SamplerState (Config ℝ) ℝ X) (d : Drawer (Config ℝ) S) (n : Int) (value : Config ℝ → ℝ) (rng : S) (w : Plt ℝ) :
    ∃ w', fullBayesianS argsort predict cs s d n value rng w =
        ((fullBayesian argsort predict cs s d n value rng).1, w', (fullBayesian argsort predict cs s d n value rng).2.2.2) ∧
      NewFigure w w' [(fullBayesian argsort predict cs s d n value rng).2.1, (fullBayesian argsort predict cs s d n value rng).2.2.1] := by
  have h0 : newFigure w = ((⟨w.axes, w.count, w.figures ++ [⟨[], none⟩], some w.figures.length⟩ : Plt ℝ), .ok w.figures.length) := rfl
  obtain ⟨h1, h2⟩ := two_subplots w (w.figures ++ [⟨[], none⟩]) w.figures.length (some w.figures.length)
  have hnew := twoAxes_new w
  unfold fullBayesianS fullBayesian
  simp only [surrogateMeansS_eq, surrogateConfidencesS_eq, samplerPlotS_eq, show ∀ r, (getAx (.axis r) : Sess ℝ Nat) = pure r from fun _ => rfl,
    Sess.pure_bind']
  rw [Sess.bind_apply, h0]
  dsimp only
  rw [Sess.bind_apply, h1]
  dsimp only
  rw [Sess.bind_apply, h2]
  dsimp only
  rw [Sess.bind_apply, on_first, Plot.bind_apply]
  rcases surrogateMeans "blue" predict cs 100 Ax.new with ⟨a1, e | u⟩
  · exact ⟨_, rfl, hnew _ _⟩
  dsimp only
  rw [Sess.bind_apply, on_first, Plot.bind_apply]
  rcases surrogateConfidences "blue" "lightblue" predict cs 100 a1 with ⟨a2, e | u⟩
  · exact ⟨_, rfl, hnew _ _⟩
  dsimp only
  rw [Sess.bind_apply, on_first]
  rcases samplerPlot argsort "red" cs (.name "x1") s a2 with ⟨a3, e | u⟩
  · exact ⟨_, rfl, hnew _ _⟩
  have hacq : ∀ b : Ax ℝ, acqPlotS argsort "darkgreen" "red" true cs d n value (.name "x1") rng (.axis (w.count + 1))
      (twoAxes w (w.figures ++ [⟨[], none⟩]) w.figures.length (some w.figures.length) a3 b) =
      ((acqPlot argsort "darkgreen" "red" true cs d n value (.name "x1") rng b).1,
        twoAxes w (w.figures ++ [⟨[], none⟩]) w.figures.length (some w.figures.length) a3
          (acqPlot argsort "darkgreen" "red" true cs d n value (.name "x1") rng b).2.1,
        (acqPlot argsort "darkgreen" "red" true cs d n value (.name "x1") rng b).2.2) := by
    intro b
    rw [((C162_models (K := ℝ)).2.2.2 argsort "darkgreen" "red" true cs d n value (.name "x1") rng).given]
    simp [twoAxes]
  dsimp only
  rw [Sess.pure_apply]
  dsimp only
  rw [hacq]
  rcases acqPlot argsort "darkgreen" "red" true cs d n value (.name "x1") rng Ax.new with ⟨rng1, b1, e | u⟩
  · exact ⟨_, rfl, hnew _ _⟩
  dsimp only
  rcases getOptimum (cs.map Hp.name) d n value rng1 with ⟨rng2, e | opt⟩
  · exact ⟨_, rfl, hnew _ _⟩
  dsimp only
  rw [on_second]
  exact ⟨_, rfl, hnew _ _⟩


/-! after `plot_full_bayesian` -/

private def KeepsLabel {α : Type} (p : Plot ℝ α) : Prop := ∀ ax, (p ax).1.ylabel = ax.ylabel

private theorem keeps_bind {α β : Type} {p : Plot ℝ α} {f : α → Plot ℝ β} (hp : KeepsLabel p) (hf : ∀ a, KeepsLabel (f a)) : KeepsLabel (p >>= f) := by
  intro ax
  rw [Plot.bind_apply]
  have h := hp ax
  revert h
  rcases p ax with ⟨ax', e | a⟩ <;> intro h
  · exact h
  · exact (hf a ax').trans h

private theorem keeps_lift {α : Type} (x : Py α) : KeepsLabel (Plot.lift x : Plot ℝ α) := fun _ => rfl
private theorem keeps_pure : KeepsLabel (pure () : Plot ℝ Unit) := fun _ => rfl
private theorem keeps_raise (e : PyErr) : KeepsLabel (Plot.raise e : Plot ℝ Unit) := fun _ => rfl
private theorem keeps_add (x : Shape ℝ) : KeepsLabel (Plot.add x : Plot ℝ Unit) := fun _ => rfl
private theorem keeps_points (color : String) (x y : List ℝ) : KeepsLabel (drawPoints color x y) := by
  unfold drawPoints
  split
  · exact keeps_add _
  · exact keeps_raise _
private theorem keeps_line (color : String) (a : ℝ) (x y : List ℝ) : KeepsLabel (drawLine color a x y) := by
  unfold drawLine
  split
  · exact keeps_add _
  · exact keeps_raise _
private theorem keeps_band (color : String) (a : ℝ) (x y z : List ℝ) : KeepsLabel (drawBand color a x y z) := by
  unfold drawBand
  split
  · exact keeps_add _
  · exact keeps_raise _

private theorem keeps_acquisition (argsort : List ℝ → List Nat) (ca co : String) (b : Bool) (cs : ConfigSpace ℝ) (value : Config ℝ → ℝ)
    (rows : List (List (Val ℝ))) (ys : List ℝ) (opt : Picked (Config ℝ)) (hps : List (Hp ℝ)) :
    KeepsLabel (drawAcquisition argsort ca co b cs value rows ys opt hps) := by
  rcases hps with _ | ⟨p, _ | ⟨q, _ | ⟨o, t⟩⟩⟩
  · exact keeps_raise _
  · refine keeps_bind (keeps_lift _) fun x => keeps_bind (keeps_lift _) fun xo => keeps_bind (keeps_lift _) fun yo =>
      keeps_bind (keeps_band _ _ _ _ _) fun _ => keeps_bind (keeps_line _ _ _ _) fun _ => ?_
    split
    · exact keeps_bind (keeps_lift _) fun x => keeps_bind (keeps_lift _) fun y => keeps_points _ _ _
    · exact keeps_pure
  · exact keeps_bind (keeps_lift _) fun _ => keeps_raise _
  · exact keeps_raise _

private theorem acqPlot_label {S : Type} {argsort : List ℝ → List Nat} {ca co : String} {b : Bool} {cs : ConfigSpace ℝ} {d : Drawer (Config ℝ) S} {n : Int}
    {value : Config ℝ → ℝ} {name : String} {rng : S} {u : Unit} (h : (acqPlot argsort ca co b cs d n value (.name name) rng Ax.new).2.2 = .ok u) :
    (acqPlot argsort ca co b cs d n value (.name name) rng Ax.new).2.1.ylabel = "Acquisition" := by
  revert h
  unfold acqPlot
  have hg : getHyperparameters (.name name) cs = (cs.get name).map fun hp => [hp] := by
    rfl
  rw [hg]
  rcases cs.get name with e | hp
  · intro h; exact absurd h (by simp [Except.map])
  dsimp only [Except.map]
  obtain ⟨ax1, h1, -, h2, -⟩ := C71_first_one (ax := (Ax.new : Ax ℝ)) rfl rfl hp true "Acquisition"
  rw [h1]
  dsimp only
  split
  · intro h; exact absurd h (by simp)
  split
  · intro h; exact absurd h (by simp)
  split
  · intro h; exact absurd h (by simp)
  · intro _
    exact (keeps_acquisition _ _ _ _ _ _ _ _ _ _ _).trans h2

/-- After `plot_full_bayesian` the plots of one hyperparameter that show predictions need an axis: without one they meet the axis of the
acquisition function and are refused with a ValueError. -/
theorem C162_after_bayesian {X Y S : Type} {argsort : List ℝ → List Nat} {predict : Predict ℝ} {cs : ConfigSpace ℝ}
    {s : SamplerState (Config ℝ) ℝ X} {d : Drawer (Config ℝ) S} {n : Int} {value : Config ℝ → ℝ} {rng rng' : S} {w w' : Plt ℝ}
    (h : fullBayesianS argsort predict cs s d n value rng w = (rng', w', .ok ())) :
    (∀ (argsort' : List ℝ → List Nat) (color : String) (cs' : ConfigSpace ℝ) (sel : Selection ℝ) (hp : Hp ℝ) (s' : SamplerState (Config ℝ) ℝ Y),
      getHyperparameters sel cs' = .ok [hp] → samplerPlotS argsort' color cs' sel s' .none w' = (w', .error .value)) ∧
    (∀ (color : String) (c : IceCurve ℝ) (hp : Hp ℝ), c.selected = [hp] → curveValuesS color c .none w' = (w', .error .value)) ∧
    (∀ (color : String) (predict' : Predict ℝ) (hp : Hp ℝ) (m : Nat), surrogateMeansS color predict' [hp] m .none w' = (w', .error .value)) := by
  obtain ⟨w2, k1, k2⟩ := C162_full_bayesian argsort predict cs s d n value rng w
  rw [k1] at h
  obtain ⟨-, h⟩ := Prod.mk.inj h
  obtain ⟨rfl, hok⟩ := Prod.mk.inj h
  have hcur : Current w2 (w.count + 1) := ⟨w.figures.length, ⟨[w.count, w.count + 1], some (w.count + 1)⟩, k2.current, by rw [k2.figures]; simp [List.range_succ], rfl⟩
  have hdrawn := k2.drawn 1 (by simp)
  have hlab : (w2.axes (w.count + 1)).ylabel = "Acquisition" := by
    rw [hdrawn]
    show (fullBayesian argsort predict cs s d n value rng).2.2.1.ylabel = _
    revert hok
    unfold fullBayesian
    split
    · intro h; exact absurd h (by simp)
    have hl := @acqPlot_label S argsort "darkgreen" "red" true cs d n value "x1" rng
    revert hl
    rcases acqPlot argsort "darkgreen" "red" true cs d n value (.name "x1") rng Ax.new with ⟨rng1, b1, e | u⟩
    · intro _ h; exact absurd h (by simp)
    intro hl
    dsimp only
    split
    · intro h; exact absurd h (by simp)
    · intro _
      exact (keeps_bind (keeps_lift _) (fun v => keeps_add _) b1).trans (hl rfl)
  have hcheck : ∀ hp : Hp ℝ, checkAndSetAxis [hp] true "Prediction" (w2.axes (w.count + 1)) = (w2.axes (w.count + 1), .error .value) := by
    intro hp
    unfold checkAndSetAxis
    dsimp only
    rw [hlab]
    by_cases hx : (w2.axes (w.count + 1)).xlabel ≠ "" ∧ (w2.axes (w.count + 1)).xlabel ≠ hp.name
    · rw [if_pos hx]
    · rw [if_neg hx, if_pos (by decide)]
  have hself : ({ w2 with axes := Function.update w2.axes (w.count + 1) (w2.axes (w.count + 1)) } : Plt ℝ) = w2 := by simp
  refine ⟨fun argsort' color cs' sel hp s' hsel => ?_, fun color c hp hc => ?_, fun color predict' hp m => ?_⟩
  · have hD := (C162_models (K := ℝ)).2.2.1 argsort' color cs' sel s'
    have hf : samplerPlot argsort' color cs' sel s' (w2.axes (w.count + 1)) = (w2.axes (w.count + 1), .error .value) := by
      unfold samplerPlot
      rw [hsel, Plot.bind_apply]
      dsimp only [Plot.lift]
      rw [Plot.bind_apply, hcheck]
    rw [hD.current w2 _ hcur, hD.given, hf]
    simp
  · have hD := (C162_curves (K := ℝ)).1 color c
    have hf : curveValues color c (w2.axes (w.count + 1)) = (w2.axes (w.count + 1), .error .value) := by
      unfold curveValues
      rw [hc, Plot.bind_apply, hcheck]
    rw [hD.current w2 _ hcur, hD.given, hf]
    simp
  · have hD := (C162_models (K := ℝ)).1 color predict' [hp] m
    have hf : surrogateMeans color predict' [hp] m (w2.axes (w.count + 1)) = (w2.axes (w.count + 1), .error .value) := by
      unfold surrogateMeans surrogatePlot
      rw [if_pos (by simp), Plot.bind_apply, hcheck]
    rw [hD.current w2 _ hcur, hD.given, hf]
    simp

end figures

/-! ### a concrete session -/

section example_session

/-- `plot_line` twice without an axis, once with the axis of another figure, with pyplot's own new figure in between -/
private def demoSession : Sess ℚ (Nat × Nat) := do
  plotLineS "black" [0, 1] [2, 3] .none
  let fig ← newFigure
  plotLineS "red" [0, 1] [5, 5] .none
  plotLineS "blue" [1] [1] (.axis 0)
  plotLineS "green" [1] [2] .none
  let ax ← getAx .none
  pure (fig, ax)

/-- the second figure's axis gets the second and the fourth line, the first figure's axis the first and the third -/
theorem C162_session : (demoSession Plt.new).2 = .ok (1, 1) ∧ (demoSession Plt.new).1.count = 2 ∧
    (demoSession Plt.new).1.figures = [⟨[0], some 0⟩, ⟨[1], some 1⟩] ∧
    ((demoSession Plt.new).1.axes 0).shapes = [.line "black" [0, 1] [2, 3], .line "blue" [1] [1]] ∧
    ((demoSession Plt.new).1.axes 1).shapes = [.line "red" [0, 1] [5, 5], .line "green" [1] [2]] ∧
    (plotLineS "black" [0, 1] [2, 3] .other (Plt.new : Plt ℚ)).2 = .error .assertion := by decide +kernel

end example_session
end PyPDP
