/-
C110: examples/main_presentation.py `bo_introduction`.
-/
import Verif.Model.MainIntroduction
import Verif.Props.MainPresentation
import Verif.Props.BayesianPlot

namespace PyPDP
open Spec
variable {S : Type}

/-- the function of one argument -/
noncomputable def stOne (a : ℝ) : ℝ := (a ^ 4 - 16 * a ^ 2 + 5 * a) / 2

/-! ### what a figure shows -/

/-- The upper axis: the function, the predicted means `mu` and the confidence around them, the evaluated points. -/
def ShowsModel (hp : Hp ℝ) (perPlot : Nat) (mu sd : List ℝ → ℝ) (configs : List (Config ℝ)) (ys : List ℝ) (ylim : Option (ℝ × ℝ)) (ax : Ax ℝ) : Prop :=
  ∃ fx bands xs xo yo, EvenAxis (-5) 5 false 100 fx ∧
    ax = ⟨hp.name, "Prediction", false, false, some (-5, 5), ylim,
      [.line "grey" fx (fx.map stOne), .line "blue" (naturalGrid (-5) 5 false perPlot) ((List.range perPlot).map fun j => mu [gridValue perPlot j])] ++
        bands ++ [.points "red" xo yo]⟩ ∧
    ShowsConfidence "blue" "lightblue" (3 / 2) (naturalGrid (-5) 5 false perPlot) ((List.range perPlot).map fun j => mu [gridValue perPlot j])
      ((List.range perPlot).map fun j => sd [gridValue perPlot j]) bands ∧
    ReadsAs hp.name configs xs ∧ xo.Pairwise (· ≤ ·) ∧ (xo.zip yo).Perm (xs.zip ys)

/-- The lower axis: a function of the configurations at drawn candidates, sorted by the hyperparameter, and the best of a further draw. -/
def ShowsAcquisition (hp : Hp ℝ) (d : Drawer (Config ℝ) S) (n : Nat) (value : Config ℝ → ℝ) (ax : Ax ℝ) : Prop :=
  ∃ rng xs xa ya best v, ReadsAs hp.name (d.draw rng n).1 xs ∧ xa.Pairwise (· ≤ ·) ∧ (xa.zip ya).Perm (xs.zip ((d.draw rng n).1.map value)) ∧
    FirstMax value (d.draw (d.draw rng n).2 n).1 best ∧ best.get? hp.name = some (.num v) ∧
    AxisOne hp "Acquisition" (-5) 5 false ax [.band "darkgreen" xa ya (List.replicate n 0), .line "darkgreen" xa ya, .points "red" [v] [value best]]

/-- A figure of the introduction: a Gaussian process fitted to the points, and the lower confidence bound of that process. -/
def IntroFigure (i : MainInput S) (hp : Hp ℝ) (tau : ℝ) (perPlot n : Nat) (configs : List (Config ℝ)) (ys : List ℝ) (ylim : Option (ℝ × ℝ)) (axF axA : Ax ℝ) : Prop :=
  ∃ gp mu sd, GpSurrogate.new.fit i.choose (configs.map Config.vector) ys = (gp, .ok ()) ∧ RowWise 1 gp.predict mu sd ∧
    ShowsModel hp perPlot mu sd configs ys ylim axF ∧ ShowsAcquisition hp i.acqDrawer n (fun c => -mu c.vector + tau * sd c.vector) axA

/-! ### the parts -/

theorem firstMax_congr {C : Type} {f g : C → ℝ} {l : List C} {c : C} (h : FirstMax f l c) (hfg : ∀ d ∈ l, f d = g d) : FirstMax g l c := by
  obtain ⟨k, h1, h2, h3⟩ := h
  have hc := hfg c (List.mem_of_getElem? h1)
  refine ⟨k, h1, fun d hd => by rw [← hc, ← hfg d hd]; exact h2 d hd, fun j hj d hd => ?_⟩
  rw [← hc, ← hfg d (List.mem_of_getElem? hd)]
  exact h3 j hj d hd

/-- the plot of the function over the line -/
theorem function_line {p : Hp ℝ} (hs : StSpace 1 [p]) (inv : Hp ℝ → Val ℝ → ℝ) {n : Nat} (hn : 2 ≤ n) (color : String) :
    ∃ xs, plotFunction ((BlackboxFn.mk [p] (styblinskiTangValue [p])).call inv) [p] n color Ax.new =
        ((⟨p.name, "Prediction", false, false, some (-5, 5), none, []⟩ : Ax ℝ).draw [.line color xs (xs.map stOne)], .ok ()) ∧ EvenAxis (-5) 5 false n xs := by
  have hp := hs.kind p (by simp)
  obtain ⟨xs, consts, h1, h3, h4, -⟩ := C73_one (cs := [p]) (p := p) (by simp [varying, hp]) (l := -5) (u := 5) (g := false)
    ⟨.inl hp, by norm_num, by simp⟩ hn ((BlackboxFn.mk [p] (styblinskiTangValue [p])).call inv) color (newAxis_one (.inl hp) "Prediction")
  have hcn : consts = [] := by
    rw [List.eq_nil_iff_forall_not_mem]
    rintro ⟨nm, v⟩ hm
    have := (h3.2 nm v).1 hm
    have := hs.kind _ this
    cases this
  have hin : ∀ a ∈ xs, -5 ≤ a ∧ a ≤ 5 := by
    intro a ha
    obtain ⟨j, hj, rfl⟩ := List.getElem_of_mem ha
    have h0 := h1.head
    have h9 := h1.last
    have hlen := h1.length
    have hpw := List.pairwise_iff_getElem.1 h1.increasing
    obtain ⟨l0, e0⟩ := List.getElem?_eq_some_iff.1 h0
    obtain ⟨l9, e9⟩ := List.getElem?_eq_some_iff.1 h9
    constructor
    · rcases Nat.eq_zero_or_pos j with rfl | hj0
      · exact e0.ge
      · have := hpw 0 j l0 hj hj0
        rw [e0] at this; exact this.le
    · rcases Nat.lt_or_ge j (n - 1) with hj0 | hj0
      · have := hpw j (n - 1) hj l9 hj0
        rw [e9] at this; exact this.le
      · obtain rfl : j = n - 1 := by omega
        exact e9.le
  refine ⟨xs, h4 stOne fun a ha => ?_, h1⟩
  obtain ⟨a1, a2⟩ := hin a ha
  rw [hcn]
  obtain ⟨config, c1, c2, c3⟩ := C11_legal inv (BlackboxFn.mk [p] (styblinskiTangValue [p])) (kwargs := [(p.name, .num a)]) (by simp) (by
    refine ⟨fun x hx => ?_, fun h hh => ?_⟩
    · simp only [List.mem_cons, List.not_mem_nil, or_false] at hx
      subst hx
      exact ⟨p, by simp, rfl⟩
    · simp only [List.mem_cons, List.not_mem_nil, or_false] at hh
      subst hh
      refine ⟨.num a, by simp, ?_⟩
      simp only [Hp.legal, hp]
      exact decide_eq_true ⟨a1, a2⟩)
  rw [c1]
  dsimp only
  have hget : ∀ h v, (h, v) ∈ [(p.name, Val.num a)] → config.get? h = some v := fun h v hm =>
    get?_of_mem (by rw [c2]; exact hs.wf) ((c3 _ _).1 hm) config.vector
  rw [C97_styblinski_tang [p] config ![a] fun i => by
    fin_cases i
    exact hget _ _ (by simp)]
  congr 1
  rw [stOne, show (∑ i : Fin (List.length [p]), (![a] i ^ 4 - 16 * ![a] i ^ 2 + 5 * ![a] i)) = ∑ i : Fin 1, (![a] i ^ 4 - 16 * ![a] i ^ 2 + 5 * ![a] i) from rfl,
    Fin.sum_univ_one]
  simp
  ring

/-- the state of the sampler between the steps of the script -/
structure IntroInv (cs : ConfigSpace ℝ) (o : Objective (Config ℝ) ℝ) (s : BOState (Config ℝ) ℝ GpSurrogate S) : Prop where
  good : Good (DrawnFrom cs) s
  inv : BOInv s
  aligned : Aligned o.value s
  cacheTrue : CacheTrue o.value s
  cache : ∀ p ∈ s.cache, DrawnFrom cs p.1

/-- the sampler of the script -/
noncomputable def introEnv (i : MainInput S) (tau : ℝ) (cs : ConfigSpace ℝ) (initial nCandidates : Int) : BOEnv (Config ℝ) ℝ GpSurrogate S :=
  { initialPoints := initial, minimize := true, names := cs.map Hp.name, drawer := i.drawer, acqDrawer := i.acqDrawer, nCandidates, fit := gpFitStep i.choose,
    acq := gpAcq (.lcb tau) true }

theorem objective_drawn {d : Nat} {cs : ConfigSpace ℝ} (hs : StSpace d cs) (inv : Hp ℝ → Val ℝ → ℝ) {c : Config ℝ} (hc : DrawnFrom cs c) :
    styblinskiTangValue cs c = .ok ((callObjective inv ⟨cs, styblinskiTangValue cs⟩).value c) ∧ ∀ t, (callObjective inv ⟨cs, styblinskiTangValue cs⟩).raises t c = none := by
  obtain ⟨v, h1, h2⟩ := call_drawn hs inv hc
  constructor
  · rw [h1]; simp only [callObjective, h2]
  · intro t; simp only [callObjective, h2]

/-- a call of `sample` -/
theorem intro_sample {i : MainInput S} {d : Nat} (hd : 1 ≤ d) {cs : ConfigSpace ℝ} (hs : StSpace d cs) (hi : i.Good cs) (tau : ℝ) {nCandidates : Int}
    (hn : 2 ≤ nCandidates) {initial : Int} (hini : 1 ≤ initial) {s : BOState (Config ℝ) ℝ GpSurrogate S}
    (h : IntroInv cs (callObjective i.inv ⟨cs, styblinskiTangValue cs⟩) s) {n : Int} (hn1 : 1 ≤ n) :
    ∃ t new, boSample (callObjective i.inv ⟨cs, styblinskiTangValue cs⟩) (introEnv i tau cs initial nCandidates) s n = (t, none) ∧
      IntroInv cs (callObjective i.inv ⟨cs, styblinskiTangValue cs⟩) t ∧ t.configs = s.configs ++ new ∧ new.length = n.toNat ∧
      GpSurrogate.new.fit i.choose (t.configs.map Config.vector) t.ys = (t.extra.model, .ok ()) := by
  have hk : ∀ Z t, Covariance d (i.choose Z t) := fun Z t => hs.len ▸ (hi.kernel Z t).1
  obtain ⟨o, ho⟩ : ∃ o, o = callObjective i.inv ⟨cs, styblinskiTangValue cs⟩ := ⟨_, rfl⟩
  rw [← ho] at h ⊢
  have hval : ∀ c, DrawnFrom cs c → styblinskiTangValue cs c = .ok (o.value c) ∧ ∀ t, o.raises t c = none := by
    intro c hc
    rw [ho]
    exact objective_drawn hs i.inv hc
  obtain ⟨env, he⟩ : ∃ env : BOEnv (Config ℝ) ℝ GpSurrogate S, env = introEnv i tau cs initial nCandidates := ⟨_, rfl⟩
  rw [← he]
  have hruns : Runs (DrawnFrom cs) o env := by
    rw [he]
    refine ⟨fun t c hc => (hval c hc).2 t, hi.drawn, hi.candidates, fun m l ys hne hg hl => ?_, hini⟩
    obtain ⟨m', h, -⟩ := gpFitStep_ok hk (configs_data hd hne (fun c hc => (hg c hc).1.trans hs.len) hl) m
    exact ⟨m', h⟩
  have hnc : 2 ≤ env.nCandidates := by rw [he]; exact hn
  obtain ⟨h1, h2, h3, h4⟩ := boSample_runs hruns hnc (n := n) (.inl hn1) h.good h.cache
  obtain ⟨t, ht⟩ : ∃ t, boSample o env s n = (t, none) := ⟨_, Prod.ext rfl h1⟩
  obtain ⟨k1, -, k3⟩ := boSample_inv o env s n h.inv
  rw [ht] at h2 h3 h4 k1 k3
  classical
  obtain ⟨new, n1, n2, -, -⟩ := C19_sample_appends (o := o) (.bo env) ht
  obtain ⟨a1, a2⟩ := randomOrBO_aligned (o := o) (.bo env) s n h.aligned h.cacheTrue
  rw [ht] at a1 a2
  obtain ⟨-, m0, hfit⟩ := k3 rfl
  refine ⟨t, _, ht, ⟨h2, k1, a1, a2, h4⟩, n2, by rw [List.length_map, n1], ?_⟩
  rw [he] at hfit
  simp only [introEnv, gpFitStep] at hfit
  split at hfit
  · next m' u hm =>
    obtain rfl := Except.ok.inj hfit
    exact hm
  · cases hfit

/-- the upper axis of a figure -/
theorem intro_axis {i : MainInput S} {argsort : List ℝ → List Nat} (hsort : Argsort argsort) {p : Hp ℝ} (hs : StSpace 1 [p])
    {perPlot : Nat} (hpp : 1 ≤ perPlot) {gp : GpSurrogate} {mu sd : List ℝ → ℝ} (hrow : RowWise 1 gp.predict mu sd) (hsd : ∀ r, 0 ≤ sd r)
    {s : BOState (Config ℝ) ℝ GpSurrogate S} (hg : Good (DrawnFrom [p]) s) :
    ∃ ax, (∀ g, introAxis i argsort ⟨[p], styblinskiTangValue [p]⟩ perPlot gp s g = (g, .ok ax)) ∧ ShowsModel p perPlot mu sd s.configs s.ys none ax := by
  have hp := hs.kind p (by simp)
  have hv : ValidNumerical p (-5) 5 false := ⟨.inl hp, by norm_num, by simp⟩
  obtain ⟨fx, h1, h2⟩ := function_line hs i.inv (n := 100) (by norm_num) "grey"
  obtain ⟨ax0, hax0⟩ : ∃ ax0 : Ax ℝ, ax0 = ⟨p.name, "Prediction", false, false, some (-5, 5), none, []⟩ := ⟨_, rfl⟩
  have hax := newAxis_one (hp := p) (.inl hp) "Prediction"
  rw [← hax0] at h1 hax
  obtain ⟨xs, ys, m1, m2, m3, m4⟩ := C85_means_one hv hrow hpp "blue" (axis_again hax [.line "grey" fx (fx.map stOne)])
  have e1 : xs = naturalGrid (-5) 5 false perPlot := eq_range_map m2 fun i hi => (m4 i hi).1
  have e2 : ys = (List.range perPlot).map fun i => mu [gridValue perPlot i] := eq_range_map m3 fun i hi => (m4 i hi).2
  subst e1 e2
  rw [Ax.draw_draw] at m1
  obtain ⟨l1, hl1⟩ : ∃ l1 : List (Shape ℝ), l1 = [.line "grey" fx (fx.map stOne)] ++ [.line "blue" (naturalGrid (-5) 5 false perPlot)
    ((List.range perPlot).map fun i => mu [gridValue perPlot i])] := ⟨_, rfl⟩
  rw [← hl1] at m1
  obtain ⟨xs, ys, sds, bands, k1, k2, k3, k4, k5, k6⟩ := C85_confidences_one hv hrow hsd hpp "blue" "lightblue" (axis_again hax l1)
  have e1 : xs = naturalGrid (-5) 5 false perPlot := eq_range_map k2 fun i hi => (k5 i hi).1
  have e2 : ys = (List.range perPlot).map fun i => mu [gridValue perPlot i] := eq_range_map k3 fun i hi => (k5 i hi).2.1
  have e3 : sds = (List.range perPlot).map fun i => sd [gridValue perPlot i] := eq_range_map k4 fun i hi => (k5 i hi).2.2
  subst e1 e2 e3
  rw [Ax.draw_draw] at k1
  obtain ⟨us, hus⟩ := readsAs_drawn hs (p := p) (by simp) hg.configs
  obtain ⟨xo, yo, q1, -, -, q2, q3⟩ := C86_one hsort (cs := [p]) (sel := .none) rfl hg.len.symm hus "red" (axis_again hax (l1 ++ bands))
  rw [Ax.draw_draw] at q1
  refine ⟨ax0.draw (l1 ++ bands ++ [.points "red" xo yo]), fun g => ?_, fx, bands, us, xo, yo, h2, ?_, k6, hus, q2, q3⟩
  · unfold introAxis
    rw [Show.on_bind h1, Show.on_bind m1, Show.on_bind k1]
    unfold Show.on
    rw [q1]
    rfl
  · rw [hax0, hl1]
    simp [Ax.draw]

/-- the lower axis of a figure -/
theorem intro_acquisition {i : MainInput S} {argsort : List ℝ → List Nat} (hsort : Argsort argsort) {p : Hp ℝ} (hs : StSpace 1 [p]) (hi : i.Good [p]) (tau : ℝ)
    {nCandidates : Int} (hn : 2 ≤ nCandidates) (initial : Int) {s : BOState (Config ℝ) ℝ GpSurrogate S} {mu sd : List ℝ → ℝ}
    (hrow : RowWise 1 s.extra.model.predict mu sd) :
    ∃ rng ax, acqFigure argsort [p] (introEnv i tau [p] initial nCandidates) s Ax.new = ({ s with extra := { s.extra with rng := rng } }, ax, .ok ()) ∧
      ShowsAcquisition p i.acqDrawer nCandidates.toNat (fun c => -mu c.vector + tau * sd c.vector) ax := by
  have hp := hs.kind p (by simp)
  have hax := newAxis_one (hp := p) (.inl hp) "Acquisition"
  obtain ⟨ax0, hax0⟩ : ∃ ax0 : Ax ℝ, ax0 = ⟨p.name, "Acquisition", false, false, some (-5, 5), none, []⟩ := ⟨_, rfl⟩
  rw [← hax0] at hax
  have hval : ∀ r k, ∀ c ∈ (i.acqDrawer.draw r k).1, gpAcq (.lcb tau) true s.extra.model s.extra.eta c = -mu c.vector + tau * sd c.vector := by
    intro r k c hc
    have hl := (hi.candidates r k c hc).1
    unfold gpAcq
    rw [hrow [c.vector] (by simp) (by simpa using hl)]
    simp [AcqKind.value, lcbValue]
  obtain ⟨xs, hxs⟩ := readsAs_drawn hs (p := p) (by simp) (hi.candidates s.extra.rng nCandidates.toNat)
  obtain ⟨xa, ya, best, h1, h2, h3, h4, h5, h6⟩ := acq_core hsort (cs := [p]) (sel := .none) rfl i.acqDrawer hn (gpAcq (.lcb tau) true s.extra.model s.extra.eta)
    s.extra.rng hxs "darkgreen" "red" true hax
  have hmem : best ∈ (i.acqDrawer.draw (i.acqDrawer.draw s.extra.rng nCandidates.toNat).2 nCandidates.toNat).1 := by
    obtain ⟨k, hk, -⟩ := h5
    exact List.mem_of_getElem? hk
  obtain ⟨zs, hzs⟩ := readsAs_drawn hs (p := p) (by simp) (hi.candidates (i.acqDrawer.draw s.extra.rng nCandidates.toNat).2 nCandidates.toNat)
  obtain ⟨v, -, hv⟩ := readsAs_mem hzs hmem
  rw [if_pos rfl, drawOptimum_first (rest := []) (hi.candidates _ _ best hmem).2.2.1 hv, Ax.draw_draw, List.map_const', h2, hval _ _ best hmem] at h6
  refine ⟨(i.acqDrawer.draw (i.acqDrawer.draw s.extra.rng nCandidates.toNat).2 nCandidates.toNat).2, ax0.draw ([.band "darkgreen" xa ya (List.replicate nCandidates.toNat 0),
    .line "darkgreen" xa ya] ++ [.points "red" [v] [-mu best.vector + tau * sd best.vector]]), ?_, s.extra.rng, xs, xa, ya, best, v, hxs, h3, ?_, firstMax_congr h5 fun c hc => hval _ _ c hc, hv, ?_⟩
  · unfold acqFigure introEnv
    dsimp only
    rw [h6]
  · rwa [List.map_congr_left fun c hc => hval _ _ c hc] at h4
  · rw [hax0]
    rfl

theorem IntroInv.rng {cs : ConfigSpace ℝ} {o : Objective (Config ℝ) ℝ} {s : BOState (Config ℝ) ℝ GpSurrogate S} (h : IntroInv cs o s) (r : S) :
    IntroInv cs o { s with extra := { s.extra with rng := r } } :=
  ⟨⟨h.good.configs, h.good.len⟩, ⟨h.inv.hash, h.inv.len⟩, h.aligned, h.cacheTrue, h.cache⟩

/-- the figure after a call of `sample` -/
theorem intro_figure {i : MainInput S} {argsort : List ℝ → List Nat} (hsort : Argsort argsort) {p : Hp ℝ} (hs : StSpace 1 [p]) (hi : i.Good [p]) (tau : ℝ)
    {nCandidates : Int} (hn : 2 ≤ nCandidates) (initial : Int) {perPlot : Nat} (hpp : 1 ≤ perPlot) {s : BOState (Config ℝ) ℝ GpSurrogate S}
    (hg : Good (DrawnFrom [p]) s) (hne : s.configs ≠ []) (hfit : GpSurrogate.new.fit i.choose (s.configs.map Config.vector) s.ys = (s.extra.model, .ok ())) :
    ∃ axF axA rng, (∀ g, introAxis i argsort ⟨[p], styblinskiTangValue [p]⟩ perPlot s.extra.model s g = (g, .ok axF)) ∧
      acqFigure argsort [p] (introEnv i tau [p] initial nCandidates) s Ax.new = ({ s with extra := { s.extra with rng := rng } }, axA, .ok ()) ∧
      ∃ mu sd, RowWise 1 s.extra.model.predict mu sd ∧ ShowsModel p perPlot mu sd s.configs s.ys none axF ∧
        ShowsAcquisition p i.acqDrawer nCandidates.toNat (fun c => -mu c.vector + tau * sd c.vector) axA := by
  have hdata : TrainingData 1 (s.configs.map Config.vector) s.ys := configs_data (by omega) hne (fun c hc => (hg.configs c hc).1) hg.len
  obtain ⟨gp, hf, -, mu, sd, hrow, hsd, -⟩ := C99_unit hi.kernel hdata
  rw [hfit] at hf
  obtain rfl : s.extra.model = gp := (Prod.mk.inj hf).1
  obtain ⟨axF, f1, f2⟩ := intro_axis (i := i) hsort hs hpp hrow hsd hg
  obtain ⟨rng, axA, a1, a2⟩ := intro_acquisition (i := i) hsort hs hi tau hn initial hrow
  exact ⟨axF, axA, rng, f1, a1, mu, sd, hrow, f2, a2⟩

theorem ShowsModel.ylim {hp : Hp ℝ} {perPlot : Nat} {mu sd : List ℝ → ℝ} {configs : List (Config ℝ)} {ys : List ℝ} {ax : Ax ℝ}
    (h : ShowsModel hp perPlot mu sd configs ys none ax) (lims : ℝ × ℝ) : ShowsModel hp perPlot mu sd configs ys (some lims) (ax.setYlim lims) := by
  obtain ⟨fx, bands, xs, xo, yo, h1, h2, h3⟩ := h
  exact ⟨fx, bands, xs, xo, yo, h1, by rw [h2]; rfl, h3⟩

/-- one round -/
theorem intro_round {i : MainInput S} {argsort : List ℝ → List Nat} (hsort : Argsort argsort) {p : Hp ℝ} (hs : StSpace 1 [p]) (hi : i.Good [p]) (tau : ℝ)
    {nCandidates : Int} (hn : 2 ≤ nCandidates) {initial : Int} (hini : 1 ≤ initial) {perPlot : Nat} (hpp : 1 ≤ perPlot) (lims : ℝ × ℝ)
    {s : BOState (Config ℝ) ℝ GpSurrogate S} (h : IntroInv [p] (callObjective i.inv ⟨[p], styblinskiTangValue [p]⟩) s) {n : Int} (hn1 : 1 ≤ n) :
    ∃ t new gp axF axA, IntroInv [p] (callObjective i.inv ⟨[p], styblinskiTangValue [p]⟩) t ∧ t.configs = s.configs ++ new ∧ new.length = n.toNat ∧
      IntroFigure i p tau perPlot nCandidates.toNat t.configs t.ys (some lims) axF axA ∧
      ∀ ns gp0 g, introRounds i argsort ⟨[p], styblinskiTangValue [p]⟩ (introEnv i tau [p] initial nCandidates) perPlot lims (n :: ns) gp0 s g =
        introRounds i argsort ⟨[p], styblinskiTangValue [p]⟩ (introEnv i tau [p] initial nCandidates) perPlot lims ns gp t
          ⟨g.count + 1, saveFig g.files (figureFile g.count "acquisition") [axF, axA]⟩ := by
  obtain ⟨t, new, h1, h2, h3, h4, h5⟩ := intro_sample (by omega) hs hi tau hn hini h hn1
  have hne : t.configs ≠ [] := by
    intro h0
    rw [h0] at h3
    have := congrArg List.length h3
    rw [List.length_append, h4] at this
    simp at this
    omega
  obtain ⟨axF, axA, rng, f1, f2, mu, sd, f3, f4, f5⟩ := intro_figure hsort hs hi tau hn initial hpp h2.good hne h5
  refine ⟨_, new, t.extra.model, axF.setYlim lims, axA, h2.rng rng, h3, h4, ⟨t.extra.model, mu, sd, h5, f3, f4.ylim lims, f5⟩, fun ns gp0 g => ?_⟩
  conv_lhs => unfold introRounds
  rw [Show.sampled_bind h1, Show.changed_bind (show gp0.fit i.choose (t.configs.map Config.vector) t.ys = (t.extra.model, .ok ()) from h5), Show.bind_ok (f1 _),
    Show.onWith_bind f2]
  dsimp only
  rw [Show.figure_bind]

theorem taken {o : Objective (Config ℝ) ℝ} {s t : BOState (Config ℝ) ℝ GpSurrogate S} (hs : Aligned o.value s) (ht : Aligned o.value t) (h : s.configs <+: t.configs) {m : Nat}
    (hm : s.configs.length = m) : s.configs = t.configs.take m ∧ s.ys = t.ys.take m := by
  have h1 : s.configs = t.configs.take m := by rw [← hm]; exact List.prefix_iff_eq_take.1 h
  refine ⟨h1, ?_⟩
  unfold Aligned at hs ht
  rw [hs, ht, h1, List.map_take]

/-- **C110** `bo_introduction` runs through, whatever is drawn, and saves ten figures. The first shows the function, the second the function and the four initial
points. The following ones show the function, the first 4, 5, 6, 7, 8, 9 and finally all (60, with `last = 51` as in the script) evaluated points, the mean and the
confidence predicted by a Gaussian process fitted to exactly these points, and below it the lower confidence bound of that same process at
drawn configurations together with the best of a further draw. All evaluated points are points of the function. -/
theorem C110_introduction {i : MainInput S} {argsort : List ℝ → List Nat} (hsort : Argsort argsort) {f : BlackboxFn ℝ}
    (hf : forNDimensions i.order (-5) 5 false styblinskiTangValue ((1 : Nat) : ℝ) none none = .ok f) (hi : i.Good f.cs) (getYlim : Ax ℝ → ℝ × ℝ) (tau : ℝ)
    {nCandidates : Int} (hn : 2 ≤ nCandidates) {perPlot : Nat} (hpp : 2 ≤ perPlot) {last : Int} (hl : 1 ≤ last) :
    ∃ p t fx fx' xs xo yo a0 a1 b0 c0 b1 c1 b2 c2 b3 c3 b4 c4 b5 c5 b6 c6 lims, f.cs = [p] ∧
      introduction i argsort getYlim 1 (.lcb tau) nCandidates perPlot [1, 1, 1, 1, 1, last] ⟨0, []⟩ =
        (⟨10, [("00_blackbox_function.png", [a0, Ax.new]), ("01_samples.png", [a1, Ax.new]), ("02_surrogate.png", [b0, Ax.new]), ("03_acquisition.png", [b0, c0]),
          ("04_acquisition.png", [b1, c1]), ("05_acquisition.png", [b2, c2]), ("06_acquisition.png", [b3, c3]), ("07_acquisition.png", [b4, c4]),
          ("08_acquisition.png", [b5, c5]), ("09_acquisition.png", [b6, c6])]⟩, .ok t) ∧
      t.configs.length = 9 + last.toNat ∧ t.ys.length = 9 + last.toNat ∧
      (∀ (j : Nat) c y, t.configs[j]? = some c → t.ys[j]? = some y → DrawnFrom f.cs c ∧ styblinskiTangValue f.cs c = .ok y) ∧
      EvenAxis (-5) 5 false perPlot fx ∧ EvenAxis (-5) 5 false perPlot fx' ∧ AxisOne p "Prediction" (-5) 5 false a0 [.line "black" fx (fx.map stOne)] ∧
      AxisOne p "Prediction" (-5) 5 false a1 [.line "grey" fx' (fx'.map stOne), .points "red" xo yo] ∧
      ReadsAs p.name (t.configs.take 4) xs ∧ xo.Pairwise (· ≤ ·) ∧ (xo.zip yo).Perm (xs.zip (t.ys.take 4)) ∧
      lims = (0.9 * (getYlim a0).1, 1.1 * (getYlim a0).2) ∧
      IntroFigure i p tau perPlot nCandidates.toNat (t.configs.take 4) (t.ys.take 4) none b0 c0 ∧
      IntroFigure i p tau perPlot nCandidates.toNat (t.configs.take 5) (t.ys.take 5) (some lims) b1 c1 ∧
      IntroFigure i p tau perPlot nCandidates.toNat (t.configs.take 6) (t.ys.take 6) (some lims) b2 c2 ∧
      IntroFigure i p tau perPlot nCandidates.toNat (t.configs.take 7) (t.ys.take 7) (some lims) b3 c3 ∧
      IntroFigure i p tau perPlot nCandidates.toNat (t.configs.take 8) (t.ys.take 8) (some lims) b4 c4 ∧
      IntroFigure i p tau perPlot nCandidates.toNat (t.configs.take 9) (t.ys.take 9) (some lims) b5 c5 ∧
      IntroFigure i p tau perPlot nCandidates.toNat t.configs t.ys (some lims) b6 c6 := by
  obtain ⟨cs, hf', hs, -⟩ := stSpace_ok hi.order 1
  rw [hf] at hf'
  obtain rfl : f = ⟨cs, styblinskiTangValue cs⟩ := Except.ok.inj hf'
  dsimp only at hi ⊢
  obtain ⟨p, rfl⟩ : ∃ p, cs = [p] := List.length_eq_one_iff.1 hs.len
  obtain ⟨o, ho⟩ : ∃ o, o = callObjective i.inv ⟨[p], styblinskiTangValue [p]⟩ := ⟨_, rfl⟩
  have hini : (1 : Int) ≤ 4 * (1 : Nat) := by norm_num
  have hstart : IntroInv [p] o (startSampler i .new) := by
    refine ⟨⟨by simp [startSampler, samplerInit], rfl⟩, ⟨by simp [HashOld, startSampler, samplerInit], rfl⟩, rfl, fun q hq => ?_, fun q hq => (hi.cache q hq).1⟩
    obtain ⟨a, b⟩ := hi.cache q hq
    rw [ho]
    rw [(objective_drawn hs i.inv a).1] at b
    exact (Except.ok.inj b).symm
  rw [ho] at hstart
  obtain ⟨s0, new0, h1, h2, h3, h4, h5⟩ := intro_sample (by omega) hs hi tau hn hini hstart (n := 4 * (1 : Nat)) hini
  have hlen0 : s0.configs.length = 4 := by
    rw [h3, List.length_append, h4]
    simp [startSampler, samplerInit]
  have hne : s0.configs ≠ [] := by
    intro h0
    rw [h0] at hlen0
    cases hlen0
  have hp := hs.kind p (by simp)
  obtain ⟨fx, g1, g2⟩ := function_line hs i.inv hpp "black"
  obtain ⟨fx', g3, g4⟩ := function_line hs i.inv hpp "grey"
  obtain ⟨xs, hxs⟩ := readsAs_drawn hs (p := p) (by simp) h2.good.configs
  obtain ⟨xo, yo, q1, -, -, q2, q3⟩ := C86_one hsort (cs := [p]) (sel := .none) rfl h2.good.len.symm hxs "red"
    (axis_again (newAxis_one (hp := p) (.inl hp) "Prediction") [.line "grey" fx' (fx'.map stOne)])
  obtain ⟨b0, c0, rng, f1, f2, mu, sd, f3, f4, f5⟩ := intro_figure hsort hs hi tau hn (4 * (1 : Nat)) (by omega : 1 ≤ perPlot) h2.good hne h5
  obtain ⟨lims, hlims⟩ : ∃ lims : ℝ × ℝ, lims = _ := ⟨(0.9 * (getYlim ((⟨p.name, "Prediction", false, false, some (-5, 5), none, []⟩ : Ax ℝ).draw [.line "black" fx (fx.map stOne)])).1,
    1.1 * (getYlim ((⟨p.name, "Prediction", false, false, some (-5, 5), none, []⟩ : Ax ℝ).draw [.line "black" fx (fx.map stOne)])).2), rfl⟩
  have hpp1 : 1 ≤ perPlot := by omega
  obtain ⟨s1, n1, gp1, b1, c1, i1, j1, k1, l1, m1⟩ := intro_round hsort hs hi tau hn hini hpp1 lims (h2.rng rng) (n := 1) (le_refl _)
  obtain ⟨s2, n2, gp2, b2, c2, i2, j2, k2, l2, m2⟩ := intro_round hsort hs hi tau hn hini hpp1 lims i1 (n := 1) (le_refl _)
  obtain ⟨s3, n3, gp3, b3, c3, i3, j3, k3, l3, m3⟩ := intro_round hsort hs hi tau hn hini hpp1 lims i2 (n := 1) (le_refl _)
  obtain ⟨s4, n4, gp4, b4, c4, i4, j4, k4, l4, m4⟩ := intro_round hsort hs hi tau hn hini hpp1 lims i3 (n := 1) (le_refl _)
  obtain ⟨s5, n5, gp5, b5, c5, i5, j5, k5, l5, m5⟩ := intro_round hsort hs hi tau hn hini hpp1 lims i4 (n := 1) (le_refl _)
  obtain ⟨t, n6, gp6, b6, c6, i6, j6, k6, l6, m6⟩ := intro_round hsort hs hi tau hn hini hpp1 lims i5 hl
  dsimp only at j1
  have e1 : s1.configs.length = 5 := by rw [j1, List.length_append, k1, hlen0]; rfl
  have e2 : s2.configs.length = 6 := by rw [j2, List.length_append, k2, e1]; rfl
  have e3 : s3.configs.length = 7 := by rw [j3, List.length_append, k3, e2]; rfl
  have e4 : s4.configs.length = 8 := by rw [j4, List.length_append, k4, e3]; rfl
  have e5 : s5.configs.length = 9 := by rw [j5, List.length_append, k5, e4]; rfl
  have e6 : t.configs.length = 9 + last.toNat := by rw [j6, List.length_append, k6, e5]
  have d5 : s5.configs <+: t.configs := ⟨_, j6.symm⟩
  have d4 : s4.configs <+: t.configs := .trans ⟨_, j5.symm⟩ d5
  have d3 : s3.configs <+: t.configs := .trans ⟨_, j4.symm⟩ d4
  have d2 : s2.configs <+: t.configs := .trans ⟨_, j3.symm⟩ d3
  have d1 : s1.configs <+: t.configs := .trans ⟨_, j2.symm⟩ d2
  have d0 : s0.configs <+: t.configs := .trans ⟨_, j1.symm⟩ d1
  obtain ⟨x0, y0⟩ := taken h2.aligned i6.aligned d0 hlen0
  obtain ⟨x1, y1⟩ := taken i1.aligned i6.aligned d1 e1
  obtain ⟨x2, y2⟩ := taken i2.aligned i6.aligned d2 e2
  obtain ⟨x3, y3⟩ := taken i3.aligned i6.aligned d3 e3
  obtain ⟨x4, y4⟩ := taken i4.aligned i6.aligned d4 e4
  obtain ⟨x5, y5⟩ := taken i5.aligned i6.aligned d5 e5
  have h5' := h5
  rw [y0] at q3
  rw [x0, y0] at f4 h5'
  have w0 : figureFile 0 "blackbox_function" = "00_blackbox_function.png" := by decide +kernel
  have w1 : figureFile (0 + 1) "samples" = "01_samples.png" := by decide +kernel
  have w2 : figureFile (0 + 1 + 1) "surrogate" = "02_surrogate.png" := by decide +kernel
  have w3 : figureFile (0 + 1 + 1 + 1) "acquisition" = "03_acquisition.png" := by decide +kernel
  have w4 : figureFile (0 + 1 + 1 + 1 + 1) "acquisition" = "04_acquisition.png" := by decide +kernel
  have w5 : figureFile (0 + 1 + 1 + 1 + 1 + 1) "acquisition" = "05_acquisition.png" := by decide +kernel
  have w6 : figureFile (0 + 1 + 1 + 1 + 1 + 1 + 1) "acquisition" = "06_acquisition.png" := by decide +kernel
  have w7 : figureFile (0 + 1 + 1 + 1 + 1 + 1 + 1 + 1) "acquisition" = "07_acquisition.png" := by decide +kernel
  have w8 : figureFile (0 + 1 + 1 + 1 + 1 + 1 + 1 + 1 + 1) "acquisition" = "08_acquisition.png" := by decide +kernel
  have w9 : figureFile (0 + 1 + 1 + 1 + 1 + 1 + 1 + 1 + 1 + 1) "acquisition" = "09_acquisition.png" := by decide +kernel
  have henv : gpSampler i.choose (.lcb tau) true (4 * (1 : Nat)) ([p].map Hp.name) i.drawer i.acqDrawer nCandidates = .ok (introEnv i tau [p] (4 * (1 : Nat)) nCandidates, .new) :=
    gpSampler_ok i.choose (kind := .lcb tau) (minimize := true) (.inl rfl) (4 * (1 : Nat)) ([p].map Hp.name) i.drawer i.acqDrawer nCandidates
  refine ⟨p, t, fx, fx', xs, xo, yo, _, _, b0, c0, b1, c1, b2, c2, b3, c3, b4, c4, b5, c5, b6, c6, lims, rfl, ?_, e6, i6.good.len.trans e6, fun j c y hj hy => ?_, g2, g4, rfl, rfl,
    x0 ▸ hxs, q2, q3, hlims, ⟨_, mu, sd, h5', f3, f4, f5⟩, x1 ▸ y1 ▸ l1, x2 ▸ y2 ▸ l2, x3 ▸ y3 ▸ l3, x4 ▸ y4 ▸ l4, x5 ▸ y5 ▸ l5, l6⟩
  · unfold introduction
    rw [Show.lift_bind hf, Show.lift_bind henv]
    dsimp only
    rw [show (introEnv i tau [p] (4 * (1 : Nat)) nCandidates).initialPoints = 4 * (1 : Nat) from rfl, Show.sampled_bind h1, Show.on_bind g1, Show.figure_bind, Show.on_bind g3, Show.on_bind q1, Show.figure_bind, Show.changed_bind h5, Show.bind_ok (f1 _), Show.figure_bind,
      Show.onWith_bind f2]
    dsimp only
    rw [Show.figure_bind, ← hlims, m1, m2, m3, m4, m5, m6]
    simp only [saveFig, w0, w1, w2, w3, w4, w5, w6, w7, w8, w9]
    simp [Ax.draw, introRounds]
    rfl
  · have hal := i6.aligned
    unfold Aligned at hal
    have hc := i6.good.configs c (List.mem_of_getElem? hj)
    rw [hal, List.getElem?_map, hj] at hy
    refine ⟨hc, ?_⟩
    rw [(objective_drawn hs i.inv hc).1]
    exact congrArg _ (Option.some.inj hy)

/-- the values of the script, a generator that always draws the middle: the last figure shows 60 points -/
example : ∃ (i : MainInput Unit) (g : Gallery) (t : BOState (Config ℝ) ℝ GpSurrogate Unit),
    introduction i exArgsort (fun _ => (-50, 250)) 1 (.lcb 5) 100 50 [1, 1, 1, 1, 1, 51] ⟨0, []⟩ = (g, .ok t) ∧ g.files.length = 10 ∧ t.configs.length = 60 ∧
    ∃ a b hp mu sd, g.files[9]? = some ("09_acquisition.png", [a, b]) ∧ ShowsModel hp 50 mu sd t.configs t.ys (some (0.9 * -50, 1.1 * 250)) a := by
  obtain ⟨cs, hf, hs, -⟩ := stSpace_ok (order := id) (fun l => List.Perm.refl l) 1
  obtain ⟨dr, hdr⟩ : ∃ dr : Drawer (Config ℝ) Unit, dr = ⟨fun _ n => (List.replicate n (midConfig cs), ()), by simp⟩ := ⟨_, rfl⟩
  have hdrawn : ∀ s n, ∀ c ∈ (dr.draw s n).1, DrawnFrom cs c := by
    intro s n c hc
    rw [hdr] at hc
    rw [List.eq_of_mem_replicate hc]
    exact midConfig_drawn hs
  obtain ⟨p, t, fx, fx', xs, xo, yo, a0, a1, b0, c0, b1, c1, b2, c2, b3, c3, b4, c4, b5, c5, b6, c6, lims, -, h1, h2, -, -, -, -, -, -, -, -, -, h3, -, -, -, -, -, -,
      ⟨gp, mu, sd, -, -, h4, -⟩⟩ := C110_introduction (S := Unit) exArgsort_sorts
    (i := ⟨id, fun _ _ => matern 1, fun _ _ => 0, dr, dr, (), fun _ => .error .value, .absent, .many (List.replicate 1000 (midConfig cs))⟩)
    hf ⟨fun l => List.Perm.refl l, fun _ _ => matern_unit one_pos _, hdrawn, hdrawn, by simp [loadCache],
      ⟨_, rfl, List.ne_nil_of_length_pos (by rw [List.length_replicate]; norm_num), fun c hc => by rw [List.eq_of_mem_replicate hc]; exact midConfig_drawn hs⟩⟩
    (fun _ => (-50, 250)) 5 (nCandidates := 100) (by norm_num) (perPlot := 50) (by norm_num) (last := 51) (by norm_num)
  subst h3
  exact ⟨_, _, t, h1, rfl, h2, b6, c6, p, mu, sd, rfl, h4⟩

end PyPDP
