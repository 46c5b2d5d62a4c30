/-
C93: plot_full_pdp. C94: the arrays of partial dependence plots. C95: plot_2D_ICE_Curve_with_confidence.
-/
import Verif.Model.AdvancedPlots
import Verif.Spec.AdvancedPlots
import Verif.Props.FamilyPlots
import Verif.Props.FigureGrid

namespace PyPDP
open Spec

/-! ### PDP objects that share a calculation -/

theorem pdpCurve_with_ice {s : PdpState ℝ} (hs : PdpFresh s) {i : IceState ℝ} (hi : pdpIce s = .ok i) :
    pdpCurve { s with ice := some i } = pdpCurve s := by
  have hX : pdpReadX s = pdpReadX { s with ice := some i } := by
    unfold pdpReadX pdpCached
    dsimp only
    rw [hs.1, hi]
    rfl
  unfold pdpCurve
  rw [← hX]

/-- the curve of a PDP all of whose values stem from one calculation -/
theorem belongTo_curve {s : PdpState ℝ} {d : IceData ℝ} (h : BelongTo s d) :
    (pdpCurve s).2 = (do
      let x ← meanAxis0 d.x
      let y ← meanRows d.y
      let v ← meanRows d.v
      .ok ⟨s.cfg.space, s.cfg.selected, x, y, v⟩) ∧ BelongTo (pdpCurve s).1 d := by
  obtain ⟨⟨a1, a2⟩, -, -⟩ := belongTo_reads h
  obtain ⟨-, ⟨b1, b2⟩, -⟩ := belongTo_reads a2
  obtain ⟨-, -, ⟨c1, c2⟩⟩ := belongTo_reads b2
  unfold pdpCurve
  rcases h1 : pdpReadX s with ⟨s1, r1⟩
  rw [h1] at a1 a2 b1 b2 c1 c2
  dsimp only at a1 a2 b1 b2 c1 c2 ⊢
  subst a1
  cases meanAxis0 d.x with
  | error e => exact ⟨rfl, a2⟩
  | ok x =>
    dsimp only
    rw [Py.ok_bind]
    rcases h2 : pdpReadY s1 with ⟨s2, r2⟩
    rw [h2] at b1 b2 c1 c2
    dsimp only at b1 b2 c1 c2 ⊢
    subst b1
    cases meanRows d.y with
    | error e => exact ⟨rfl, b2⟩
    | ok y =>
      dsimp only
      rw [Py.ok_bind]
      rcases h3 : pdpReadV s2 with ⟨s3, r3⟩
      rw [h3] at c1 c2
      dsimp only at c1 c2 ⊢
      subst c1
      cases meanRows d.v with
      | error e => exact ⟨rfl, c2⟩
      | ok v => exact ⟨rfl, c2⟩

theorem pdpCached_cfg {α β : Type} (s : PdpState ℝ) (cached : Option β) (read : IceState ℝ → IceState ℝ × Py α) (avg : α → Py β)
    {store : PdpState ℝ → β → PdpState ℝ} (hst : ∀ s b, (store s b).cfg = s.cfg) : (pdpCached s cached read avg store).1.cfg = s.cfg := by
  unfold pdpCached
  split
  · rfl
  · split
    · rfl
    · split
      · rfl
      · split
        · rfl
        · rw [hst]

theorem pdpCurve_cfg (s : PdpState ℝ) : (pdpCurve s).1.cfg = s.cfg := by
  have hx : ∀ s : PdpState ℝ, (pdpReadX s).1.cfg = s.cfg := fun s => pdpCached_cfg _ _ _ _ fun _ _ => rfl
  have hy : ∀ s : PdpState ℝ, (pdpReadY s).1.cfg = s.cfg := fun s => pdpCached_cfg _ _ _ _ fun _ _ => rfl
  have hv : ∀ s : PdpState ℝ, (pdpReadV s).1.cfg = s.cfg := fun s => pdpCached_cfg _ _ _ _ fun _ _ => rfl
  unfold pdpCurve
  have h1 := hx s
  generalize pdpReadX s = p at h1 ⊢; obtain ⟨s1, r1⟩ := p
  dsimp only at h1
  cases r1 with
  | error e => exact h1
  | ok x =>
    dsimp only
    have h2 := hy s1
    generalize pdpReadY s1 = p at h2 ⊢; obtain ⟨s2, r2⟩ := p
    dsimp only at h2
    cases r2 with
    | error e => exact h2.trans h1
    | ok y =>
      dsimp only
      have h3 := hv s2
      generalize pdpReadV s2 = p at h3 ⊢; obtain ⟨s3, r3⟩ := p
      dsimp only at h3
      cases r3 with
      | error e => exact h3.trans (h2.trans h1)
      | ok v => exact h3.trans (h2.trans h1)

/-- `t` is the PDP `s`, possibly after some values have been read -/
def SameCurve (s t : PdpState ℝ) : Prop := ∃ d, BelongTo t d ∧ t.cfg = s.cfg ∧ (pdpCurve t).2 = (pdpCurve s).2

theorem SameCurve.read {s t : PdpState ℝ} (h : SameCurve s t) : SameCurve s (pdpCurve t).1 := by
  obtain ⟨d, h1, h2, h3⟩ := h
  have h4 := belongTo_curve h1
  have h5 := belongTo_curve h4.2
  refine ⟨d, h4.2, (pdpCurve_cfg t).trans h2, ?_⟩
  rw [h5.1, ← h3, h4.1, pdpCurve_cfg]

/-- the ICE object of a new PDP -/
def plainIce (c : IceCfg ℝ) : IceCfg ℝ := ⟨c.space, c.selected, c.samples, c.samples.length, c.perAxis, c.perAxis ^ c.selected.length, false, c.predict⟩

theorem own_gives {c : IceCfg ℝ} {mu sd : List ℝ → ℝ} (hc : Plottable c mu sd) : Plottable (plainIce c) mu sd ∧ ∃ d, Gives (iceInit (plainIce c)) d := by
  have hcv : ValidCfg (plainIce c) := ⟨hc.valid.wf, hc.valid.sel_mem, hc.valid.sel_distinct, hc.valid.sel_ne, hc.valid.rows, rfl, rfl⟩
  obtain ⟨grid, hgr, hgl, -⟩ := C40_grid (K := ℝ) (List.length_pos_iff.2 hc.valid.sel_ne) c.perAxis
  obtain ⟨idx, hidx, -⟩ := hc.valid.idx
  have hcalc := iceCalc_ok hcv (mu := mu) (sd := sd) hc.predict hc.samples hgl (pow_ne_zero _ hc.points) (idx := idx) hidx
  exact ⟨⟨hcv, hc.declared, hc.unit, hc.samples, hc.points, hc.predict⟩, _,
    Or.inr ⟨fresh_init _, by rw [calcNow_init (plainIce c) (g := grid) hgr, hcalc]⟩⟩

theorem sameCurve_ice {s : PdpState ℝ} (hs : PdpFresh s) {i : IceState ℝ} (hi : pdpIce s = .ok i) {d : IceData ℝ} (hd : Gives i d)
    {i' : IceState ℝ} (hd' : Gives i' d) : SameCurve s { s with ice := some i' } := by
  have b : ∀ j, Gives j d → BelongTo { s with ice := some j } d := fun j hj =>
    ⟨⟨j, rfl, hj⟩, by simp [hs.1], by simp [hs.2.1], by simp [hs.2.2]⟩
  refine ⟨d, b i' hd', rfl, ?_⟩
  rw [(belongTo_curve (b i' hd')).1, ← pdpCurve_with_ice hs hi, (belongTo_curve (b i hd)).1]

theorem icePlot_gives {s : IceState ℝ} {d : IceData ℝ} (h : Gives s d) (color : String) (alpha : ℝ) (ax : Ax ℝ) :
    Gives (icePlot color alpha s ax).1 d := by
  obtain ⟨⟨s1, hr1, hs1⟩, -, -⟩ := reads_of_gives h
  obtain ⟨-, ⟨s2, hr2, hs2⟩, -⟩ := reads_of_gives (Or.inl hs1 : Gives s1 d)
  unfold icePlot
  split
  · exact h
  · split
    · rw [hr1]
      dsimp only
      rw [hr2]
      exact Or.inl hs2
    · exact h

theorem pdpPlotValues_same {s t : PdpState ℝ} (h : SameCurve s t) (color : String) (ax : Ax ℝ) :
    (pdpPlotValues color t ax).2 = (pdpPlotValues color s ax).2 ∧ (pdpPlotValues color t ax).1 = (pdpCurve t).1 := by
  obtain ⟨d, -, -, h3⟩ := h
  unfold pdpPlotValues
  generalize pdpCurve t = p at h3 ⊢
  generalize pdpCurve s = q at h3 ⊢
  obtain ⟨t', r⟩ := p
  obtain ⟨s', r'⟩ := q
  dsimp only at h3
  subst h3
  cases r <;> exact ⟨rfl, rfl⟩

theorem pdpPlotConfidences_same {s t : PdpState ℝ} (h : SameCurve s t) (lc gc : String) (ms : ℝ) (ax : Ax ℝ) :
    (pdpPlotConfidences lc gc ms t ax).2 = (pdpPlotConfidences lc gc ms s ax).2 ∧ (pdpPlotConfidences lc gc ms t ax).1 = (pdpCurve t).1 := by
  obtain ⟨d, -, -, h3⟩ := h
  unfold pdpPlotConfidences
  generalize pdpCurve t = p at h3 ⊢
  generalize pdpCurve s = q at h3 ⊢
  obtain ⟨t', r⟩ := p
  obtain ⟨s', r'⟩ := q
  dsimp only at h3
  subst h3
  cases r <;> exact ⟨rfl, rfl⟩

/-! ### explicit plots -/

theorem eq_range_map {n : Nat} {l : List ℝ} {f : Nat → ℝ} (hl : l.length = n) (h : ∀ i < n, l[i]? = some (f i)) : l = (List.range n).map f := by
  refine List.ext_getElem? fun i => ?_
  by_cases hi : i < n
  · rw [h i hi, List.getElem?_map, List.getElem?_range hi]
    rfl
  · rw [List.getElem?_eq_none (by omega), List.getElem?_eq_none (by simp; omega)]

theorem newAxis_one {hp : Hp ℝ} {l u : ℝ} {g : Bool} (hk : hp.kind = .float l u g ∨ hp.kind = .integer l u g) (yl : String) :
    checkAndSetAxis [hp] true yl Ax.new = (⟨hp.name, yl, g, false, some (l, u), none, []⟩, .ok ()) := by
  have hn : hp.numerical? = some (l, u, g) := by rcases hk with hk | hk <;> simp [Hp.numerical?, hk]
  cases g <;> simp [checkAndSetAxis, Ax.new, Ax.boundX, hn]

theorem newAxis_two {p q : Hp ℝ} {l u : ℝ} {g : Bool} (hk : p.kind = .float l u g ∨ p.kind = .integer l u g) {l' u' : ℝ} {g' : Bool}
    (hk' : q.kind = .float l' u' g' ∨ q.kind = .integer l' u' g') (yl : String) :
    checkAndSetAxis [p, q] true yl Ax.new = (⟨p.name, q.name, g, g', some (l, u), some (l', u'), []⟩, .ok ()) := by
  have hn : p.numerical? = some (l, u, g) := by rcases hk with hk | hk <;> simp [Hp.numerical?, hk]
  have hn' : q.numerical? = some (l', u', g') := by rcases hk' with hk | hk <;> simp [Hp.numerical?, hk]
  cases g <;> cases g' <;> simp [checkAndSetAxis, Ax.new, Ax.boundX, Ax.boundY, hn, hn']

/-- an axis that is already set up keeps everything -/
theorem axis_again {hps : List (Hp ℝ)} {b : Bool} {yl : String} {ax ax' : Ax ℝ} (h : checkAndSetAxis hps b yl ax = (ax', .ok ()))
    (ss : List (Shape ℝ)) : checkAndSetAxis hps b yl (ax'.draw ss) = (ax'.draw ss, .ok ()) := by
  rw [checkAndSetAxis_draw, C71_repeat h]

section one
variable {s : PdpState ℝ} (hs : PdpFresh s) (hi : s.ice = none) {mu sd : List ℝ → ℝ} (hc : Plottable s.cfg mu sd) {hp : Hp ℝ}
  (hsel : s.cfg.selected = [hp]) {l u : ℝ} {g : Bool} (hk : hp.kind = .float l u g ∨ hp.kind = .integer l u g) {f : Nat}
  (hf : IsFeature s.cfg.space hp f)
include hs hi hc hsel hk hf

theorem values_one {t : PdpState ℝ} (ht : SameCurve s t) {ax ax' : Ax ℝ} (hax : checkAndSetAxis [hp] true "Prediction" ax = (ax', .ok ()))
    (color : String) : pdpPlotValues color t ax = ((pdpCurve t).1,
      ax'.draw [.line color (naturalGrid l u g s.cfg.perAxis) (pdpMeans s.cfg.samples mu f s.cfg.perAxis)], .ok ()) := by
  obtain ⟨s', xs, ys, h1, h2, h3, h4⟩ := C83_pdp_one hs hi hc hsel hk hf hax color
  obtain ⟨h5, h6⟩ := pdpPlotValues_same ht color ax
  refine Prod.ext h6 ?_
  rw [h5, h1, eq_range_map h2 fun i hi => (h4 i hi).1, eq_range_map h3 fun i hi => (h4 i hi).2]
  rfl

theorem confidences_one {t : PdpState ℝ} (ht : SameCurve s t) {ax ax' : Ax ℝ}
    (hax : checkAndSetAxis [hp] true "Prediction" ax = (ax', .ok ())) (lc gc : String) {ms : ℝ} (hms : 0 < ms) :
    ∃ shapes, pdpPlotConfidences lc gc ms t ax = ((pdpCurve t).1, ax'.draw shapes, .ok ()) ∧ ShowsConfidence lc gc ms
      (naturalGrid l u g s.cfg.perAxis) (pdpMeans s.cfg.samples mu f s.cfg.perAxis) (pdpStds s.cfg.samples sd f s.cfg.perAxis) shapes := by
  obtain ⟨s', xs, ys, σ, shapes, h1, h2, h3, h4, h5, h6⟩ := C84_pdp_one hs hi hc hsel hk hf hax lc gc hms
  obtain ⟨h7, h8⟩ := pdpPlotConfidences_same ht lc gc ms ax
  refine ⟨shapes, Prod.ext h8 (by rw [h7, h1]), ?_⟩
  rw [eq_range_map h2 fun i hi => (h5 i hi).1, eq_range_map h3 fun i hi => (h5 i hi).2.1, eq_range_map h4 fun i hi => ?_] at h6
  · exact h6
  · obtain ⟨-, -, t, e, h0, hsq⟩ := h5 i hi
    rw [e, ← hsq, Real.sqrt_mul_self h0]

end one

theorem lines_one {c : IceCfg ℝ} {mu sd : List ℝ → ℝ} (hc : Plottable c mu sd) (hcen : c.centered = false) {hp : Hp ℝ}
    (hsel : c.selected = [hp]) {l u : ℝ} {g : Bool} (hk : hp.kind = .float l u g ∨ hp.kind = .integer l u g) {f : Nat}
    (hf : IsFeature c.space hp f) (color : String) {alpha : ℝ} (h0 : 0 ≤ alpha) (h1 : alpha ≤ 1) {ax ax' : Ax ℝ}
    (hax : checkAndSetAxis [hp] true "Prediction" ax = (ax', .ok ())) :
    (icePlot color alpha (iceInit c) ax).2 = (ax'.draw ((c.samples.map fun r =>
      .line color (naturalGrid l u g c.perAxis) (iceValues mu f c.perAxis r)) ++ [.line color [] []]), .ok ()) := by
  obtain ⟨s', lines, h2, h3, h4⟩ := C88_ice_new hc hcen hsel hk hf color h0 h1 hax
  rw [h2]
  have : lines = c.samples.map fun r => .line color (naturalGrid l u g c.perAxis) (iceValues mu f c.perAxis r) := by
    refine List.ext_getElem? fun k => ?_
    by_cases hk : k < c.samples.length
    · obtain ⟨xs, ys, e, h5, h6, h7⟩ := h4 k _ (List.getElem?_eq_getElem hk)
      rw [e, List.getElem?_map, List.getElem?_eq_getElem hk, eq_range_map h5 fun i hi => (h7 i hi).1, eq_range_map h6 fun i hi => (h7 i hi).2]
      rfl
    · rw [List.getElem?_eq_none (by omega), List.getElem?_eq_none (by simpa using hk)]
  rw [this]

/-! ### C93 -/

/-- **C93** a new PDP of one hyperparameter: on a new axis one red line per sample - its predictions over the evenly spaced values -, the
empty line of the legend, the means over the samples in black, and the confidence bands and lines around them. -/
theorem C93_one {s : PdpState ℝ} (hs : PdpFresh s) (hi : s.ice = none) {mu sd : List ℝ → ℝ} (hc : Plottable s.cfg mu sd) {hp : Hp ℝ}
    (hsel : s.cfg.selected = [hp]) {l u : ℝ} {g : Bool} (hk : hp.kind = .float l u g ∨ hp.kind = .integer l u g) {f : Nat}
    (hf : IsFeature s.cfg.space hp f) :
    ∃ s' ax shapes, fullPdp s = (s', ax, .ok ()) ∧ AxisOne hp "Prediction" l u g ax
      ((s.cfg.samples.map fun r => .line "red" (naturalGrid l u g s.cfg.perAxis) (iceValues mu f s.cfg.perAxis r)) ++ [.line "red" [] []] ++
        [.line "black" (naturalGrid l u g s.cfg.perAxis) (pdpMeans s.cfg.samples mu f s.cfg.perAxis)] ++ shapes) ∧
      ShowsConfidence "black" "blue" (3 / 2) (naturalGrid l u g s.cfg.perAxis) (pdpMeans s.cfg.samples mu f s.cfg.perAxis)
        (pdpStds s.cfg.samples sd f s.cfg.perAxis) shapes := by
  obtain ⟨hown, d, hd⟩ := own_gives hc
  have hice : pdpIce s = .ok (iceInit (plainIce s.cfg)) := pdpIce_own hi
  have hax := newAxis_one hk "Prediction"
  obtain ⟨ax0, hax0⟩ : ∃ ax0 : Ax ℝ, ax0 = ⟨hp.name, "Prediction", g, false, some (l, u), none, []⟩ := ⟨_, rfl⟩
  rw [← hax0] at hax
  have hlines := lines_one hown rfl hsel hk hf "red" (alpha := 1 / 10) (by norm_num) (by norm_num) hax
  obtain ⟨L, hL⟩ : ∃ L, L = ((plainIce s.cfg).samples.map fun r =>
    Shape.line "red" (naturalGrid l u g (plainIce s.cfg).perAxis) (iceValues mu f (plainIce s.cfg).perAxis r)) ++ [.line "red" [] []] := ⟨_, rfl⟩
  rw [← hL] at hlines
  have hg1 := icePlot_gives hd "red" (1 / 10) Ax.new
  rcases hp1 : icePlot "red" (1 / 10) (iceInit (plainIce s.cfg)) Ax.new with ⟨i1, rest⟩
  rw [hp1] at hlines hg1
  dsimp only at hlines hg1
  subst hlines
  have hs1 := sameCurve_ice hs hice hd hg1
  have hv := values_one hs hi hc hsel hk hf hs1 (axis_again hax L) "black"
  obtain ⟨M, hM⟩ : ∃ M, M = L ++ [.line "black" (naturalGrid l u g s.cfg.perAxis) (pdpMeans s.cfg.samples mu f s.cfg.perAxis)] := ⟨_, rfl⟩
  obtain ⟨shapes, hcf, hsh⟩ := confidences_one hs hi hc hsel hk hf hs1.read (axis_again hax M) "black" "blue" (ms := 3 / 2) (by norm_num)
  have hfull : fullPdp s = ((pdpCurve (pdpCurve { s with ice := some i1 }).1).1, ax0.draw (M ++ shapes), .ok ()) := by
    unfold fullPdp
    rw [hice]
    dsimp only
    rw [hp1]
    dsimp only
    rw [hv]
    dsimp only
    rw [Ax.draw_draw, ← hM, hcf, Ax.draw_draw]
  refine ⟨_, _, shapes, hfull, ?_, hsh⟩
  unfold AxisOne
  rw [hax0, hM, hL]
  simp [Ax.draw, plainIce]

/-- **C93** two or more selected hyperparameters: NotImplementedError, nothing is drawn; the PDP has got its ICE object, which has calculated
nothing. -/
theorem C93_many {s : PdpState ℝ} {i : IceState ℝ} (hi : pdpIce s = .ok i) (hsel : i.cfg.selected.length ≠ 1) :
    ∃ ax, fullPdp s = ({ s with ice := some i }, ax, .error .notImplemented) ∧ ax.shapes = [] := by
  have hax : ∃ ax, checkAndSetAxis i.cfg.selected true "Prediction" Ax.new = (ax, .ok ()) := by
    unfold checkAndSetAxis
    split
    · rename_i h; rw [h] at hsel; exact absurd rfl hsel
    · rw [if_neg (by simp [Ax.new])]; exact ⟨_, rfl⟩
    · exact ⟨_, rfl⟩
  obtain ⟨ax, hax⟩ := hax
  obtain ⟨h1, h2⟩ := C88_ice_other hsel "red" (1 / 10) hax
  refine ⟨ax, ?_, h2⟩
  unfold fullPdp
  rw [hi]
  dsimp only
  rw [h1]

/-! ### C94 -/

section arrays
variable {cs : ConfigSpace ℝ} (hwf : cs.WF) (hcs : AllDeclared cs) {predict : Predict ℝ} {mu sd : List ℝ → ℝ} (hp : RowWise cs.length predict mu sd)
  {perAxis : Nat} (hP : perAxis ≠ 0) {draws : Draws (Config ℝ)} {samples : List (List ℝ)} (hdr : UnitDraws cs draws samples)
include hwf hcs hp hP hdr

theorem plottable_drawn {sel : List (Hp ℝ)} (hm : ∀ h ∈ sel, h ∈ cs) (hd : (sel.map Hp.name).Nodup) (hne : sel ≠ []) :
    Plottable ⟨cs, sel, samples, samples.length, perAxis, perAxis ^ sel.length, false, predict⟩ mu sd := by
  obtain ⟨l, rfl, -, h1, h2⟩ := hdr
  exact ⟨⟨hwf, hm, hd, hne, fun r hr => (h2 r hr).1, rfl, rfl⟩, hcs, fun r hr => (h2 r hr).2, h1, hP, hp⟩

omit hwf hcs hp hP in
theorem samplesOf_drawn : samplesOf draws = .ok samples := by
  obtain ⟨l, rfl, rfl, -, -⟩ := hdr
  rfl

omit hwf hcs hp hP hdr in
theorem pdpInit_drawn (cs : ConfigSpace ℝ) (predict : Predict ℝ) (sel : List (Hp ℝ)) (samples : List (List ℝ)) (perAxis : Nat) :
    pdpInit cs predict (.many (sel.map .hp)) samples perAxis =
      .ok ⟨⟨cs, sel, samples, samples.length, perAxis, perAxis ^ sel.length, false, predict⟩, none, none, none, none⟩ := by
  unfold pdpInit
  rw [algorithmInit_self (c := ⟨cs, sel, samples, samples.length, perAxis, perAxis ^ sel.length, false, predict⟩) rfl rfl]
  rfl

theorem both_one {h : Hp ℝ} {l u : ℝ} {g : Bool} (hk : h.kind = .float l u g ∨ h.kind = .integer l u g) {f : Nat} (hf : cs[f]? = some h)
    {t : PdpState ℝ} (ht : SameCurve ⟨⟨cs, [h], samples, samples.length, perAxis, perAxis ^ 1, false, predict⟩, none, none, none, none⟩ t) :
    ∃ t' ax shapes, bothPlots t Ax.new = (t', ax, .ok ()) ∧
      SameCurve ⟨⟨cs, [h], samples, samples.length, perAxis, perAxis ^ 1, false, predict⟩, none, none, none, none⟩ t' ∧
      AxisOne h "Prediction" l u g ax ([.line "red" (naturalGrid l u g perAxis) (pdpMeans samples mu f perAxis)] ++ shapes) ∧
      ShowsConfidence "red" "lightsalmon" (3 / 2) (naturalGrid l u g perAxis) (pdpMeans samples mu f perAxis) (pdpStds samples sd f perAxis)
        shapes := by
  have hc := plottable_drawn hwf hcs hp hP hdr (sel := [h]) (by simpa using List.mem_of_getElem? hf) (by simp) (by simp)
  obtain ⟨ax0, hax0⟩ : ∃ ax0 : Ax ℝ, ax0 = ⟨h.name, "Prediction", g, false, some (l, u), none, []⟩ := ⟨_, rfl⟩
  have hax := newAxis_one hk "Prediction"
  rw [← hax0] at hax
  obtain ⟨s, hs⟩ : ∃ s : PdpState ℝ, s = ⟨⟨cs, [h], samples, samples.length, perAxis, perAxis ^ 1, false, predict⟩, none, none, none, none⟩ := ⟨_, rfl⟩
  have hfr : PdpFresh s := by subst hs; exact ⟨rfl, rfl, rfl⟩
  have hi : s.ice = none := by subst hs; rfl
  have hc : Plottable s.cfg mu sd := by subst hs; exact hc
  have hsel : s.cfg.selected = [h] := by subst hs; rfl
  have hff : IsFeature s.cfg.space h f := by subst hs; exact ⟨h, hf, rfl⟩
  rw [← hs] at ht ⊢
  have hv := values_one hfr hi hc hsel hk hff ht hax "red"
  obtain ⟨shapes, hcf, hsh⟩ := confidences_one hfr hi hc hsel hk hff ht.read (axis_again hax
    [.line "red" (naturalGrid l u g s.cfg.perAxis) (pdpMeans s.cfg.samples mu f s.cfg.perAxis)]) "red" "lightsalmon" (ms := 3 / 2) (by norm_num)
  have hb : bothPlots t Ax.new = ((pdpCurve (pdpCurve t).1).1, (ax0.draw
      [.line "red" (naturalGrid l u g s.cfg.perAxis) (pdpMeans s.cfg.samples mu f s.cfg.perAxis)]).draw shapes, .ok ()) := by
    unfold bothPlots
    rw [hv]
    dsimp only
    rw [hcf]
  refine ⟨_, _, shapes, hb, ht.read.read, ?_, by subst hs; exact hsh⟩
  subst hs hax0
  simp [AxisOne, Ax.draw]

theorem std_one {h : Hp ℝ} {l u : ℝ} {g : Bool} (hk : h.kind = .float l u g ∨ h.kind = .integer l u g) {f : Nat} (hf : cs[f]? = some h)
    {t : PdpState ℝ} (ht : SameCurve ⟨⟨cs, [h], samples, samples.length, perAxis, perAxis ^ 1, false, predict⟩, none, none, none, none⟩ t) :
    ∃ t' ax shapes, pdpPlotConfidences "red" "lightsalmon" (3 / 2) t Ax.new = (t', ax, .ok ()) ∧ AxisOne h "Prediction" l u g ax shapes ∧
      ShowsConfidence "red" "lightsalmon" (3 / 2) (naturalGrid l u g perAxis) (pdpMeans samples mu f perAxis) (pdpStds samples sd f perAxis)
        shapes := by
  have hc := plottable_drawn hwf hcs hp hP hdr (sel := [h]) (by simpa using List.mem_of_getElem? hf) (by simp) (by simp)
  have hax := newAxis_one hk "Prediction"
  obtain ⟨shapes, hcf, hsh⟩ := confidences_one (s := ⟨⟨cs, [h], samples, samples.length, perAxis, perAxis ^ 1, false, predict⟩, none, none, none, none⟩)
    ⟨rfl, rfl, rfl⟩ rfl hc rfl hk ⟨h, hf, rfl⟩ ht hax "red" "lightsalmon" (ms := 3 / 2) (by norm_num)
  exact ⟨_, _, shapes, hcf, by simp [AxisOne, Ax.draw], hsh⟩

/-- **C94** one axis of the array -/
theorem arrayCell_ok {h : Hp ℝ} {l u : ℝ} {g : Bool} (hk : h.kind = .float l u g ∨ h.kind = .integer l u g) {f : Nat} (hf : cs[f]? = some h) :
    ∃ ax shapes, arrayCell predict cs perAxis draws h Ax.new = (ax, .ok ()) ∧
      AxisOne h "Prediction" l u g ax ([.line "red" (naturalGrid l u g perAxis) (pdpMeans samples mu f perAxis)] ++ shapes) ∧
      ShowsConfidence "red" "lightsalmon" (3 / 2) (naturalGrid l u g perAxis) (pdpMeans samples mu f perAxis) (pdpStds samples sd f perAxis)
        shapes := by
  obtain ⟨c, hcd⟩ : ∃ c : IceCfg ℝ, c = ⟨cs, [h], samples, samples.length, perAxis, perAxis ^ 1, false, predict⟩ := ⟨_, rfl⟩
  have hc := plottable_drawn hwf hcs hp hP hdr (sel := [h]) (by simpa using List.mem_of_getElem? hf) (by simp) (by simp)
  have hof : pdpOfDraws predict cs perAxis h draws = .ok ⟨c, some (iceInit c), none, none, none⟩ := by
    unfold pdpOfDraws
    rw [samplesOf_drawn hdr, Py.ok_bind]
    have : algorithmInit cs predict (.one h) samples perAxis = .ok c := by
      subst hcd
      rfl
    rw [this, Py.ok_bind]
    unfold pdpFromIce
    subst hcd
    rw [show (iceInit (⟨cs, [h], samples, samples.length, perAxis, perAxis ^ 1, false, predict⟩ : IceCfg ℝ)).cfg =
      ⟨cs, [h], samples, samples.length, perAxis, perAxis ^ 1, false, predict⟩ from rfl]
    dsimp only
    rw [pdpInit_drawn, Py.ok_bind]
    rfl
  obtain ⟨-, d, hd⟩ := own_gives hc
  have hsame : SameCurve ⟨c, none, none, none, none⟩ ⟨c, some (iceInit c), none, none, none⟩ :=
    sameCurve_ice (s := ⟨c, none, none, none, none⟩) ⟨rfl, rfl, rfl⟩ (pdpIce_own rfl) (d := d) (by subst hcd; exact hd) (by subst hcd; exact hd)
  subst hcd
  obtain ⟨t', ax, shapes, h1, -, h2, h3⟩ := both_one hwf hcs hp hP hdr hk hf hsame
  refine ⟨ax, shapes, ?_, h2, h3⟩
  unfold arrayCell
  rw [hof]
  dsimp only
  rw [h1]

end arrays

theorem arrayLoop_ok {cell : Nat → Hp ℝ → Ax ℝ → Ax ℝ × Py Unit} : ∀ (hps : List (Hp ℝ)) (k m : Nat), hps.length ≤ m →
    (∀ (i : Nat) h, hps[i]? = some h → ∃ ax, cell (k + i) h Ax.new = (ax, .ok ())) →
    ∃ axs, arrayLoop cell k hps (List.replicate m Ax.new) = (axs, .ok ()) ∧ axs.length = m ∧
      (∀ (i : Nat) h, hps[i]? = some h → ∃ ax, axs[i]? = some ax ∧ cell (k + i) h Ax.new = (ax, .ok ())) ∧
      ∀ i < m, hps.length ≤ i → axs[i]? = some Ax.new := by
  intro hps
  induction hps with
  | nil =>
    intro k m _ _
    refine ⟨List.replicate m Ax.new, by cases m <;> rfl, by simp, by simp, fun i hi _ => by simp [hi]⟩
  | cons h hps ih =>
    intro k m hm hcell
    obtain ⟨m, rfl⟩ : ∃ m', m = m' + 1 := ⟨m - 1, by simp at hm; omega⟩
    obtain ⟨ax, hax⟩ := hcell 0 h rfl
    obtain ⟨axs, h1, h2, h3, h4⟩ := ih (k + 1) m (by simpa using hm) fun i h' hi => by
      rw [show k + 1 + i = k + (i + 1) by omega]
      exact hcell (i + 1) h' hi
    rw [Nat.add_zero] at hax
    refine ⟨ax :: axs, ?_, by simp [h2], fun i h' hi => ?_, fun i hi hl => ?_⟩
    · rw [List.replicate_succ]
      unfold arrayLoop
      rw [hax]
      dsimp only
      rw [h1]
    · cases i with
      | zero =>
        obtain rfl := Option.some.inj hi
        exact ⟨ax, rfl, hax⟩
      | succ i =>
        rw [show k + (i + 1) = k + 1 + i by omega]
        exact h3 i h' hi
    · cases i with
      | zero => simp at hl
      | succ i => exact h4 i (by omega) (by simpa using hl)

/-- **C94** the array of partial dependence plots: a grid of axes with room for all hyperparameters; the `i`-th shows the mean predictions and
the confidence around them over the `i`-th hyperparameter, for the samples of that axis; the remaining axes are empty. -/
theorem C94_array {cs : ConfigSpace ℝ} (hwf : cs.WF) (hcs : AllDeclared cs) (hne : cs ≠ []) {predict : Predict ℝ} {mu sd : List ℝ → ℝ}
    (hp : RowWise cs.length predict mu sd) {perAxis : Nat} (hP : perAxis ≠ 0) {draws : Nat → Draws (Config ℝ)} {samples : Nat → List (List ℝ)}
    (hdr : ∀ i < cs.length, UnitDraws cs (draws i) (samples i)) :
    ∃ w h axs, quadraticShape cs.length = .ok (w, h) ∧ hyperparameterArray1D predict cs perAxis draws = (axs, .ok ()) ∧ axs.length = h * w ∧
      cs.length ≤ h * w ∧
      (∀ (i : Nat) hp l u g, cs[i]? = some hp → (hp.kind = .float l u g ∨ hp.kind = .integer l u g) → ∃ ax shapes, axs[i]? = some ax ∧
        AxisOne hp "Prediction" l u g ax ([.line "red" (naturalGrid l u g perAxis) (pdpMeans (samples i) mu i perAxis)] ++ shapes) ∧
        ShowsConfidence "red" "lightsalmon" (3 / 2) (naturalGrid l u g perAxis) (pdpMeans (samples i) mu i perAxis)
          (pdpStds (samples i) sd i perAxis) shapes) ∧
      ∀ i < h * w, cs.length ≤ i → axs[i]? = some Ax.new := by
  obtain ⟨w, h, hq, -, -, -, hroom, -⟩ := C70_shape (n := cs.length) (by have := List.length_pos_iff.2 hne; omega)
  have hroom : cs.length ≤ h * w := by rw [Nat.mul_comm]; exact_mod_cast hroom
  have hcell : ∀ (i : Nat) hp l u g, cs[i]? = some hp → (hp.kind = .float l u g ∨ hp.kind = .integer l u g) → _ :=
    fun i h l u g hi hk => arrayCell_ok hwf hcs hp hP (hdr i (List.getElem?_eq_some_iff.1 hi).1) hk hi
  obtain ⟨axs, h1, h2, h3, h4⟩ := arrayLoop_ok (cell := fun i => arrayCell predict cs perAxis (draws i)) cs 0 (h * w) hroom fun i hp hi => by
    obtain ⟨l, u, g, -, hk⟩ := allDeclared_kind hcs (List.mem_of_getElem? hi)
    obtain ⟨ax, -, h, -⟩ := hcell i hp l u g hi hk
    exact ⟨ax, by rw [Nat.zero_add]; exact h⟩
  refine ⟨w, h, axs, hq, ?_, h2, hroom, fun i hp l u g hi hk => ?_, h4⟩
  · unfold hyperparameterArray1D
    rw [hq]
    exact h1
  · obtain ⟨ax, shapes, e, h5, h6⟩ := hcell i hp l u g hi hk
    obtain ⟨ax', hax, e'⟩ := h3 i hp hi
    rw [Nat.zero_add, e] at e'
    obtain rfl := (Prod.ext_iff.1 e').1
    exact ⟨ax, shapes, hax, h5, h6⟩

/-- **C94** without hyperparameters there is no grid: ValueError. -/
theorem C94_array_none (predict : Predict ℝ) (perAxis : Nat) (draws : Nat → Draws (Config ℝ)) :
    hyperparameterArray1D predict [] perAxis draws = ([], .error .value) := by
  unfold hyperparameterArray1D
  rw [show ((([] : ConfigSpace ℝ).length : Nat) : Int) = 0 from rfl, C70_none le_rfl]

/-- **C94** a single sample (`num_samples=1`): `sample_configuration` returns a bare configuration, AttributeError; all
axes stay empty. -/
theorem C94_array_single {cs : ConfigSpace ℝ} (hne : cs ≠ []) (predict : Predict ℝ) (perAxis : Nat) {draws : Nat → Draws (Config ℝ)}
    {c : Config ℝ} (hdr : draws 0 = .one c) :
    ∃ axs, hyperparameterArray1D predict cs perAxis draws = (axs, .error .attribute) ∧ ∀ ax ∈ axs, ax = Ax.new := by
  obtain ⟨w, h, hq, -, -, -, hroom, -⟩ := C70_shape (n := cs.length) (by have := List.length_pos_iff.2 hne; omega)
  have hroom : cs.length ≤ h * w := by rw [Nat.mul_comm]; exact_mod_cast hroom
  obtain ⟨hp, rest, rfl⟩ := List.exists_cons_of_ne_nil hne
  obtain ⟨m, hm⟩ : ∃ m', h * w = m' + 1 := ⟨h * w - 1, by simp at hroom; omega⟩
  refine ⟨List.replicate (h * w) Ax.new, ?_, fun ax hax => (List.mem_replicate.1 hax).2⟩
  unfold hyperparameterArray1D
  rw [hq]
  dsimp only
  rw [hm, List.replicate_succ]
  unfold arrayLoop
  have : arrayCell predict (hp :: rest) perAxis (draws 0) hp Ax.new = (Ax.new, .error .attribute) := by
    unfold arrayCell pdpOfDraws
    rw [hdr]
    rfl
  rw [this]

/-! the matrix -/

theorem grid_pairs {n : Nat} {grid : List (List ℝ)} (h : IsFullGrid 2 n grid) : ∃ pairs : List (ℝ × ℝ), grid = pairs.map (fun t => [t.1, t.2]) ∧
    pairs.Nodup ∧ ∀ a b, (a, b) ∈ pairs ↔ (∃ i < n, a = gridValue n i) ∧ ∃ j < n, b = gridValue n j := by
  obtain ⟨hn, hm⟩ := h
  have h2 : ∀ t ∈ grid, t.length = 2 := fun t ht => ((hm t).1 ht).1
  have hg : grid = (grid.map fun t => (t.getD 0 0, t.getD 1 0)).map fun t => [t.1, t.2] := by
    rw [List.map_map]
    conv_lhs => rw [← List.map_id grid]
    refine List.map_congr_left fun t ht => ?_
    obtain ⟨a, b, rfl⟩ := List.length_eq_two.1 (h2 t ht)
    rfl
  refine ⟨_, hg, ?_, fun a b => ?_⟩
  · rw [hg] at hn
    exact hn.of_map _
  · have : (a, b) ∈ (grid.map fun t => (t.getD 0 0, t.getD 1 0)) ↔ [a, b] ∈ grid := by
      conv_rhs => rw [hg]
      simp only [List.mem_map, Prod.mk.injEq, List.cons.injEq, and_true]
      constructor
      · rintro ⟨t, ht, h1, h2⟩
        exact ⟨_, ⟨t, ht, rfl⟩, h1, h2⟩
      · rintro ⟨_, ⟨t, ht, rfl⟩, h1, h2⟩
        exact ⟨t, ht, h1, h2⟩
    rw [this, hm]
    simp [gridValue]

theorem surface_of {l u : ℝ} {g : Bool} {l' u' : ℝ} {g' : Bool} {n : Nat} {h : ℝ → ℝ → ℝ} {grid : List (List ℝ)} (hg : IsFullGrid 2 n grid)
    {xs ys zs : List ℝ} (hx : xs.length = grid.length) (hy : ys.length = grid.length) (hz : zs.length = grid.length)
    (hat : ∀ (i : Nat) a b, grid[i]? = some [a, b] → xs[i]? = some (interpolate l u g a) ∧ ys[i]? = some (interpolate l' u' g' b) ∧
      zs[i]? = some (h a b)) : Surface l u g l' u' g' n h [.tri xs ys zs] := by
  obtain ⟨pairs, rfl, h1, h2⟩ := grid_pairs hg
  rw [List.length_map] at hx hy hz
  have key : ∀ {w : List ℝ} {k : ℝ × ℝ → ℝ}, w.length = pairs.length → (∀ (i : Nat) t, pairs[i]? = some t → w[i]? = some (k t)) → w = pairs.map k := by
    intro w k hw hk
    refine List.ext_getElem? fun i => ?_
    rw [List.getElem?_map]
    by_cases hi : i < pairs.length
    · rw [hk i _ (List.getElem?_eq_getElem hi), List.getElem?_eq_getElem hi]
      rfl
    · rw [List.getElem?_eq_none (by omega), List.getElem?_eq_none (by omega)]
      rfl
  have hat' : ∀ (i : Nat) t, pairs[i]? = some t → _ := fun i t ht => hat i t.1 t.2 (by rw [List.getElem?_map, ht]; rfl)
  refine ⟨pairs, h1, h2, ?_⟩
  rw [key hx fun i t ht => (hat' i t ht).1, key hy fun i t ht => (hat' i t ht).2.1, key hz fun i t ht => (hat' i t ht).2.2]

section matrix
variable {cs : ConfigSpace ℝ} (hwf : cs.WF) (hcs : AllDeclared cs) {predict : Predict ℝ} {mu sd : List ℝ → ℝ} (hp : RowWise cs.length predict mu sd)
  {perAxis : Nat} {draws : Draws (Config ℝ)} {samples : List (List ℝ)} (hdr : UnitDraws cs draws samples)
include hwf hcs hp hdr

/-- **C94** a cell of the diagonal -/
theorem matrixCell_diagonal (hP : perAxis ≠ 0) {h : Hp ℝ} {l u : ℝ} {g : Bool} (hk : h.kind = .float l u g ∨ h.kind = .integer l u g) {f : Nat}
    (hf : cs[f]? = some h) : ∃ axM axS shapes shapes', matrixCell predict cs perAxis draws h h = (axM, axS, .ok ()) ∧
      AxisOne h "Prediction" l u g axM ([.line "red" (naturalGrid l u g perAxis) (pdpMeans samples mu f perAxis)] ++ shapes) ∧
      AxisOne h "Prediction" l u g axS shapes' ∧
      ShowsConfidence "red" "lightsalmon" (3 / 2) (naturalGrid l u g perAxis) (pdpMeans samples mu f perAxis) (pdpStds samples sd f perAxis)
        shapes ∧
      ShowsConfidence "red" "lightsalmon" (3 / 2) (naturalGrid l u g perAxis) (pdpMeans samples mu f perAxis) (pdpStds samples sd f perAxis)
        shapes' := by
  have hc := plottable_drawn hwf hcs hp hP hdr (sel := [h]) (by simpa using List.mem_of_getElem? hf) (by simp) (by simp)
  obtain ⟨-, d, hd⟩ := own_gives hc
  obtain ⟨c, hcd⟩ : ∃ c : IceCfg ℝ, c = ⟨cs, [h], samples, samples.length, perAxis, perAxis ^ 1, false, predict⟩ := ⟨_, rfl⟩
  have hd : Gives (iceInit c) d := by subst hcd; exact hd
  have hice : pdpIce ⟨c, none, none, none, none⟩ = .ok (iceInit c) := by subst hcd; exact pdpIce_own rfl
  have hsame : SameCurve ⟨c, none, none, none, none⟩ ⟨c, some (iceInit c), none, none, none⟩ :=
    sameCurve_ice (s := ⟨c, none, none, none, none⟩) ⟨rfl, rfl, rfl⟩ hice hd hd
  have hboth : bothPlots ⟨c, none, none, none, none⟩ Ax.new = bothPlots ⟨c, some (iceInit c), none, none, none⟩ Ax.new := by
    unfold bothPlots pdpPlotValues
    rw [pdpCurve_with_ice (s := ⟨c, none, none, none, none⟩) ⟨rfl, rfl, rfl⟩ hice]
  have hinit : pdpInit cs predict (.many ([h].map .hp)) samples perAxis = .ok ⟨c, none, none, none, none⟩ := by subst hcd; exact pdpInit_drawn ..
  obtain ⟨t', axM, shapes, h1, ht', h2, h3⟩ := both_one hwf hcs hp hP hdr hk hf (by subst hcd; exact hsame)
  obtain ⟨t'', axS, shapes', h4, h5, h6⟩ := std_one hwf hcs hp hP hdr hk hf ht'
  rw [← hcd] at h1
  refine ⟨axM, axS, shapes, shapes', ?_, h2, h5, h3, h6⟩
  unfold matrixCell
  dsimp only
  rw [if_pos rfl, samplesOf_drawn hdr, Py.ok_bind, hinit]
  dsimp only
  rw [if_pos (by simp), hboth, h1]
  dsimp only
  rw [h4]

/-- **C94** a cell off the diagonal -/
theorem matrixCell_pair (hP : 2 ≤ perAxis) {p q : Hp ℝ} {l u : ℝ} {g : Bool} (hk : p.kind = .float l u g ∨ p.kind = .integer l u g) {l' u' : ℝ}
    {g' : Bool} (hk' : q.kind = .float l' u' g' ∨ q.kind = .integer l' u' g') {f f' : Nat} (hf : cs[f]? = some p) (hf' : cs[f']? = some q)
    (hne : f ≠ f') : ∃ axM axS surface surface', matrixCell predict cs perAxis draws q p = (axM, axS, .ok ()) ∧
      AxisTwo p q l u g l' u' g' axM surface ∧ AxisTwo p q l u g l' u' g' axS surface' ∧
      Surface l u g l' u' g' perAxis (meanAt samples mu f f') surface ∧ Surface l u g l' u' g' perAxis (stdAt samples sd f f') surface' := by
  have hnames : p.name ≠ q.name := by
    intro hn
    refine hne ?_
    have h1 : (cs.map Hp.name)[f]? = some p.name := by rw [List.getElem?_map, hf]; rfl
    have h2 : (cs.map Hp.name)[f']? = some p.name := by rw [List.getElem?_map, hf', hn]; rfl
    have hlt := (List.getElem?_eq_some_iff.1 h1).1
    exact (List.getElem?_inj hlt hwf).1 (h1.trans h2.symm)
  have hpq : p ≠ q := fun h => hnames (by rw [h])
  have hP0 : perAxis ≠ 0 := by omega
  have hc := plottable_drawn hwf hcs hp hP0 hdr (sel := [p, q]) (by
    simp only [List.mem_cons, List.not_mem_nil, or_false, forall_eq_or_imp, forall_eq]
    exact ⟨List.mem_of_getElem? hf, List.mem_of_getElem? hf'⟩) (by simpa using hnames) (by simp)
  obtain ⟨-, d, hd⟩ := own_gives hc
  obtain ⟨c, hcd⟩ : ∃ c : IceCfg ℝ, c = ⟨cs, [p, q], samples, samples.length, perAxis, perAxis ^ 2, false, predict⟩ := ⟨_, rfl⟩
  have hd : Gives (iceInit c) d := by subst hcd; exact hd
  have hice : pdpIce ⟨c, none, none, none, none⟩ = .ok (iceInit c) := by subst hcd; exact pdpIce_own rfl
  have hsame : SameCurve ⟨c, none, none, none, none⟩ ⟨c, some (iceInit c), none, none, none⟩ :=
    sameCurve_ice (s := ⟨c, none, none, none, none⟩) ⟨rfl, rfl, rfl⟩ hice hd hd
  have hval : pdpPlotValues "red" ⟨c, none, none, none, none⟩ Ax.new = pdpPlotValues "red" ⟨c, some (iceInit c), none, none, none⟩ Ax.new := by
    unfold pdpPlotValues
    rw [pdpCurve_with_ice (s := ⟨c, none, none, none, none⟩) ⟨rfl, rfl, rfl⟩ hice]
  have hinit : pdpInit cs predict (.many ([p, q].map .hp)) samples perAxis = .ok ⟨c, none, none, none, none⟩ := by subst hcd; exact pdpInit_drawn ..
  have hax := newAxis_two hk hk' "Prediction"
  obtain ⟨ax0, hax0⟩ : ∃ ax0 : Ax ℝ, ax0 = ⟨p.name, q.name, g, g', some (l, u), some (l', u'), []⟩ := ⟨_, rfl⟩
  rw [← hax0] at hax
  obtain ⟨s1, grid, xs, ys, zs, h1, h2, h3, h4, h5, h6⟩ := C83_pdp_two (s := ⟨c, none, none, none, none⟩) ⟨rfl, rfl, rfl⟩ rfl
    (by subst hcd; exact hc) (by subst hcd; rfl) (by subst hcd; exact hP) hk hk' (by subst hcd; exact ⟨p, hf, rfl⟩) (by subst hcd; exact ⟨q, hf', rfl⟩)
    hax "red"
  obtain ⟨s2, grid', xs', ys', zs', k1, k2, k3, k4, k5, k6⟩ := C84_pdp_two (s := ⟨c, none, none, none, none⟩) ⟨rfl, rfl, rfl⟩ rfl
    (by subst hcd; exact hc) (by subst hcd; rfl) (by subst hcd; exact hP) hk hk' (by subst hcd; exact ⟨p, hf, rfl⟩) (by subst hcd; exact ⟨q, hf', rfl⟩)
    hax "red" "lightsalmon" (3 / 2)
  obtain ⟨v1, v2⟩ := pdpPlotValues_same hsame "red" Ax.new
  obtain ⟨w1, w2⟩ := pdpPlotConfidences_same hsame.read "red" "lightsalmon" (3 / 2) Ax.new
  rw [h1] at v1
  rw [k1] at w1
  refine ⟨ax0.draw [.tri xs ys zs], ax0.draw [.tri xs' ys' zs'], [.tri xs ys zs], [.tri xs' ys' zs'], ?_, ?_, ?_, ?_, ?_⟩
  · unfold matrixCell
    dsimp only
    rw [if_neg hpq, samplesOf_drawn hdr, Py.ok_bind, hinit]
    dsimp only
    rw [if_neg (by simp), hval]
    generalize pdpPlotValues "red" ⟨c, some (iceInit c), none, none, none⟩ Ax.new = r at v1 v2 ⊢
    obtain ⟨t1, rest⟩ := r
    dsimp only at v1 v2
    subst v1 v2
    dsimp only
    generalize pdpPlotConfidences "red" "lightsalmon" (3 / 2) (pdpCurve ⟨c, some (iceInit c), none, none, none⟩).1 Ax.new = r at w1 w2 ⊢
    obtain ⟨t2, rest⟩ := r
    dsimp only at w1
    subst w1
    rfl
  · subst hax0; rfl
  · subst hax0; rfl
  · subst hcd
    exact surface_of h2 h3 h4 h5 h6
  · subst hcd
    refine surface_of k2 k3 k4 k5 fun i a b hi => ?_
    obtain ⟨m1, m2, t, m3, m4, m5⟩ := k6 i a b hi
    refine ⟨m1, m2, ?_⟩
    rw [m3]
    unfold stdAt
    rw [← m5, Real.sqrt_mul_self m4]

end matrix

theorem matrixRow_ok {cell : Hp ℝ → Ax ℝ × Ax ℝ × Py Unit} : ∀ hps : List (Hp ℝ), (∀ h ∈ hps, ∃ m s, cell h = (m, s, .ok ())) →
    ∃ ms ss, matrixRow cell hps = (ms, ss, .ok ()) ∧ ms.length = hps.length ∧ ss.length = hps.length ∧
      ∀ (i : Nat) h m s, hps[i]? = some h → cell h = (m, s, .ok ()) → ms[i]? = some m ∧ ss[i]? = some s := by
  intro hps
  induction hps with
  | nil => intro _; exact ⟨[], [], rfl, rfl, rfl, by simp⟩
  | cons h hps ih =>
    intro hc
    obtain ⟨m, s, e⟩ := hc h (by simp)
    obtain ⟨ms, ss, h1, h2, h3, h4⟩ := ih fun h' hm => hc h' (by simp [hm])
    refine ⟨m :: ms, s :: ss, ?_, by simp [h2], by simp [h3], fun i h' m' s' hi he => ?_⟩
    · unfold matrixRow
      rw [e]
      dsimp only
      rw [h1]
    · cases i with
      | zero =>
        obtain rfl := Option.some.inj hi
        rw [e] at he
        obtain ⟨rfl, he⟩ := Prod.ext_iff.1 he
        obtain ⟨rfl, -⟩ := Prod.ext_iff.1 he
        exact ⟨rfl, rfl⟩
      | succ i => exact h4 i h' m' s' hi he

theorem matrixRows_ok {n : Nat} {row : Hp ℝ → List (Ax ℝ) × List (Ax ℝ) × Py Unit} : ∀ hps : List (Hp ℝ),
    (∀ h ∈ hps, ∃ m s, row h = (m, s, .ok ())) →
    ∃ ms ss, matrixRows n row hps = (ms, ss, .ok ()) ∧ ms.length = hps.length ∧ ss.length = hps.length ∧
      ∀ (i : Nat) h m s, hps[i]? = some h → row h = (m, s, .ok ()) → ms[i]? = some m ∧ ss[i]? = some s := by
  intro hps
  induction hps with
  | nil => intro _; exact ⟨[], [], rfl, rfl, rfl, by simp⟩
  | cons h hps ih =>
    intro hc
    obtain ⟨m, s, e⟩ := hc h (by simp)
    obtain ⟨ms, ss, h1, h2, h3, h4⟩ := ih fun h' hm => hc h' (by simp [hm])
    refine ⟨m :: ms, s :: ss, ?_, by simp [h2], by simp [h3], fun i h' m' s' hi he => ?_⟩
    · unfold matrixRows
      rw [e]
      dsimp only
      rw [h1]
    · cases i with
      | zero =>
        obtain rfl := Option.some.inj hi
        rw [e] at he
        obtain ⟨rfl, he⟩ := Prod.ext_iff.1 he
        obtain ⟨rfl, -⟩ := Prod.ext_iff.1 he
        exact ⟨rfl, rfl⟩
      | succ i => exact h4 i h' m' s' hi he

/-- **C94** the matrix of partial dependence plots: two square figures, one row and one column per hyperparameter. On the diagonal the first
shows mean predictions and confidence, the second the confidence. In row `i` and column `j ≠ i` the first shows over hyperparameter `j`
(horizontal) and hyperparameter `i` (vertical) the mean predictions, the second the standard deviations. -/
theorem C94_matrix {cs : ConfigSpace ℝ} (hwf : cs.WF) (hcs : AllDeclared cs) (hne : cs ≠ []) {predict : Predict ℝ} {mu sd : List ℝ → ℝ}
    (hp : RowWise cs.length predict mu sd) {perAxis : Nat} (hP : 2 ≤ perAxis) {draws : Hp ℝ → Hp ℝ → Draws (Config ℝ)}
    {samples : Hp ℝ → Hp ℝ → List (List ℝ)} (hdr : ∀ q ∈ cs, ∀ p ∈ cs, UnitDraws cs (draws q p) (samples q p)) :
    ∃ M S, hyperparameterArray2D predict cs perAxis draws = (M, S, .ok ()) ∧ M.length = cs.length ∧ S.length = cs.length ∧
      ∀ (i : Nat) q l' u' g', cs[i]? = some q → (q.kind = .float l' u' g' ∨ q.kind = .integer l' u' g') →
        ∃ rowM rowS, M[i]? = some rowM ∧ S[i]? = some rowS ∧ rowM.length = cs.length ∧ rowS.length = cs.length ∧
          (∃ axM axS shapes shapes', rowM[i]? = some axM ∧ rowS[i]? = some axS ∧
            AxisOne q "Prediction" l' u' g' axM ([.line "red" (naturalGrid l' u' g' perAxis) (pdpMeans (samples q q) mu i perAxis)] ++ shapes) ∧
            AxisOne q "Prediction" l' u' g' axS shapes' ∧
            ShowsConfidence "red" "lightsalmon" (3 / 2) (naturalGrid l' u' g' perAxis) (pdpMeans (samples q q) mu i perAxis)
              (pdpStds (samples q q) sd i perAxis) shapes ∧
            ShowsConfidence "red" "lightsalmon" (3 / 2) (naturalGrid l' u' g' perAxis) (pdpMeans (samples q q) mu i perAxis)
              (pdpStds (samples q q) sd i perAxis) shapes') ∧
          ∀ (j : Nat) p l u g, j ≠ i → cs[j]? = some p → (p.kind = .float l u g ∨ p.kind = .integer l u g) →
            ∃ axM axS surface surface', rowM[j]? = some axM ∧ rowS[j]? = some axS ∧
              AxisTwo p q l u g l' u' g' axM surface ∧ AxisTwo p q l u g l' u' g' axS surface' ∧
              Surface l u g l' u' g' perAxis (meanAt (samples q p) mu j i) surface ∧
              Surface l u g l' u' g' perAxis (stdAt (samples q p) sd j i) surface' := by
  have hP0 : perAxis ≠ 0 := by omega
  have hdiag : ∀ (i : Nat) q l u g, cs[i]? = some q → (q.kind = .float l u g ∨ q.kind = .integer l u g) → _ := fun i q l u g hi hk =>
    matrixCell_diagonal hwf hcs hp (hdr q (List.mem_of_getElem? hi) q (List.mem_of_getElem? hi)) hP0 hk hi
  have hpair : ∀ (i j : Nat) q p l u g l' u' g', cs[i]? = some q → cs[j]? = some p → (p.kind = .float l u g ∨ p.kind = .integer l u g) →
      (q.kind = .float l' u' g' ∨ q.kind = .integer l' u' g') → j ≠ i → _ := fun i j q p l u g l' u' g' hi hj hk hk' hne =>
    matrixCell_pair hwf hcs hp (hdr q (List.mem_of_getElem? hi) p (List.mem_of_getElem? hj)) hP hk hk' hj hi hne
  have hcells : ∀ q ∈ cs, ∀ p ∈ cs, ∃ m s, matrixCell predict cs perAxis (draws q p) q p = (m, s, .ok ()) := by
    intro q hq p hp'
    obtain ⟨i, hi⟩ := List.mem_iff_getElem?.1 hq
    obtain ⟨j, hj⟩ := List.mem_iff_getElem?.1 hp'
    obtain ⟨l, u, g, -, hk⟩ := allDeclared_kind hcs hp'
    obtain ⟨l', u', g', -, hk'⟩ := allDeclared_kind hcs hq
    by_cases h : j = i
    · subst h
      rw [hi] at hj
      obtain rfl := Option.some.inj hj
      obtain ⟨m, s, -, -, h, -⟩ := hdiag j q l' u' g' hi hk'
      exact ⟨m, s, h⟩
    · obtain ⟨m, s, -, -, h, -⟩ := hpair i j q p l u g l' u' g' hi hj hk hk' h
      exact ⟨m, s, h⟩
  have hrows : ∀ q ∈ cs, _ := fun q hq => matrixRow_ok (cell := fun p => matrixCell predict cs perAxis (draws q p) q p) cs (hcells q hq)
  obtain ⟨M, S, h1, h2, h3, h4⟩ := matrixRows_ok (n := cs.length)
    (row := fun q => matrixRow (fun p => matrixCell predict cs perAxis (draws q p) q p) cs) cs fun q hq => by
      obtain ⟨ms, ss, h, -⟩ := hrows q hq
      exact ⟨ms, ss, h⟩
  refine ⟨M, S, ?_, h2, h3, fun i q l' u' g' hi hk' => ?_⟩
  · unfold hyperparameterArray2D
    rw [if_neg (by simpa using hne), h1]
  · obtain ⟨ms, ss, r1, r2, r3, r4⟩ := hrows q (List.mem_of_getElem? hi)
    obtain ⟨e1, e2⟩ := h4 i q ms ss hi r1
    refine ⟨ms, ss, e1, e2, r2, r3, ?_, fun j p l u g hji hj hk => ?_⟩
    · obtain ⟨axM, axS, shapes, shapes', c1, c2, c3, c4, c5⟩ := hdiag i q l' u' g' hi hk'
      obtain ⟨d1, d2⟩ := r4 i q axM axS hi c1
      exact ⟨axM, axS, shapes, shapes', d1, d2, c2, c3, c4, c5⟩
    · obtain ⟨axM, axS, shapes, shapes', c1, c2, c3, c4, c5⟩ := hpair i j q p l u g l' u' g' hi hj hk hk' hji
      obtain ⟨d1, d2⟩ := r4 j p axM axS hj c1
      exact ⟨axM, axS, shapes, shapes', d1, d2, c2, c3, c4, c5⟩

/-- **C94** no hyperparameters, no figure: ValueError. -/
theorem C94_matrix_none (predict : Predict ℝ) (perAxis : Nat) (draws : Hp ℝ → Hp ℝ → Draws (Config ℝ)) :
    hyperparameterArray2D predict [] perAxis draws = ([], [], .error .value) := rfl

/-- **C94** a single sample (`num_samples=1`): AttributeError in the first cell; all axes of both figures stay empty. -/
theorem C94_matrix_single {q : Hp ℝ} {rest : ConfigSpace ℝ} (predict : Predict ℝ) (perAxis : Nat) {draws : Hp ℝ → Hp ℝ → Draws (Config ℝ)}
    {c : Config ℝ} (hdr : draws q q = .one c) :
    ∃ M S, hyperparameterArray2D predict (q :: rest) perAxis draws = (M, S, .error .attribute) ∧
      M.length = rest.length + 1 ∧ S.length = rest.length + 1 ∧
      ∀ row ∈ M ++ S, row.length = rest.length + 1 ∧ ∀ ax ∈ row, ax = Ax.new := by
  have hcell : matrixCell predict (q :: rest) perAxis (draws q q) q q = (Ax.new, Ax.new, .error .attribute) := by
    unfold matrixCell
    rw [hdr]
    rfl
  have hrow : matrixRow (fun hp1 => matrixCell predict (q :: rest) perAxis (draws q hp1) q hp1) (q :: rest) =
      (Ax.new :: rest.map (fun _ => Ax.new), Ax.new :: rest.map (fun _ => Ax.new), .error .attribute) := by
    unfold matrixRow
    rw [hcell]
  refine ⟨(Ax.new :: rest.map fun _ => Ax.new) :: rest.map fun _ => List.replicate (rest.length + 1) Ax.new,
    (Ax.new :: rest.map fun _ => Ax.new) :: rest.map fun _ => List.replicate (rest.length + 1) Ax.new, ?_, ?_, ?_, ?_⟩
  · unfold hyperparameterArray2D
    rw [if_neg (by simp)]
    unfold matrixRows
    rw [hrow]
    rfl
  · simp
  · simp
  · intro row hr
    simp only [List.mem_append, List.mem_cons, List.mem_map] at hr
    rcases hr with (rfl | ⟨_, -, rfl⟩) | (rfl | ⟨_, -, rfl⟩) <;> simp (config := { contextual := true })

/-! ### C95 -/

theorem naturalAt_unique {cs : ConfigSpace ℝ} (hwf : cs.WF) {hp : Hp ℝ} {row : List ℝ} {v w : ℝ} (h : NaturalAt cs hp row v)
    (h' : NaturalAt cs hp row w) : v = w := by
  obtain ⟨f, l, u, g, e, ⟨a, ha, hn⟩, hk, he, rfl⟩ := h
  obtain ⟨f', l', u', g', e', ⟨a', ha', hn'⟩, hk', he', rfl⟩ := h'
  have h1 : (cs.map Hp.name)[f]? = some hp.name := by rw [List.getElem?_map, ha, ← hn]; rfl
  have h2 : (cs.map Hp.name)[f']? = some hp.name := by rw [List.getElem?_map, ha', ← hn']; rfl
  obtain rfl := (List.getElem?_inj (List.getElem?_eq_some_iff.1 h1).1 hwf).1 (h1.trans h2.symm)
  rw [he] at he'
  obtain rfl := Option.some.inj he'
  rcases hk with hk | hk <;> rcases hk' with hk' | hk' <;> rw [hk] at hk' <;> cases hk' <;> rfl

theorem naturals_unique {cs : ConfigSpace ℝ} (hwf : cs.WF) {hp : Hp ℝ} {x : List (List ℝ)} {xs ys : List ℝ}
    (h : List.Forall₂ (NaturalAt cs hp) x xs) (h' : List.Forall₂ (NaturalAt cs hp) x ys) : xs = ys := by
  induction h generalizing ys with
  | nil => cases h'; rfl
  | cons a _ ih =>
    cases h' with
    | cons a' h' => rw [naturalAt_unique hwf a a', ih h']

theorem naturals_at {cs : ConfigSpace ℝ} (hwf : cs.WF) {hp : Hp ℝ} {x : List (List ℝ)} {xs : List ℝ}
    (h : List.Forall₂ (NaturalAt cs hp) x xs) {i : Nat} {row : List ℝ} (hi : x[i]? = some row) {v : ℝ} (hv : NaturalAt cs hp row v) :
    xs[i]? = some v := by
  obtain ⟨hlt, e⟩ := List.getElem?_eq_some_iff.1 hi
  have hlt' : i < xs.length := by rw [← h.length_eq]; exact hlt
  have := (List.forall₂_iff_get.1 h).2 i hlt hlt'
  rw [List.getElem?_eq_getElem hlt']
  refine congrArg some (naturalAt_unique hwf ?_ hv)
  rw [← e]
  exact this

theorem firstBest_unique {ys : List ℝ} {i j : Nat} {v w : ℝ} (h : FirstBest (· < ·) ys i v) (h' : FirstBest (· < ·) ys j w) : i = j := by
  rcases lt_trichotomy i j with hij | hij | hij
  · exact absurd (h'.2.2 i hij v h.1) (h.2.1 w (List.mem_of_getElem? h'.1))
  · exact hij
  · exact absurd (h.2.2 j hij w h'.1) (h'.2.1 v (List.mem_of_getElem? h.1))

theorem validCurve_wf {c : IceCurve ℝ} (hc : ValidCurve c) {hp : Hp ℝ} (hm : hp ∈ c.selected) : c.space.WF := by
  obtain ⟨l, u, g, h⟩ := hc.declared hp (hc.selected hp hm)
  exact h.1

/-- **C95** a curve over two hyperparameters: on the first axis its values, on the second the square roots of its variances, over the same
points in natural units; on both a white point at the first grid point with the smallest value. -/
theorem C95_two {c : IceCurve ℝ} (hc : ValidCurve c) (hv : ∀ v ∈ c.v, 0 ≤ v) {p q : Hp ℝ} (hsel : c.selected = [p, q]) (hn : 3 ≤ c.x.length)
    {l u : ℝ} {g : Bool} (hk : p.kind = .float l u g ∨ p.kind = .integer l u g) {l' u' : ℝ} {g' : Bool}
    (hk' : q.kind = .float l' u' g' ∨ q.kind = .integer l' u' g') :
    ∃ axM axS xs ys s i m x y, curveWithConfidence c = (axM, axS, .ok ()) ∧
      AxisTwo p q l u g l' u' g' axM [.tri xs ys c.y, .points "white" [x] [y]] ∧
      AxisTwo p q l u g l' u' g' axS [.tri xs ys s, .points "white" [x] [y]] ∧
      List.Forall₂ (NaturalAt c.space p) c.x xs ∧ List.Forall₂ (NaturalAt c.space q) c.x ys ∧ StdsOf c.v s ∧
      FirstBest (· < ·) c.y i m ∧ xs[i]? = some x ∧ ys[i]? = some y := by
  have hwf := validCurve_wf hc (hp := p) (by simp [hsel])
  have hne : c.x ≠ [] := by intro h; simp [h] at hn
  have hax := newAxis_two hk hk' "Prediction"
  obtain ⟨ax0, hax0⟩ : ∃ ax0 : Ax ℝ, ax0 = ⟨p.name, q.name, g, g', some (l, u), some (l', u'), []⟩ := ⟨_, rfl⟩
  rw [← hax0] at hax
  obtain ⟨xs, ys, h1, h2, h3⟩ := C83_two hc hsel hn hax "red"
  obtain ⟨xs', ys', s, k1, k2, k3, k4⟩ := C84_two hc hv hsel hn hax "red" "xkcd:light red" (3 / 2)
  obtain rfl := naturals_unique hwf h1 k1
  obtain rfl := naturals_unique hwf h2 k2
  obtain ⟨i, m, row, x, y, m1, m2, m3, m4, m5⟩ := C74_two hc hne hsel (axis_again hax [.tri xs ys c.y]) "white"
  obtain ⟨i', m', row', x', y', n1, n2, n3, n4, n5⟩ := C74_two hc hne hsel (axis_again hax [.tri xs ys s]) "white"
  obtain rfl := firstBest_unique m1 n1
  rw [m2] at n2
  obtain rfl := Option.some.inj n2
  obtain rfl := naturalAt_unique hwf m3 n3
  obtain rfl := naturalAt_unique hwf m4 n4
  refine ⟨(ax0.draw [.tri xs ys c.y]).draw [.points "white" [x] [y]], (ax0.draw [.tri xs ys s]).draw [.points "white" [x] [y]], xs, ys, s, i, m, x, y,
    ?_, ?_, ?_, h1, h2, k3, m1, naturals_at hwf h1 m2 m3, naturals_at hwf h2 m2 m4⟩
  · unfold curveWithConfidence
    rw [Plot.bind_ok h3, m5]
    dsimp only
    rw [Plot.bind_ok k4, n5]
  · subst hax0; rfl
  · subst hax0; rfl

/-- **C95** a curve over one hyperparameter: on the first axis the line of its values, on the second the confidence around them; on both a
white vertical line at the first grid point with the smallest value. -/
theorem C95_one {c : IceCurve ℝ} (hc : ValidCurve c) (hv : ∀ v ∈ c.v, 0 ≤ v) {hp : Hp ℝ} (hsel : c.selected = [hp]) (hne : c.x ≠ [])
    {l u : ℝ} {g : Bool} (hk : hp.kind = .float l u g ∨ hp.kind = .integer l u g) :
    ∃ axM axS xs s shapes i m x, curveWithConfidence c = (axM, axS, .ok ()) ∧
      AxisOne hp "Prediction" l u g axM [.line "red" xs c.y, .vline "white" x] ∧
      AxisOne hp "Prediction" l u g axS (shapes ++ [.vline "white" x]) ∧
      List.Forall₂ (NaturalAt c.space hp) c.x xs ∧ StdsOf c.v s ∧ ShowsConfidence "red" "xkcd:light red" (3 / 2) xs c.y s shapes ∧
      FirstBest (· < ·) c.y i m ∧ xs[i]? = some x := by
  have hwf := validCurve_wf hc (hp := hp) (by simp [hsel])
  have hax := newAxis_one hk "Prediction"
  obtain ⟨ax0, hax0⟩ : ∃ ax0 : Ax ℝ, ax0 = ⟨hp.name, "Prediction", g, false, some (l, u), none, []⟩ := ⟨_, rfl⟩
  rw [← hax0] at hax
  obtain ⟨xs, h1, h3⟩ := C83_one hc hsel hax "red"
  obtain ⟨xs', s, shapes, k1, k3, k4, k5⟩ := C84_one hc hv hsel hax "red" "xkcd:light red" (maxSigma := 3 / 2) (by norm_num)
  obtain rfl := naturals_unique hwf h1 k1
  obtain ⟨i, m, row, x, m1, m2, m3, m5⟩ := C74_one hc hne hsel (axis_again hax [.line "red" xs c.y]) "white"
  obtain ⟨i', m', row', x', n1, n2, n3, n5⟩ := C74_one hc hne hsel (axis_again hax shapes) "white"
  obtain rfl := firstBest_unique m1 n1
  rw [m2] at n2
  obtain rfl := Option.some.inj n2
  obtain rfl := naturalAt_unique hwf m3 n3
  refine ⟨(ax0.draw [.line "red" xs c.y]).draw [.vline "white" x], (ax0.draw shapes).draw [.vline "white" x], xs, s, shapes, i, m, x,
    ?_, ?_, ?_, h1, k3, k5, m1, naturals_at hwf h1 m2 m3⟩
  · unfold curveWithConfidence
    rw [Plot.bind_ok h3, m5]
    dsimp only
    rw [Plot.bind_ok k4, n5]
  · subst hax0; rfl
  · subst hax0; simp [AxisOne, Ax.draw]

/-- **C95** any other number of hyperparameters: NotImplementedError, both axes stay empty. -/
theorem C95_other {c : IceCurve ℝ} (hc : ValidCurve c) (hsel : ¬ OneOrTwo c.selected) :
    curveWithConfidence c = (Ax.new, Ax.new, .error .notImplemented) := by
  unfold curveWithConfidence
  rw [Plot.bind_error (C83_other hc hsel "red" Ax.new)]

/-! ### a concrete surrogate: the sum of the normalised coordinates, with standard deviation 2 -/

section examples

def exSumSpace : ConfigSpace ℝ := [⟨"x1", .float (-5) 5 false⟩, ⟨"x2", .integer 1 100 true⟩]

noncomputable def exSum : Predict ℝ := fun X => .ok (X.map fun r => r.sum, X.map fun _ => (2 : ℝ))

/-- two samples -/
noncomputable def exSumDraws : Draws (Config ℝ) := .many [⟨[0, 1 / 2], []⟩, ⟨[1, 1], []⟩]

/-- the hypotheses of the theorems hold -/
theorem exSum_ok : exSumSpace.WF ∧ AllDeclared exSumSpace ∧ exSumSpace ≠ [] ∧ RowWise exSumSpace.length exSum (fun r => r.sum) (fun _ => 2) ∧
    UnitDraws exSumSpace exSumDraws [[0, 1 / 2], [1, 1]] := by
  have hwf : exSumSpace.WF := by simp [exSumSpace, ConfigSpace.WF]
  refine ⟨hwf, ?_, by simp [exSumSpace], fun X _ _ => rfl, _, rfl, rfl, by simp, ?_⟩
  · intro hp hm
    simp only [exSumSpace, List.mem_cons, List.not_mem_nil, or_false] at hm
    rcases hm with rfl | rfl
    · exact ⟨-5, 5, false, hwf, ⟨_, by simp [exSumSpace], rfl, Or.inl rfl⟩, by norm_num, by simp⟩
    · exact ⟨1, 100, true, hwf, ⟨⟨"x2", .integer 1 100 true⟩, by simp [exSumSpace], rfl, Or.inr rfl⟩, by norm_num, by norm_num⟩
  · intro r hr
    simp only [List.mem_cons, List.not_mem_nil, or_false] at hr
    rcases hr with rfl | rfl <;> (simp [exSumSpace]; try norm_num)

theorem exMeans : naturalGrid (-5) 5 false 3 = [-5, 0, 5] ∧ pdpMeans [[0, 1 / 2], [1, 1]] (fun r => r.sum) 0 3 = [3 / 4, 5 / 4, 7 / 4] ∧
    pdpStds [[0, 1 / 2], [1, 1]] (fun _ => 2) 0 3 = [2, 2, 2] := by
  have h4 : Real.sqrt 4 = 2 := by rw [show (4 : ℝ) = 2 * 2 by norm_num, Real.sqrt_mul_self (by norm_num)]
  refine ⟨?_, ?_, ?_⟩
  · simp [naturalGrid, List.range_succ, gridValue, interpolate]
    norm_num
  · simp [pdpMeans, List.range_succ, gridValue, meanOver]
    norm_num
  · simp [pdpStds, List.range_succ, meanOver, show (2 : ℝ) ^ 2 = 4 by norm_num]
    norm_num [h4]

/-- the full plot of a PDP of `x1`: the curves of the two samples, their mean, the confidence -/
example : ∃ s' ax shapes, fullPdp ⟨⟨exSumSpace, [⟨"x1", .float (-5) 5 false⟩], [[0, 1 / 2], [1, 1]], 2, 3, 3, false, exSum⟩, none, none, none, none⟩ =
      (s', ax, .ok ()) ∧ ax.shapes = [.line "red" [-5, 0, 5] [1 / 2, 1, 3 / 2], .line "red" [-5, 0, 5] [1, 3 / 2, 2], .line "red" [] [],
        .line "black" [-5, 0, 5] [3 / 4, 5 / 4, 7 / 4]] ++ shapes ∧
      ShowsConfidence "black" "blue" (3 / 2) [-5, 0, 5] [3 / 4, 5 / 4, 7 / 4] [2, 2, 2] shapes := by
  obtain ⟨hwf, hcs, hne, hp, hd⟩ := exSum_ok
  obtain ⟨s', ax, shapes, h1, h2, h3⟩ := C93_one
    (s := ⟨⟨exSumSpace, [⟨"x1", .float (-5) 5 false⟩], [[0, 1 / 2], [1, 1]], 2, 3, 3, false, exSum⟩, none, none, none, none⟩)
    ⟨rfl, rfl, rfl⟩ rfl (mu := fun r => r.sum) (sd := fun _ => 2)
    (plottable_drawn hwf hcs hp (perAxis := 3) (by norm_num) hd (sel := [⟨"x1", .float (-5) 5 false⟩]) (by simp [exSumSpace]) (by simp) (by simp))
    rfl (Or.inl rfl) (f := 0) ⟨_, rfl, rfl⟩
  dsimp only at h2 h3
  rw [exMeans.1, exMeans.2.1] at h2 h3
  rw [exMeans.2.2] at h3
  refine ⟨s', ax, shapes, h1, ?_, h3⟩
  rw [h2]
  have a : iceValues (fun r => r.sum) 0 3 [0, 1 / 2] = [1 / 2, 1, 3 / 2] := by
    simp [iceValues, List.range_succ, gridValue]
    norm_num
  have b : iceValues (fun r => r.sum) 0 3 [1, 1] = [1, 3 / 2, 2] := by
    simp [iceValues, List.range_succ, gridValue]
    norm_num
  simp only [List.map_cons, List.map_nil, a, b]
  rfl

/-- the array over this surrogate: on the first axis the means 3/4, 5/4, 7/4 over -5, 0, 5 -/
example : ∃ axs shapes, hyperparameterArray1D exSum exSumSpace 3 (fun _ => exSumDraws) = (axs, .ok ()) ∧ axs.length = 2 ∧
    axs[0]? = some ⟨"x1", "Prediction", false, false, some (-5, 5), none, [.line "red" [-5, 0, 5] [3 / 4, 5 / 4, 7 / 4]] ++ shapes⟩ ∧
    ShowsConfidence "red" "lightsalmon" (3 / 2) [-5, 0, 5] [3 / 4, 5 / 4, 7 / 4] [2, 2, 2] shapes := by
  obtain ⟨hwf, hcs, hne, hp, hd⟩ := exSum_ok
  obtain ⟨w, h, axs, h1, h2, h3, h4, h5, -⟩ := C94_array hwf hcs hne hp (perAxis := 3) (by norm_num) (draws := fun _ => exSumDraws) fun _ _ => hd
  obtain ⟨ax, shapes, e1, e2, e3⟩ := h5 0 ⟨"x1", .float (-5) 5 false⟩ (-5) 5 false rfl (Or.inl rfl)
  rw [exMeans.1, exMeans.2.1] at e2 e3
  rw [exMeans.2.2] at e3
  refine ⟨axs, shapes, h2, ?_, by rw [e1, e2], e3⟩
  obtain ⟨w', h', k1, k2, k3, k4, k5, k6⟩ := C70_shape (n := 2) (by norm_num)
  rw [show ((exSumSpace.length : Nat) : Int) = 2 from rfl, k1] at h1
  obtain ⟨rfl, rfl⟩ := Prod.mk.inj (Except.ok.inj h1)
  rw [h3]
  have hw : w' = 2 := by
    refine le_antisymm (k2.2 ?_) ?_
    · show Real.sqrt ((2 : Int) : ℝ) ≤ (2 : Nat)
      rw [Real.sqrt_le_left (by norm_num)]
      norm_num
    · by_contra hlt
      have : w' ≤ 1 := by omega
      have h5 : (w' : Int) * h' ≤ 1 * 1 := by
        have a : (w' : Int) ≤ 1 := by omega
        have b : (h' : Int) ≤ 1 := by omega
        nlinarith
      omega
  subst hw
  omega

/-- the matrix over it has two rows of two axes in both figures -/
example : ∃ M S, hyperparameterArray2D exSum exSumSpace 3 (fun _ _ => exSumDraws) = (M, S, .ok ()) ∧ M.length = 2 ∧ S.length = 2 := by
  obtain ⟨hwf, hcs, hne, hp, hd⟩ := exSum_ok
  obtain ⟨M, S, h1, h2, h3, -⟩ := C94_matrix hwf hcs hne hp (perAxis := 3) (by norm_num) (draws := fun _ _ => exSumDraws) fun _ _ _ _ => hd
  exact ⟨M, S, h1, h2, h3⟩

end examples

end PyPDP
