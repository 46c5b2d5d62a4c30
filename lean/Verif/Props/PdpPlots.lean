/-
C83, C84 for PDPs and regions: what their plots show in terms of the surrogate.
-/
import Verif.Props.CurvePlots
import Verif.Props.RegionPdp

namespace PyPDP
open Spec

theorem sum_div_unit {col : List ℝ} (h : ∀ e ∈ col, 0 ≤ e ∧ e ≤ 1) : 0 ≤ col.sum / (col.length : ℝ) ∧ col.sum / (col.length : ℝ) ≤ 1 := by
  by_cases hne : col = []
  · subst hne; simp
  · obtain ⟨lo, hlo, hi, hhi, h1, h2⟩ := avg_bounds hne
    exact ⟨(h lo hlo).1.trans h1, h2.trans (h hi hhi).2⟩

/-- the average of curves that fit their space fits the space -/
theorem validCurve_average {cs : ConfigSpace ℝ} {sel : List (Hp ℝ)} (hcs : AllDeclared cs) (hsel : ∀ hp ∈ sel, hp ∈ cs) {P : Nat}
    {X : List (List (List ℝ))} (hX : ∀ m ∈ X, ∀ r ∈ m, ∀ e ∈ r, 0 ≤ e ∧ e ≤ 1) {Y V : List (List ℝ)} {x : List (List ℝ)} {y v : List ℝ}
    (hx : IsAverage3 P cs.length X x) (hy : IsAverage P Y y) (hv : IsAverage P V v) : ValidCurve ⟨cs, sel, x, y, v⟩ := by
  refine ⟨hcs, fun r hr => ⟨hx.1.2 r hr, fun e he => ?_⟩, by rw [hy.1, hx.1.1], by rw [hv.1, hx.1.1], hsel⟩
  obtain ⟨p, hp, rfl⟩ := List.getElem_of_mem hr
  obtain ⟨f, hf, rfl⟩ := List.getElem_of_mem he
  have hfF : f < cs.length := by rw [← hx.1.2 _ (List.getElem_mem hp)]; exact hf
  obtain ⟨col, hc1, hc2, hc3⟩ := hx.2 p (by rw [← hx.1.1]; exact hp) f hfF
  have he : x[p][f] = col.sum / (X.length : ℝ) := by
    have : at2 x p f = some x[p][f] := by simp [at2, List.getElem?_eq_getElem hp, List.getElem?_eq_getElem hf]
    rw [hc3] at this
    exact (Option.some.inj this).symm
  rw [he, ← hc1]
  refine sum_div_unit fun e he => ?_
  obtain ⟨s, hs, rfl⟩ := List.getElem_of_mem he
  have h3 := hc2 s (by rw [← hc1]; exact hs)
  rw [List.getElem?_eq_getElem hs] at h3
  unfold at3 at h3
  obtain ⟨r, hr, h4⟩ := Option.bind_eq_some_iff.1 h3.symm
  obtain ⟨m, hm, h5⟩ := Option.bind_eq_some_iff.1 hr
  exact hX m (List.mem_of_getElem? hm) r (List.mem_of_getElem? h5) _ (List.mem_of_getElem? h4)

theorem mem_assignRow {idx : List Nat} {t r : List ℝ} {e : ℝ} (h : e ∈ assignRow idx t r) : e ∈ t ∨ e ∈ r := by
  unfold assignRow at h
  have key : ∀ (l : List (Nat × ℝ)) (r : List ℝ), e ∈ l.foldl (fun r p => r.set p.1 p.2) r → e ∈ l.map (·.2) ∨ e ∈ r := by
    intro l
    induction l with
    | nil => intro r h; exact Or.inr h
    | cons a l ih =>
      intro r h
      rcases ih _ h with h | h
      · exact Or.inl (by simp [List.mem_map.1 h])
      · rcases List.mem_or_eq_of_mem_set h with h | h
        · exact Or.inr h
        · exact Or.inl (by simp [h])
  rcases key _ _ h with h | h
  · left
    obtain ⟨⟨i, a⟩, hp, rfl⟩ := List.mem_map.1 h
    exact (List.of_mem_zip hp).2
  · exact Or.inr h

theorem gridValue_unit {n i : Nat} (hi : i < n) : 0 ≤ gridValue n i ∧ gridValue n i ≤ 1 := by
  unfold gridValue
  split
  · simp
  · rename_i h
    have h1 : (1 : ℝ) < n := by exact_mod_cast (by omega : 1 < n)
    have h2 : (i : ℝ) + 1 ≤ n := by exact_mod_cast hi
    exact ⟨div_nonneg (Nat.cast_nonneg _) (by linarith), (div_le_one (by linarith)).2 (by linarith)⟩

theorem linspace_gridValue {n i : Nat} (hi : i < n) : (linspace (0 : ℝ) 1 n)[i]? = some (gridValue n i) := by
  unfold gridValue
  split
  · rename_i h
    subst h
    have : i = 0 := by omega
    subst this
    simp [linspace_one]
  · rw [linspace_getElem? 0 1 hi (by omega)]
    congr 1
    ring

theorem gridPoints_one (n : Nat) : gridPoints (K := ℝ) 1 n = .ok ((linspace 0 1 n).map fun t => [t]) := by
  unfold gridPoints
  rw [if_neg one_ne_zero]
  congr 1
  simp only [tuples, List.map_cons, List.map_nil]
  induction linspace (0 : ℝ) 1 n with
  | nil => rfl
  | cons a as ih => simpa [swap01] using ih

theorem column_meanOver {samples : List (List ℝ)} {grid : List (List ℝ)} {idx : List Nat} {h : List ℝ → ℝ} {p : Nat} {t : List ℝ}
    (ht : grid[p]? = some t) {col : List ℝ} (hcol : IsColumn ((iceX idx samples grid).map (·.map h)) p col) :
    col.sum / (((iceX idx samples grid).map (·.map h)).length : ℝ) = meanOver samples fun r => h (assignRow idx t r) := by
  have : col = samples.map fun r => h (assignRow idx t r) := by
    have hl : ((iceX idx samples grid).map (·.map h)).length = samples.length := by simp [iceX]
    refine List.ext_getElem? fun s => ?_
    by_cases hs : s < samples.length
    · rw [hcol.2 s (by rw [hl]; exact hs)]
      simp [at2, iceX, List.getElem?_eq_getElem hs, ht]
    · rw [List.getElem?_eq_none (by rw [hcol.1, hl]; omega), List.getElem?_eq_none (by simpa using hs)]
  rw [this, meanOver]
  simp [iceX]

/-- the curve of a new PDP in terms of the surrogate -/
theorem pdp_core {s : PdpState ℝ} (hs : PdpFresh s) (hi : s.ice = none) {mu sd : List ℝ → ℝ} (hc : Plottable s.cfg mu sd) :
    ∃ idx grid x y v, getSelectedIdx s.cfg.selected s.cfg.space = .ok idx ∧ gridPoints s.cfg.selected.length s.cfg.perAxis = .ok grid ∧
      IsFullGrid s.cfg.selected.length s.cfg.perAxis grid ∧
      (pdpCurve s).2 = .ok ⟨s.cfg.space, s.cfg.selected, x, y, v⟩ ∧ ValidCurve ⟨s.cfg.space, s.cfg.selected, x, y, v⟩ ∧ (∀ t ∈ v, 0 ≤ t) ∧
      x.length = grid.length ∧ ∀ (p : Nat) t, grid[p]? = some t →
        (∀ (j : Nat) hp f, s.cfg.selected[j]? = some hp → IsFeature s.cfg.space hp f → at2 x p f = t[j]?) ∧
        y[p]? = some (meanOver s.cfg.samples fun r => mu (assignRow idx t r)) ∧
        v[p]? = some (meanOver s.cfg.samples fun r => sd (assignRow idx t r) ^ 2) := by
  obtain ⟨grid, hgr, hgl, hfull⟩ := C40_grid (K := ℝ) (List.length_pos_iff.2 hc.valid.sel_ne) s.cfg.perAxis
  obtain ⟨idx, hidx, -⟩ := hc.valid.idx
  obtain ⟨c, hcdef⟩ : ∃ c : IceCfg ℝ, c = ⟨s.cfg.space, s.cfg.selected, s.cfg.samples, s.cfg.samples.length, s.cfg.perAxis,
    s.cfg.perAxis ^ s.cfg.selected.length, false, s.cfg.predict⟩ := ⟨_, rfl⟩
  have hcv : ValidCfg c := by
    subst hcdef
    exact ⟨hc.valid.wf, hc.valid.sel_mem, hc.valid.sel_distinct, hc.valid.sel_ne, hc.valid.rows, rfl, rfl⟩
  have hgc : grid.length = c.numGrid := by subst hcdef; exact hgl
  have hPc : c.numGrid ≠ 0 := by rw [← hgc, hgl]; exact pow_ne_zero _ hc.points
  have hcalc := iceCalc_ok hcv (mu := mu) (sd := sd) (by subst hcdef; exact hc.predict) (by subst hcdef; exact hc.samples) hgc hPc (idx := idx)
    (by subst hcdef; exact hidx)
  have hcalc : iceCalc c grid = .ok ⟨iceX idx s.cfg.samples grid, (iceX idx s.cfg.samples grid).map (·.map mu),
      (iceX idx s.cfg.samples grid).map (·.map fun r => sd r ^ 2)⟩ := by
    subst hcdef
    rw [hcalc]
    rfl
  have hgives : Gives (iceInit c) ⟨iceX idx s.cfg.samples grid, (iceX idx s.cfg.samples grid).map (·.map mu),
      (iceX idx s.cfg.samples grid).map (·.map fun r => sd r ^ 2)⟩ :=
    Or.inr ⟨fresh_init c, by rw [calcNow_init c (g := grid) (by subst hcdef; exact hgr), hcalc]⟩
  have hsh := iceX_shape (grid := grid) idx hc.valid.rows
  have hn : s.cfg.samples.length ≠ 0 := (List.length_pos_iff.2 hc.samples).ne'
  have sh2 : ∀ g : List ℝ → ℝ, Shape2 s.cfg.samples.length grid.length ((iceX idx s.cfg.samples grid).map (·.map g)) := by
    intro g
    refine ⟨by simp [iceX], fun r hr => ?_⟩
    obtain ⟨m, hm, rfl⟩ := List.mem_map.1 hr
    rw [List.length_map, (hsh.2 m hm).1]
  obtain ⟨x, hx, ax⟩ := meanAxis0_spec hn hsh
  obtain ⟨y, hy, ay⟩ := meanRows_spec hn (sh2 mu)
  obtain ⟨v, hv, av⟩ := meanRows_spec hn (sh2 fun r => sd r ^ 2)
  have hgu : ∀ t ∈ grid, t.length = s.cfg.selected.length ∧ ∀ e ∈ t, 0 ≤ e ∧ e ≤ 1 := by
    intro t ht
    obtain ⟨h1, h2⟩ := (hfull.2 t).1 ht
    refine ⟨h1, fun e he => ?_⟩
    obtain ⟨i, hi, rfl⟩ := h2 e he
    exact gridValue_unit hi
  have hat : ∀ (p : Nat) t, grid[p]? = some t → v[p]? = some (meanOver s.cfg.samples fun r => sd (assignRow idx t r) ^ 2) := by
    intro p t ht
    obtain ⟨col, hcol, hm⟩ := av.2 p (List.getElem?_eq_some_iff.1 ht).1
    rw [hm, column_meanOver (h := fun r => sd r ^ 2) ht hcol]
  refine ⟨idx, grid, x, y, v, hidx, hgr, hfull, pdpCurve_eq hs (by rw [pdpIce_own hi, hcdef]) hgives hx hy hv, ?_, ?_, by rw [ax.1.1], ?_⟩
  · refine validCurve_average hc.declared hc.valid.sel_mem ?_ ax ay av
    intro m hm r hr e he
    obtain ⟨q, hq, rfl⟩ := List.mem_map.1 hm
    obtain ⟨t, ht, rfl⟩ := List.mem_map.1 hr
    rcases mem_assignRow he with h | h
    · exact (hgu t ht).2 e h
    · exact hc.unit q hq e h
  · intro t ht
    obtain ⟨p, hp, rfl⟩ := List.getElem_of_mem ht
    have hpg : p < grid.length := by rw [← av.1]; exact hp
    have := hat p _ (List.getElem?_eq_getElem hpg)
    rw [List.getElem?_eq_getElem hp] at this
    rw [Option.some.inj this]
    refine div_nonneg (List.sum_nonneg fun w hw => ?_) (Nat.cast_nonneg _)
    obtain ⟨r, -, rfl⟩ := List.mem_map.1 hw
    exact sq_nonneg _
  · intro p t ht
    refine ⟨?_, ?_, hat p t ht⟩
    · have := (C45_x_pdp hcv (by subst hcdef; exact hc.samples) hgc (by subst hcdef; exact fun t ht => (hgu t ht).1) hcalc (x := x)
        (by rw [← hgc]; subst hcdef; exact ax) ht).1
      subst hcdef
      exact this
    · obtain ⟨col, hcol, hm⟩ := ay.2 p (List.getElem?_eq_some_iff.1 ht).1
      rw [hm, column_meanOver ht hcol]

theorem pdpPlotValues_eq {s : PdpState ℝ} {c : IceCurve ℝ} (h : (pdpCurve s).2 = .ok c) (color : String) (ax : Ax ℝ) :
    pdpPlotValues color s ax = ((pdpCurve s).1, curveValues color c ax) := by
  unfold pdpPlotValues
  rcases hp : pdpCurve s with ⟨s', r⟩
  rw [hp] at h
  dsimp only at h
  subst h
  rfl

theorem pdpPlotConfidences_eq {s : PdpState ℝ} {c : IceCurve ℝ} (h : (pdpCurve s).2 = .ok c) (lc gc : String) (ms : ℝ) (ax : Ax ℝ) :
    pdpPlotConfidences lc gc ms s ax = ((pdpCurve s).1, curveConfidences lc gc ms c ax) := by
  unfold pdpPlotConfidences
  rcases hp : pdpCurve s with ⟨s', r⟩
  rw [hp] at h
  dsimp only at h
  subst h
  rfl

theorem natural_eq {cs : ConfigSpace ℝ} {hp : Hp ℝ} {l u : ℝ} {g : Bool} (hk : hp.kind = .float l u g ∨ hp.kind = .integer l u g)
    {x : List (List ℝ)} {p : Nat} {a : ℝ} (ha : ∀ f, IsFeature cs hp f → at2 x p f = some a) {xs : List ℝ}
    (h : List.Forall₂ (NaturalAt cs hp) x xs) (hp' : p < x.length) : xs[p]? = some (interpolate l u g a) := by
  have hpx : p < xs.length := by rw [← h.length_eq]; exact hp'
  obtain ⟨f, l', u', g', e, hf, hk', he, hv⟩ := (List.forall₂_iff_get.1 h).2 p hp' hpx
  have h1 := ha f hf
  rw [at2, List.getElem?_eq_getElem hp', Option.bind_some] at h1
  rw [show x[p][f]? = some e from he] at h1
  obtain rfl := Option.some.inj h1
  have : l' = l ∧ u' = u ∧ g' = g := by
    rcases hk with hk | hk <;> rcases hk' with hk' | hk' <;> rw [hk] at hk' <;> cases hk' <;> exact ⟨rfl, rfl, rfl⟩
  obtain ⟨rfl, rfl, rfl⟩ := this
  rw [List.getElem?_eq_getElem hpx]
  exact congrArg some hv

/-- the columns of a single selected hyperparameter -/
theorem idx_one {cs : ConfigSpace ℝ} (hwf : cs.WF) {hp : Hp ℝ} {f : Nat} (hf : IsFeature cs hp f) {idx : List Nat}
    (h : getSelectedIdx [hp] cs = .ok idx) : idx = [f] := by
  have : getSelectedIdx [hp] cs = .ok [f] := (C06_positions hwf [hp] [f]).2 (.cons hf .nil)
  rw [this] at h
  exact (Except.ok.inj h).symm

theorem idx_two {cs : ConfigSpace ℝ} (hwf : cs.WF) {hp hq : Hp ℝ} {f f' : Nat} (hf : IsFeature cs hp f) (hf' : IsFeature cs hq f')
    {idx : List Nat} (h : getSelectedIdx [hp, hq] cs = .ok idx) : idx = [f, f'] := by
  have : getSelectedIdx [hp, hq] cs = .ok [f, f'] := (C06_positions hwf [hp, hq] [f, f']).2 (.cons hf (.cons hf' .nil))
  rw [this] at h
  exact (Except.ok.inj h).symm

/-- **C83** the plot of a new PDP of one hyperparameter: over the `i`-th of the evenly spaced values, in natural units, the mean over the
samples of the prediction with the hyperparameter set to that value. -/
theorem C83_pdp_one {s : PdpState ℝ} (hs : PdpFresh s) (hi : s.ice = none) {mu sd : List ℝ → ℝ} (hc : Plottable s.cfg mu sd) {hp : Hp ℝ}
    (hsel : s.cfg.selected = [hp]) {l u : ℝ} {g : Bool} (hk : hp.kind = .float l u g ∨ hp.kind = .integer l u g) {f : Nat}
    (hf : IsFeature s.cfg.space hp f) {ax ax' : Ax ℝ} (hax : checkAndSetAxis [hp] true "Prediction" ax = (ax', .ok ())) (color : String) :
    ∃ s' xs ys, pdpPlotValues color s ax = (s', ax'.draw [.line color xs ys], .ok ()) ∧ xs.length = s.cfg.perAxis ∧ ys.length = s.cfg.perAxis ∧
      ∀ i < s.cfg.perAxis, xs[i]? = some (interpolate l u g (gridValue s.cfg.perAxis i)) ∧
        ys[i]? = some (meanOver s.cfg.samples fun r => mu (r.set f (gridValue s.cfg.perAxis i))) := by
  obtain ⟨idx, grid, x, y, v, hidx, hgr, -, hcurve, hvalid, -, hl, hat⟩ := pdp_core hs hi hc
  rw [hsel] at hidx hgr
  obtain rfl := idx_one hc.valid.wf hf hidx
  rw [List.length_singleton, gridPoints_one] at hgr
  obtain rfl := Except.ok.inj hgr
  obtain ⟨xs, hxs, hdraw⟩ := C83_one hvalid hsel hax color
  rw [List.length_map, linspace_length] at hl
  refine ⟨_, xs, y, by rw [pdpPlotValues_eq hcurve, hdraw], by rw [← hxs.length_eq]; exact hl, ?_, fun i hi => ?_⟩
  · have := hvalid.values
    exact this.trans hl
  · obtain ⟨h1, h2, -⟩ := hat i [gridValue s.cfg.perAxis i] (by rw [List.getElem?_map, linspace_gridValue hi]; rfl)
    refine ⟨natural_eq hk (fun f hf => ?_) hxs (by rw [hl]; exact hi), h2⟩
    exact h1 0 hp f (by rw [hsel]; rfl) hf

/-- **C83** the plot of a new PDP of two hyperparameters shows every combination of evenly spaced values once. -/
theorem C83_pdp_two {s : PdpState ℝ} (hs : PdpFresh s) (hi : s.ice = none) {mu sd : List ℝ → ℝ} (hc : Plottable s.cfg mu sd) {p q : Hp ℝ}
    (hsel : s.cfg.selected = [p, q]) (hP : 2 ≤ s.cfg.perAxis) {l u l' u' : ℝ} {g g' : Bool}
    (hk : p.kind = .float l u g ∨ p.kind = .integer l u g) (hk' : q.kind = .float l' u' g' ∨ q.kind = .integer l' u' g') {f f' : Nat}
    (hf : IsFeature s.cfg.space p f) (hf' : IsFeature s.cfg.space q f') {ax ax' : Ax ℝ}
    (hax : checkAndSetAxis [p, q] true "Prediction" ax = (ax', .ok ())) (color : String) :
    ∃ s' grid xs ys zs, pdpPlotValues color s ax = (s', ax'.draw [.tri xs ys zs], .ok ()) ∧ IsFullGrid 2 s.cfg.perAxis grid ∧
      xs.length = grid.length ∧ ys.length = grid.length ∧ zs.length = grid.length ∧
      ∀ (i : Nat) a b, grid[i]? = some [a, b] → xs[i]? = some (interpolate l u g a) ∧ ys[i]? = some (interpolate l' u' g' b) ∧
        zs[i]? = some (meanOver s.cfg.samples fun r => mu ((r.set f a).set f' b)) := by
  obtain ⟨idx, grid, x, y, v, hidx, hgr, hfull, hcurve, hvalid, -, hl, hat⟩ := pdp_core hs hi hc
  rw [hsel] at hidx hgr hfull
  obtain rfl := idx_two hc.valid.wf hf hf' hidx
  have hgl : grid.length = s.cfg.perAxis ^ 2 := by
    obtain ⟨grid', h1, h2, -⟩ := C40_grid (K := ℝ) (k := 2) (by omega) s.cfg.perAxis
    rw [show gridPoints 2 s.cfg.perAxis = .ok grid from hgr] at h1
    rw [Except.ok.inj h1, h2]
  have h3 : 3 ≤ x.length := by rw [hl, hgl]; nlinarith
  obtain ⟨xs, ys, hxs, hys, hdraw⟩ := C83_two hvalid hsel h3 hax color
  refine ⟨_, grid, xs, ys, y, by rw [pdpPlotValues_eq hcurve, hdraw], hfull, by rw [← hxs.length_eq]; exact hl,
    by rw [← hys.length_eq]; exact hl, by have := hvalid.values; exact this.trans hl, fun i a b ht => ?_⟩
  obtain ⟨h1, h2, -⟩ := hat i [a, b] ht
  have hi : i < x.length := by rw [hl]; exact (List.getElem?_eq_some_iff.1 ht).1
  refine ⟨natural_eq hk (fun f hf => ?_) hxs hi, natural_eq hk' (fun f hf => ?_) hys hi, h2⟩
  · exact h1 0 p f (by rw [hsel]; rfl) hf
  · exact h1 1 q f (by rw [hsel]; rfl) hf

/-- **C84** the confidence plot of a new PDP of one hyperparameter: around the mean predictions, the square root of the mean of the squared
standard deviations. -/
theorem C84_pdp_one {s : PdpState ℝ} (hs : PdpFresh s) (hi : s.ice = none) {mu sd : List ℝ → ℝ} (hc : Plottable s.cfg mu sd) {hp : Hp ℝ}
    (hsel : s.cfg.selected = [hp]) {l u : ℝ} {g : Bool} (hk : hp.kind = .float l u g ∨ hp.kind = .integer l u g) {f : Nat}
    (hf : IsFeature s.cfg.space hp f) {ax ax' : Ax ℝ} (hax : checkAndSetAxis [hp] true "Prediction" ax = (ax', .ok ()))
    (lineColor gradientColor : String) {maxSigma : ℝ} (hmax : 0 < maxSigma) :
    ∃ s' xs ys σ shapes, pdpPlotConfidences lineColor gradientColor maxSigma s ax = (s', ax'.draw shapes, .ok ()) ∧
      xs.length = s.cfg.perAxis ∧ ys.length = s.cfg.perAxis ∧ σ.length = s.cfg.perAxis ∧
      (∀ i < s.cfg.perAxis, xs[i]? = some (interpolate l u g (gridValue s.cfg.perAxis i)) ∧
        ys[i]? = some (meanOver s.cfg.samples fun r => mu (r.set f (gridValue s.cfg.perAxis i))) ∧
        ∃ t, σ[i]? = some t ∧ 0 ≤ t ∧ t * t = meanOver s.cfg.samples fun r => sd (r.set f (gridValue s.cfg.perAxis i)) ^ 2) ∧
      ShowsConfidence lineColor gradientColor maxSigma xs ys σ shapes := by
  obtain ⟨idx, grid, x, y, v, hidx, hgr, -, hcurve, hvalid, hv, hl, hat⟩ := pdp_core hs hi hc
  rw [hsel] at hidx hgr
  obtain rfl := idx_one hc.valid.wf hf hidx
  rw [List.length_singleton, gridPoints_one] at hgr
  obtain rfl := Except.ok.inj hgr
  obtain ⟨xs, σ, shapes, hxs, hσ, hdraw, hrest⟩ := C84_one hvalid hv hsel hax lineColor gradientColor hmax
  rw [List.length_map, linspace_length] at hl
  have hvl : v.length = s.cfg.perAxis := by have := hvalid.variances; exact this.trans hl
  refine ⟨_, xs, y, σ, shapes, by rw [pdpPlotConfidences_eq hcurve, hdraw], by rw [← hxs.length_eq]; exact hl, ?_,
    by rw [← hσ.length_eq]; exact hvl, fun i hi => ?_, hrest⟩
  · have := hvalid.values
    exact this.trans hl
  · obtain ⟨h1, h2, h3⟩ := hat i [gridValue s.cfg.perAxis i] (by rw [List.getElem?_map, linspace_gridValue hi]; rfl)
    refine ⟨natural_eq hk (fun f hf => ?_) hxs (by rw [hl]; exact hi), h2, ?_⟩
    · exact h1 0 hp f (by rw [hsel]; rfl) hf
    · have hiv : i < v.length := by rw [hvl]; exact hi
      have hiσ : i < σ.length := by rw [← hσ.length_eq]; exact hiv
      obtain ⟨a, b⟩ := (List.forall₂_iff_get.1 hσ).2 i hiv hiσ
      refine ⟨σ[i], List.getElem?_eq_getElem hiσ, a, ?_⟩
      rw [List.getElem?_eq_getElem hiv] at h3
      have h3 := Option.some.inj h3
      exact b.trans h3

/-- **C84** the confidence plot of a new PDP of two hyperparameters: over every combination of evenly spaced values the square root of the
mean of the squared standard deviations. -/
theorem C84_pdp_two {s : PdpState ℝ} (hs : PdpFresh s) (hi : s.ice = none) {mu sd : List ℝ → ℝ} (hc : Plottable s.cfg mu sd) {p q : Hp ℝ}
    (hsel : s.cfg.selected = [p, q]) (hP : 2 ≤ s.cfg.perAxis) {l u l' u' : ℝ} {g g' : Bool}
    (hk : p.kind = .float l u g ∨ p.kind = .integer l u g) (hk' : q.kind = .float l' u' g' ∨ q.kind = .integer l' u' g') {f f' : Nat}
    (hf : IsFeature s.cfg.space p f) (hf' : IsFeature s.cfg.space q f') {ax ax' : Ax ℝ}
    (hax : checkAndSetAxis [p, q] true "Prediction" ax = (ax', .ok ())) (lineColor gradientColor : String) (maxSigma : ℝ) :
    ∃ s' grid xs ys zs, pdpPlotConfidences lineColor gradientColor maxSigma s ax = (s', ax'.draw [.tri xs ys zs], .ok ()) ∧
      IsFullGrid 2 s.cfg.perAxis grid ∧ xs.length = grid.length ∧ ys.length = grid.length ∧ zs.length = grid.length ∧
      ∀ (i : Nat) a b, grid[i]? = some [a, b] → xs[i]? = some (interpolate l u g a) ∧ ys[i]? = some (interpolate l' u' g' b) ∧
        ∃ t, zs[i]? = some t ∧ 0 ≤ t ∧ t * t = meanOver s.cfg.samples fun r => sd ((r.set f a).set f' b) ^ 2 := by
  obtain ⟨idx, grid, x, y, v, hidx, hgr, hfull, hcurve, hvalid, hv, hl, hat⟩ := pdp_core hs hi hc
  rw [hsel] at hidx hgr hfull
  obtain rfl := idx_two hc.valid.wf hf hf' hidx
  have hgl : grid.length = s.cfg.perAxis ^ 2 := by
    obtain ⟨grid', h1, h2, -⟩ := C40_grid (K := ℝ) (k := 2) (by omega) s.cfg.perAxis
    rw [show gridPoints 2 s.cfg.perAxis = .ok grid from hgr] at h1
    rw [Except.ok.inj h1, h2]
  have h3 : 3 ≤ x.length := by rw [hl, hgl]; nlinarith
  obtain ⟨xs, ys, σ, hxs, hys, hσ, hdraw⟩ := C84_two hvalid hv hsel h3 hax lineColor gradientColor maxSigma
  have hvl : v.length = grid.length := by have := hvalid.variances; exact this.trans hl
  refine ⟨_, grid, xs, ys, σ, by rw [pdpPlotConfidences_eq hcurve, hdraw], hfull, by rw [← hxs.length_eq]; exact hl,
    by rw [← hys.length_eq]; exact hl, by rw [← hσ.length_eq]; exact hvl, fun i a b ht => ?_⟩
  obtain ⟨h1, -, h2⟩ := hat i [a, b] ht
  have hi : i < x.length := by rw [hl]; exact (List.getElem?_eq_some_iff.1 ht).1
  refine ⟨natural_eq hk (fun f hf => ?_) hxs hi, natural_eq hk' (fun f hf => ?_) hys hi, ?_⟩
  · exact h1 0 p f (by rw [hsel]; rfl) hf
  · exact h1 1 q f (by rw [hsel]; rfl) hf
  · have hiv : i < v.length := by rw [hvl, ← hl]; exact hi
    have hiσ : i < σ.length := by rw [← hσ.length_eq]; exact hiv
    obtain ⟨h4, h5⟩ := (List.forall₂_iff_get.1 hσ).2 i hiv hiσ
    refine ⟨σ[i], List.getElem?_eq_getElem hiσ, h4, ?_⟩
    rw [List.getElem?_eq_getElem hiv] at h2
    have h2 := Option.some.inj h2
    exact h5.trans h2

/-- **C83**, **C84** the plots of a region show the averages of its curves, as the plots of any curve. -/
theorem C83_region {cs : ConfigSpace ℝ} {sel : List (Hp ℝ)} (hcs : AllDeclared cs) (hsel : ∀ hp ∈ sel, hp ∈ cs) {P : Nat} {n : Node ℝ}
    (hn : RegionShape P cs.length n) (hne : n.x ≠ []) (hu : ∀ m ∈ n.x, ∀ r ∈ m, ∀ e ∈ r, 0 ≤ e ∧ e ≤ 1) :
    ∃ c, ValidCurve c ∧ c.space = cs ∧ c.selected = sel ∧ IsAverage3 P cs.length n.x c.x ∧ IsAverage P n.y c.y ∧ IsAverage P n.v c.v ∧
      (∀ color ax, regionPlotValues color cs sel n ax = curveValues color c ax) ∧
      (∀ lc gc ms ax, regionPlotConfidences lc gc ms cs sel n ax = curveConfidences lc gc ms c ax) := by
  have hne' : curves n ≠ [] := by
    intro h0
    have := hn.curves_length
    rw [h0] at this
    exact hne (List.length_eq_zero_iff.1 this.symm)
  obtain ⟨c, hc, rfl, rfl, h1, h2, h3, -⟩ := regionPdp_sum cs sel hn hne'
  refine ⟨c, validCurve_average hcs hsel hu h1 h2 h3, rfl, rfl, h1, h2, h3, fun color ax => ?_, fun lc gc ms ax => ?_⟩
  · unfold regionPlotValues
    rw [hc, Plot.lift_bind_ok]
  · unfold regionPlotConfidences
    rw [hc, Plot.lift_bind_ok]

/-- **C83** the value plot of a region of one selected hyperparameter: one line, the averages of the values of its curves over the
natural-unit coordinates of the averaged points. -/
theorem C83_region_one {cs : ConfigSpace ℝ} (hcs : AllDeclared cs) {hp : Hp ℝ} (hm : hp ∈ cs) {P : Nat} {n : Node ℝ}
    (hn : RegionShape P cs.length n) (hne : n.x ≠ []) (hu : ∀ m ∈ n.x, ∀ r ∈ m, ∀ e ∈ r, 0 ≤ e ∧ e ≤ 1) (color : String) {ax ax' : Ax ℝ}
    (hax : checkAndSetAxis [hp] true "Prediction" ax = (ax', .ok ())) :
    ∃ x xs ys, regionPlotValues color cs [hp] n ax = (ax'.draw [.line color xs ys], .ok ()) ∧ IsAverage3 P cs.length n.x x ∧
      List.Forall₂ (NaturalAt cs hp) x xs ∧ IsAverage P n.y ys := by
  obtain ⟨c, hv, rfl, hs, h1, h2, -, h4, -⟩ := C83_region hcs (sel := [hp]) (by simpa using hm) hn hne hu
  obtain ⟨xs, hxs, hd⟩ := C83_one hv hs hax color
  exact ⟨c.x, xs, c.y, by rw [h4, hd], h1, hxs, h2⟩

theorem average_nonneg {P : Nat} {y : List (List ℝ)} {out : List ℝ} (h : IsAverage P y out) (hnn : ∀ r ∈ y, ∀ e ∈ r, 0 ≤ e) :
    ∀ v ∈ out, 0 ≤ v := by
  intro v hv
  obtain ⟨p, hp, rfl⟩ := List.getElem_of_mem hv
  obtain ⟨col, hcol, ho⟩ := h.2 p (by rw [← h.1]; exact hp)
  rw [List.getElem?_eq_getElem hp] at ho
  rw [Option.some.inj ho]
  refine div_nonneg (List.sum_nonneg fun e he => ?_) (Nat.cast_nonneg _)
  obtain ⟨k, hk, rfl⟩ := List.getElem_of_mem he
  have hk' : k < y.length := by rw [← hcol.1]; exact hk
  have := hcol.2 k hk'
  rw [List.getElem?_eq_getElem hk] at this
  simp only [at2, List.getElem?_eq_getElem hk', Option.bind_some] at this
  exact hnn _ (List.getElem_mem hk') _ (List.mem_of_getElem? this.symm)

/-- **C84** the confidence plot of a region of one selected hyperparameter: around the averages of the values, with the square roots of the
averages of the variances. -/
theorem C84_region_one {cs : ConfigSpace ℝ} (hcs : AllDeclared cs) {hp : Hp ℝ} (hm : hp ∈ cs) {P : Nat} {n : Node ℝ}
    (hn : RegionShape P cs.length n) (hne : n.x ≠ []) (hu : ∀ m ∈ n.x, ∀ r ∈ m, ∀ e ∈ r, 0 ≤ e ∧ e ≤ 1) (hnn : ∀ r ∈ n.v, ∀ e ∈ r, 0 ≤ e)
    (lineColor gradientColor : String) {maxSigma : ℝ} (hmax : 0 < maxSigma) {ax ax' : Ax ℝ}
    (hax : checkAndSetAxis [hp] true "Prediction" ax = (ax', .ok ())) :
    ∃ x xs ys v s shapes, regionPlotConfidences lineColor gradientColor maxSigma cs [hp] n ax = (ax'.draw shapes, .ok ()) ∧
      IsAverage3 P cs.length n.x x ∧ List.Forall₂ (NaturalAt cs hp) x xs ∧ IsAverage P n.y ys ∧ IsAverage P n.v v ∧ StdsOf v s ∧
      ShowsConfidence lineColor gradientColor maxSigma xs ys s shapes := by
  obtain ⟨c, hv, rfl, hs, h1, h2, h3, -, h5⟩ := C83_region hcs (sel := [hp]) (by simpa using hm) hn hne hu
  obtain ⟨xs, s, shapes, hxs, hss, hd, hsh⟩ := C84_one hv (average_nonneg h3 hnn) hs hax lineColor gradientColor hmax
  exact ⟨c.x, xs, c.y, c.v, s, shapes, by rw [h5, hd], h1, hxs, h2, h3, hss, hsh⟩

section examples
local instance transcPdpPlots : Transc ℚ := ⟨id, id⟩

/-- the mean of two curves over `x2` -/
example : ((pdpFromIce (iceInit (exIce false))).map fun s => (pdpPlotValues "red" s Ax.new).2.1.shapes) =
    .ok [.line "red" [0, 1] [3/8, 19/8]] := by decide +kernel

end examples

end PyPDP
