/-
C202: the lines of the plot of a centered ICE object.
-/
import Verif.Props.IceLines

namespace PyPDP
open Spec

/-- **C202** Centered: one line per sample through the predictions at the grid points minus the prediction at the lower bound of the hyperparameter. -/
theorem C202_points {c : IceCfg ℝ} {mu sd : List ℝ → ℝ} (hc : Plottable c mu sd) (hcen : c.centered = true) {hp : Hp ℝ}
    (hsel : c.selected = [hp]) {l u : ℝ} {g : Bool} (hk : hp.kind = .float l u g ∨ hp.kind = .integer l u g) {f : Nat}
    (hf : IsFeature c.space hp f) (color : String) {alpha : ℝ} (h0 : 0 ≤ alpha) (h1 : alpha ≤ 1) {ax ax' : Ax ℝ}
    (hax : checkAndSetAxis [hp] true "Prediction" ax = (ax', .ok ())) :
    ∃ s' lines, icePlot color alpha (iceInit c) ax = (s', ax'.draw (lines ++ [.line color [] []]), .ok ()) ∧ lines.length = c.samples.length ∧
      ∀ (k : Nat) r, c.samples[k]? = some r → ∃ xs ys, lines[k]? = some (.line color xs ys) ∧ xs.length = c.perAxis ∧ ys.length = c.perAxis ∧
        ∀ i < c.perAxis, xs[i]? = some (interpolate l u g (gridValue c.perAxis i)) ∧ ys[i]? = some (mu (r.set f (gridValue c.perAxis i)) - mu (r.set f 0)) := by
  have hidx : getSelectedIdx c.selected c.space = .ok [f] := by
    rw [hsel]; exact (C06_positions hc.valid.wf [hp] [f]).2 (.cons hf .nil)
  obtain ⟨grid, hgdef⟩ : ∃ grid, grid = (linspace (0 : ℝ) 1 c.perAxis).map fun t => [t] := ⟨_, rfl⟩
  have hgr : gridPoints c.selected.length c.perAxis = .ok grid := by rw [hsel, List.length_singleton, gridPoints_one, hgdef]
  have hgl : grid.length = c.perAxis := by simp [hgdef]
  have hng : c.numGrid = c.perAxis := by rw [hc.valid.num_grid, hsel, List.length_singleton, pow_one]
  have hgat : ∀ i < c.perAxis, grid[i]? = some [gridValue c.perAxis i] := by
    intro i hi; rw [hgdef, List.getElem?_map, linspace_gridValue hi]; rfl
  obtain ⟨d, hd⟩ : ∃ d : IceData ℝ, d = ⟨iceX [f] c.samples grid, (iceX [f] c.samples grid).map (fun m => m.map fun r => mu r - ((m.map mu).getD 0 0)),
    (iceX [f] c.samples grid).map (·.map fun r => sd r ^ 2)⟩ := ⟨_, rfl⟩
  have hcalc : iceCalc c grid = .ok d := by
    rw [iceCalc_ok hc.valid hc.predict hc.samples (by rw [hgl, hng]) (by rw [hng]; exact hc.points) hidx, hd, hcen]
    simp only [if_true]
  have hgives : Gives (iceInit c) d := Or.inr ⟨fresh_init c, by rw [calcNow_init c hgr, hcalc]⟩
  have hsh := iceX_shape (grid := grid) [f] hc.valid.rows
  have hshape : RegionShape c.numGrid c.space.length ⟨0, d.x, d.y, d.v, []⟩ := by
    refine ⟨by rw [hng]; exact Nat.one_le_iff_ne_zero.2 hc.points, by simp [hd], by simp [hd], ?_, ?_, ?_⟩
    · intro m hm
      rw [hd] at hm
      obtain ⟨a, b⟩ := hsh.2 m hm
      exact ⟨by rw [a, hgl, hng], b⟩
    · intro r hr
      rw [hd] at hr
      obtain ⟨m, hm, rfl⟩ := List.mem_map.1 hr
      rw [List.length_map, (hsh.2 m hm).1, hgl, hng]
    · intro r hr
      rw [hd] at hr
      obtain ⟨m, hm, rfl⟩ := List.mem_map.1 hr
      rw [List.length_map, (hsh.2 m hm).1, hgl, hng]
  have hunit : UnitCurves (curves ⟨0, d.x, d.y, d.v, []⟩) := by
    intro cv hcv r hr e he
    have : cv.1 ∈ iceX [f] c.samples grid := by
      have := List.mem_map_of_mem (f := Prod.fst) hcv
      rw [hshape.map_x, hd] at this
      exact this
    obtain ⟨q, hq, h2⟩ := List.mem_map.1 this
    rw [← h2] at hr
    obtain ⟨t, ht, rfl⟩ := List.mem_map.1 hr
    rcases mem_assignRow he with h | h
    · obtain ⟨i, hi, rfl⟩ := List.getElem_of_mem ht
      have h3 := hgat i (by rw [← hgl]; exact hi)
      rw [List.getElem?_eq_getElem hi] at h3
      rw [Option.some.inj h3, List.mem_singleton] at h
      rw [h]
      exact gridValue_unit (by rw [← hgl]; exact hi)
    · exact hc.unit q hq e h
  obtain ⟨s', lines, hplot, -, hlines⟩ := C88_ice hgives hc.declared hsel (hc.valid.sel_mem hp (by rw [hsel]; simp)) hshape hunit color h0 h1 hax
  have hcl : (curves ⟨0, d.x, d.y, d.v, []⟩).length = c.samples.length := by rw [hshape.curves_length, hd]; exact hsh.1
  refine ⟨s', lines, hplot, by rw [← hlines.length_eq, hcl], fun k r hr => ?_⟩
  have hk1 : k < c.samples.length := (List.getElem?_eq_some_iff.1 hr).1
  have hk2 : k < (curves ⟨0, d.x, d.y, d.v, []⟩).length := by rw [hcl]; exact hk1
  have hk3 : k < lines.length := by rw [← hlines.length_eq]; exact hk2
  obtain ⟨xs, e1, e2⟩ := (List.forall₂_iff_get.1 hlines).2 k hk2 hk3
  have hx : ((curves ⟨0, d.x, d.y, d.v, []⟩).get ⟨k, hk2⟩).1 = grid.map fun t => assignRow [f] t r := by
    have h3 : ((curves ⟨0, d.x, d.y, d.v, []⟩).map Prod.fst)[k]? = some (grid.map fun t => assignRow [f] t r) := by
      rw [hshape.map_x, hd]
      simp [iceX, hr]
    rw [List.getElem?_map, List.getElem?_eq_getElem hk2] at h3
    exact Option.some.inj h3
  have hy : ((curves ⟨0, d.x, d.y, d.v, []⟩).get ⟨k, hk2⟩).2.1 = grid.map fun t => mu (assignRow [f] t r) - mu (r.set f 0) := by
    have h3 : ((curves ⟨0, d.x, d.y, d.v, []⟩).map fun c => c.2.1)[k]? = some (grid.map fun t => mu (assignRow [f] t r) - mu (r.set f 0)) := by
      rw [hshape.map_y, hd]
      have hz : ((grid.map fun t => assignRow [f] t r).map mu).getD 0 0 = mu (r.set f 0) := by
        have h4 := hgat 0 (Nat.pos_of_ne_zero hc.points)
        rw [show gridValue c.perAxis 0 = 0 by simp [gridValue]] at h4
        simp [List.getD_eq_getElem?_getD, h4, assignRow]
      simp only [iceX, List.getElem?_map, hr, Option.map_some]
      rw [hz, List.map_map]
      rfl
    rw [List.getElem?_map, List.getElem?_eq_getElem hk2] at h3
    exact Option.some.inj h3
  rw [hx] at e2
  rw [hy] at e1
  refine ⟨xs, _, by rw [List.getElem?_eq_getElem hk3]; exact congrArg some e1, by rw [← e2.length_eq, List.length_map, hgl],
    by rw [List.length_map, hgl], fun i hi => ⟨?_, ?_⟩⟩
  · refine natural_eq hk (fun f' hf' => ?_) e2 (by rw [List.length_map, hgl]; exact hi)
    have hff : f' = f := by
      have h3 := (C06_positions hc.valid.wf [hp] [f']).2 (.cons hf' .nil)
      rw [hsel, h3] at hidx
      exact (List.cons.inj (Except.ok.inj hidx)).1
    have hfl : f < r.length := by
      rw [hc.valid.rows r (List.mem_of_getElem? hr)]
      obtain ⟨h, h2, -⟩ := hf
      exact (List.getElem?_eq_some_iff.1 h2).1
    rw [hff]
    simp [at2, hgat i hi, assignRow, hfl]
  · rw [List.getElem?_map, hgat i hi]
    rfl

section
variable {c : IceCfg ℝ} {mu sd : List ℝ → ℝ} {hp : Hp ℝ} {l u : ℝ} {g : Bool} {f : Nat} {ax ax' : Ax ℝ}

/-- **C202** Setting `centered` before the first plot moves every line up or down as a whole, so that it starts at zero: over every value between the bounds, the line of a sample in the centered
plot has the points of its line in the other plot, lowered by the prediction for the sample with the hyperparameter set to its lower bound; and over the lower bound just the point at height 0. -/
theorem C202_shifted (hc : Plottable c mu sd) (hcen : c.centered = false) (hsel : c.selected = [hp]) (hk : hp.kind = .float l u g ∨ hp.kind = .integer l u g) (hlu : l < u)
    (hg : g = true → 0 < l) (hf : IsFeature c.space hp f) (hn : 2 ≤ c.perAxis) (hax : checkAndSetAxis [hp] true "Prediction" ax = (ax', .ok ())) (hlin : g = false → ax.xlog = false)
    (color : String) {alpha : ℝ} (h0 : 0 ≤ alpha) (h1 : alpha ≤ 1) :
    ∃ s lines s' lines', icePlot color alpha (iceInit c) ax = (s, ax'.draw (lines ++ [.line color [] []]), .ok ()) ∧
      icePlot color alpha (iceStep (iceInit c) (.setCentered true)) ax = (s', ax'.draw (lines' ++ [.line color [] []]), .ok ()) ∧
      lines.length = c.samples.length ∧ lines'.length = c.samples.length ∧
      ∀ (k : Nat) r line line', c.samples[k]? = some r → lines[k]? = some line → lines'[k]? = some line' → ∀ t ∈ Set.Icc (0 : ℝ) 1,
        (∃ y, PassesThrough ax'.xlog (interpolate l u g t) line' y) ∧
        (∀ y, PassesThrough ax'.xlog (interpolate l u g t) line' y ↔ PassesThrough ax'.xlog (interpolate l u g t) line (y + mu (r.set f 0))) ∧
        ∀ y, PassesThrough ax'.xlog (interpolate l u g 0) line' y ↔ y = 0 := by
  obtain ⟨s, lines, e1, e2, e3⟩ := C88_ice_new hc hcen hsel hk hf color h0 h1 hax
  obtain ⟨s', lines', d1, d2, d3⟩ := C202_points (c := { c with centered := true }) (mu := mu) (sd := sd) ⟨⟨hc.valid.wf, hc.valid.sel_mem, hc.valid.sel_distinct, hc.valid.sel_ne,
    hc.valid.rows, hc.valid.num_samples, hc.valid.num_grid⟩, hc.declared, hc.unit, hc.samples, hc.points, hc.predict⟩ rfl hsel hk hf color h0 h1 hax
  rw [axis_scale hk hax hlin]
  refine ⟨s, lines, s', lines', e1, d1, e2, d2, fun k r line line' hr hl hl' t ht => ?_⟩
  obtain ⟨xs, ys, a1, a2, a3, a4⟩ := e3 k r hr
  obtain ⟨xs', ys', b1, b2, b3, b4⟩ := d3 k r hr
  dsimp only at b2 b3 b4
  rw [hl] at a1
  rw [hl'] at b1
  obtain rfl := Option.some.inj a1
  obtain rfl := Option.some.inj b1
  have hxx : xs' = xs := by
    refine List.ext_getElem? fun i => ?_
    by_cases hi : i < c.perAxis
    · rw [(a4 i hi).1, (b4 i hi).1]
    · rw [List.getElem?_eq_none (by omega), List.getElem?_eq_none (by omega)]
  subst hxx
  have hshift : ∀ i : Nat, ys'[i]? = ys[i]?.map fun y => y - mu (r.set f 0) := by
    intro i
    by_cases hi : i < c.perAxis
    · rw [(a4 i hi).2, (b4 i hi).2]; rfl
    · rw [List.getElem?_eq_none (by omega), List.getElem?_eq_none (by omega)]; rfl
  have hmove : ∀ t y, PassesThrough g (interpolate l u g t) (.line color xs' ys') y ↔ PassesThrough g (interpolate l u g t) (.line color xs' ys) (y + mu (r.set f 0)) := by
    intro t y
    constructor
    · rintro ⟨_, _, _, hl, i, a, b, p, q, w, h1, h2, h3, h4, h5⟩
      cases hl
      rw [hshift, Option.map_eq_some_iff] at h3 h4
      obtain ⟨p, h3, rfl⟩ := h3
      obtain ⟨q, h4, rfl⟩ := h4
      obtain ⟨w0, w1, hx, hy⟩ := h5
      exact ⟨_, _, _, rfl, i, a, b, p, q, w, h1, h2, h3, h4, w0, w1, hx, by rw [hy]; ring⟩
    · rintro ⟨_, _, _, hl, i, a, b, p, q, w, h1, h2, h3, h4, w0, w1, hx, hy⟩
      cases hl
      refine ⟨_, _, _, rfl, i, a, b, p - mu (r.set f 0), q - mu (r.set f 0), w, h1, h2, by rw [hshift, h3]; rfl, by rw [hshift, h4]; rfl, w0, w1, hx, by linear_combination hy⟩
  have hpts := fun t ht => line_points (F := fun t => mu (r.set f t) - mu (r.set f 0)) hlu hg hn b2 b4 (t := t) ht
  refine ⟨?_, hmove t, fun y => ?_⟩
  · obtain ⟨y, hy⟩ := (hpts t ht).1
    exact ⟨y, color, xs', ys', rfl, hy⟩
  · have huniq : ∀ y, PassesThrough g (interpolate l u g 0) (.line color xs' ys') y → y = 0 := by
      rintro y ⟨_, _, _, hl, hy⟩
      cases hl
      obtain ⟨i, w, -, w0, w1, hT, rfl⟩ := on_grid_line (F := fun t => mu (r.set f t) - mu (r.set f 0)) hlu hg hn b2 b4 hy
      rw [zero_mul] at hT
      have hi0 : (0 : ℝ) ≤ i := Nat.cast_nonneg i
      have hi : (i : ℝ) = 0 := by linarith
      have hw : w = 0 := by linarith
      have : gridValue c.perAxis i = 0 := by simp [gridValue, hi]
      rw [this, hw]
      ring
    refine ⟨huniq y, ?_⟩
    rintro rfl
    obtain ⟨y, hy⟩ := (hpts 0 (by simp)).1
    have h2 : PassesThrough g (interpolate l u g 0) (.line color xs' ys') y := ⟨color, xs', ys', rfl, hy⟩
    rwa [huniq y h2] at h2

/-- **C202** What a centered plot is for: if the blackbox function does not let the hyperparameter interact with the others, all lines of the centered plot nearly coincide: over every value
between the bounds any two are at most `B` times four standard deviations plus `C / (n - 1)` apart. Lines that are further apart anywhere prove an interaction. -/
theorem C202_interaction (hc : Plottable c mu sd) (hcen : c.centered = false) (hsel : c.selected = [hp]) (hk : hp.kind = .float l u g ∨ hp.kind = .integer l u g) (hlu : l < u)
    (hg : g = true → 0 < l) (hf : IsFeature c.space hp f) (hn : 2 ≤ c.perAxis) (hax : checkAndSetAxis [hp] true "Prediction" ax = (ax', .ok ())) (hlin : g = false → ax.xlog = false)
    (color : String) {alpha : ℝ} (h0 : 0 ≤ alpha) (h1 : alpha ≤ 1) {B C : ℝ} {h : List ℝ → ℝ} (hno : NoInteraction c.samples f h)
    (hcov : ∀ r ∈ c.samples, ∀ t ∈ Set.Icc (0 : ℝ) 1, |mu (r.set f t) - h (r.set f t)| ≤ B * sd (r.set f t))
    (hC : ∀ r ∈ c.samples, ∀ t ∈ Set.Icc (0 : ℝ) 1, ∀ t' ∈ Set.Icc (0 : ℝ) 1, |mu (r.set f t) - mu (r.set f t')| ≤ C * |t - t'|) :
    ∃ s' lines, icePlot color alpha (iceStep (iceInit c) (.setCentered true)) ax = (s', ax'.draw (lines ++ [.line color [] []]), .ok ()) ∧ lines.length = c.samples.length ∧
      ∀ (j k : Nat) r q line line', c.samples[j]? = some r → c.samples[k]? = some q → lines[j]? = some line → lines[k]? = some line' →
        ∀ t ∈ Set.Icc (0 : ℝ) 1, ∀ y z, PassesThrough ax'.xlog (interpolate l u g t) line y → PassesThrough ax'.xlog (interpolate l u g t) line' z →
          |y - z| ≤ B * (sd (r.set f 0) + sd (r.set f t) + sd (q.set f 0) + sd (q.set f t)) + C / ((c.perAxis : ℝ) - 1) := by
  obtain ⟨s, L, s', L', a1, a2, a3, a4, a5⟩ := C202_shifted hc hcen hsel hk hlu hg hf hn hax hlin color h0 h1
  obtain ⟨s'', L'', e1, e2⟩ := C200_lines hc hcen hsel hk hlu hg hf hn hax hlin color h0 h1
  obtain rfl : L'' = L := by
    rw [a1] at e1
    have := congrArg (fun q => q.2.1.shapes) e1
    simpa [Ax.draw] using this.symm
  refine ⟨s', L', a2, a4, fun j k r q line line' hr hq hl hl' t ht y z hy hz => ?_⟩
  have hn1 : (0 : ℝ) < (c.perAxis : ℝ) - 1 := by
    have : (2 : ℝ) ≤ c.perAxis := by exact_mod_cast hn
    linarith
  have at_ : ∀ {k : Nat} {r line}, c.samples[k]? = some r → L'[k]? = some line → ∀ y, PassesThrough ax'.xlog (interpolate l u g t) line y →
      |y + mu (r.set f 0) - h (r.set f t)| ≤ B * sd (r.set f t) + C / (2 * ((c.perAxis : ℝ) - 1)) := by
    intro k r line hr hl y hy
    obtain ⟨k1, hk1⟩ := List.getElem?_eq_some_iff.1 hr
    have k2 : k < L''.length := by rw [a3]; exact k1
    have hm := List.mem_of_getElem? hr
    have hy' := ((a5 k r _ line hr (List.getElem?_eq_getElem k2) hl t ht).2.1 y).1 hy
    have := (List.forall₂_iff_get.1 e2).2 k k1 k2 t ht
    simp only [List.get_eq_getElem, hk1] at this
    exact ((this.2 C (hC _ hm) _ hy').2 B h (hcov _ hm t ht))
  obtain ⟨a, b, hab⟩ := hno
  have mr := List.mem_of_getElem? hr
  have mq := List.mem_of_getElem? hq
  have m0 : (0 : ℝ) ∈ Set.Icc (0 : ℝ) 1 := by simp
  have g1 := abs_le.1 (at_ hr hl y hy)
  have g2 := abs_le.1 (at_ hq hl' z hz)
  have g3 := abs_le.1 (hcov r mr 0 m0)
  have g4 := abs_le.1 (hcov q mq 0 m0)
  rw [hab r mr t ht] at g1
  rw [hab q mq t ht] at g2
  rw [hab r mr 0 m0] at g3
  rw [hab q mq 0 m0] at g4
  have e : C / ((c.perAxis : ℝ) - 1) = 2 * (C / (2 * ((c.perAxis : ℝ) - 1))) := by field_simp
  rw [e, abs_le]
  constructor <;> linarith [g1.1, g1.2, g2.1, g2.2, g3.1, g3.2, g4.1, g4.2]

end

section ex

private noncomputable def offsetCfg : IceCfg ℝ :=
  ⟨[⟨"x", .float 0 1 false⟩, ⟨"y", .float 0 1 false⟩], [⟨"x", .float 0 1 false⟩], [[0, 0], [0, 1]], 2, 11, 11, false,
    fun X => .ok (X.map fun r => r.getD 0 0 * r.getD 1 0 + 3 * r.getD 1 0, X.map fun _ => 1 / 100)⟩

/-- A surrogate with the means `x y + 3 y` and standard deviations of 1/100, samples with `y = 0` and `y = 1`, eleven grid points: the lines are 3 apart at the left, centered they both start at
zero; at the right they are at the heights 0 and 1, so no blackbox function within two standard deviations of the means is without an interaction of "x" and "y". -/
example {h : List ℝ → ℝ} (hcov : ∀ r ∈ offsetCfg.samples, ∀ t ∈ Set.Icc (0 : ℝ) 1,
      |((r.set 0 t).getD 0 0 * (r.set 0 t).getD 1 0 + 3 * (r.set 0 t).getD 1 0) - h (r.set 0 t)| ≤ 2 * (1 / 100)) :
    ¬ NoInteraction offsetCfg.samples 0 h := by
  intro hno
  have hwf : offsetCfg.space.WF := by simp [ConfigSpace.WF, offsetCfg]
  have hc : Plottable offsetCfg (fun r => r.getD 0 0 * r.getD 1 0 + 3 * r.getD 1 0) (fun _ => 1 / 100) := by
    refine ⟨⟨hwf, by simp [offsetCfg], by simp [offsetCfg], by simp [offsetCfg], by simp [offsetCfg], rfl, rfl⟩, ?_, ?_, by simp [offsetCfg], by simp [offsetCfg], fun _ _ _ => rfl⟩
    · intro hp hm
      simp only [offsetCfg, List.mem_cons, List.not_mem_nil, or_false] at hm
      rcases hm with rfl | rfl
      · exact ⟨0, 1, false, hwf, ⟨_, by simp [offsetCfg], rfl, .inl rfl⟩, by norm_num, by simp⟩
      · exact ⟨0, 1, false, hwf, ⟨_, by simp [offsetCfg], rfl, .inl rfl⟩, by norm_num, by simp⟩
    · intro r hr e he
      simp only [offsetCfg, List.mem_cons, List.not_mem_nil, or_false] at hr
      rcases hr with rfl | rfl <;>
      · simp only [List.mem_cons, List.not_mem_nil, or_false] at he
        rcases he with rfl | rfl <;> norm_num
  have hax : checkAndSetAxis [⟨"x", .float 0 1 false⟩] true "Prediction" Ax.new = ((⟨"x", "Prediction", false, false, some (0, 1), none, []⟩ : Ax ℝ), .ok ()) := rfl
  have hC : ∀ r ∈ offsetCfg.samples, ∀ t ∈ Set.Icc (0 : ℝ) 1, ∀ t' ∈ Set.Icc (0 : ℝ) 1,
      |((r.set 0 t).getD 0 0 * (r.set 0 t).getD 1 0 + 3 * (r.set 0 t).getD 1 0) - ((r.set 0 t').getD 0 0 * (r.set 0 t').getD 1 0 + 3 * (r.set 0 t').getD 1 0)| ≤ 1 * |t - t'| := by
    intro r hr t _ t' _
    simp only [offsetCfg, List.mem_cons, List.not_mem_nil, or_false] at hr
    rcases hr with rfl | rfl <;> simp
  obtain ⟨s, L, s', L', a1, a2, a3, a4, a5⟩ := C202_shifted hc rfl rfl (.inl rfl) (by norm_num) (by simp) (f := 0) ⟨_, rfl, rfl⟩ (by simp [offsetCfg]) hax (fun _ => rfl) "red" (alpha := 1)
    (by norm_num) le_rfl
  obtain ⟨s1, L1, c1, c2⟩ := C200_lines hc rfl rfl (.inl rfl) (by norm_num) (by simp) (f := 0) ⟨_, rfl, rfl⟩ (by simp [offsetCfg]) hax (fun _ => rfl) "red" (alpha := 1) (by norm_num) le_rfl
  obtain ⟨s2, L2, b1, -, b3⟩ := C202_interaction hc rfl rfl (.inl rfl) (by norm_num) (by simp) (f := 0) ⟨_, rfl, rfl⟩ (by simp [offsetCfg]) hax (fun _ => rfl) "red" (alpha := 1)
    (by norm_num) le_rfl hno hcov hC
  obtain rfl : L = L1 := by
    rw [a1] at c1
    have := congrArg (fun q => q.2.1.shapes) c1
    simpa [Ax.draw] using this
  obtain rfl : L' = L2 := by
    rw [a2] at b1
    have := congrArg (fun q => q.2.1.shapes) b1
    simpa [Ax.draw] using this
  obtain ⟨l1, l2, rfl⟩ := List.length_eq_two.1 a3
  obtain ⟨k1, k2, rfl⟩ := List.length_eq_two.1 a4
  obtain ⟨r1, r2⟩ := List.forall₂_cons.1 c2
  obtain ⟨q1, -⟩ := List.forall₂_cons.1 r2
  have m1 : (1 : ℝ) ∈ Set.Icc (0 : ℝ) 1 := by simp
  obtain ⟨⟨y, hy⟩, hy2, -⟩ := a5 0 _ _ _ rfl rfl rfl 1 m1
  obtain ⟨⟨z, hz⟩, hz2, -⟩ := a5 1 _ _ _ rfl rfl rfl 1 m1
  have k := abs_le.1 (b3 0 1 _ _ _ _ rfl rfl rfl rfl 1 m1 y z hy hz)
  have p1 := abs_le.1 ((r1 1 m1).2 1 (hC _ (by simp [offsetCfg])) _ ((hy2 y).1 hy)).1
  have p2 := abs_le.1 ((q1 1 m1).2 1 (hC _ (by simp [offsetCfg])) _ ((hz2 z).1 hz)).1
  simp [offsetCfg] at k p1 p2
  norm_num at k p1 p2
  linarith [k.1, p1.1, p1.2, p2.1, p2.2]

end ex

end PyPDP
