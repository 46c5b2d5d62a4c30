/-
C88 (ICE.plot, DTRegion.plot), C89 (DecisionTreePartitioner.plot).
-/
import Verif.Props.CurvePlots
import Verif.Props.Partition
import Verif.Props.RegionPdp
import Verif.Props.PdpPlots

namespace PyPDP
open Spec

/-! ### drawing columns -/

section columns
variable {K : Type} [Field K] [LinearOrder K]

theorem drawColumns_ok (color : String) {alpha : K} (h0 : 0 ≤ alpha) (h1 : alpha ≤ 1) {xs ys : List (List K)} (hl : xs.length = ys.length)
    (k : Nat) : ∀ (j : Nat) (ax : Ax K), drawColumns color alpha xs ys j k ax =
      (ax.draw ((List.range' j k).map fun i => .line color (xs.map fun row => row.getD i 0) (ys.map fun row => row.getD i 0)), .ok ()) := by
  induction k with
  | zero => intro j ax; simp [drawColumns]
  | succ k ih =>
    intro j ax
    unfold drawColumns
    have : drawLine color alpha (xs.map fun row => row.getD j 0) (ys.map fun row => row.getD j 0) ax =
        (ax.draw [.line color (xs.map fun row => row.getD j 0) (ys.map fun row => row.getD j 0)], .ok ()) := by
      unfold drawLine
      rw [if_pos ⟨h0, h1, by simp [hl]⟩, Plot.add_eq]
    rw [Plot.bind_ok this, ih, Ax.draw_draw, List.range'_succ]
    rfl

omit [LinearOrder K] in
theorem transpose2_column {P : Nat} {a : List (List K)} {k : Nat} {row : List K} (hk : a[k]? = some row) (hr : row.length = P) :
    (transpose2 P a).map (fun r => r.getD k 0) = row := by
  unfold transpose2
  rw [List.map_map]
  refine List.ext_getElem? fun p => ?_
  by_cases hp : p < P
  · rw [List.getElem?_map, List.getElem?_range hp, List.getElem?_eq_getElem (by omega)]
    simp [List.getD_eq_getElem?_getD, hk, List.getElem?_eq_getElem (show p < row.length by omega)]
  · rw [List.getElem?_eq_none (by simpa using hp), List.getElem?_eq_none (by omega)]

end columns

theorem Ax.boundX_draw {K : Type} (ax : Ax K) (ss : List (Shape K)) (b : Bool) (hp : Hp K) : (ax.draw ss).boundX b hp = (ax.boundX b hp).draw ss := by
  unfold Ax.boundX
  split <;> rfl

theorem Ax.boundY_draw {K : Type} (ax : Ax K) (ss : List (Shape K)) (b : Bool) (hp : Hp K) : (ax.draw ss).boundY b hp = (ax.boundY b hp).draw ss := by
  unfold Ax.boundY
  split <;> rfl

/-- what is already drawn has no influence on the axis -/
theorem checkAndSetAxis_draw {K : Type} (hps : List (Hp K)) (b : Bool) (yl : String) (ax : Ax K) (ss : List (Shape K)) :
    checkAndSetAxis hps b yl (ax.draw ss) = ((checkAndSetAxis hps b yl ax).1.draw ss, (checkAndSetAxis hps b yl ax).2) := by
  unfold checkAndSetAxis
  split
  · rename_i hp
    by_cases h1 : ax.xlabel ≠ "" ∧ ax.xlabel ≠ hp.name
    · rw [if_pos h1, if_pos (by exact h1)]
    · rw [if_neg h1, if_neg (by exact h1)]
      by_cases h2 : ax.ylabel ≠ "" ∧ ax.ylabel ≠ yl
      · rw [if_pos h2, if_pos (by exact h2)]
      · rw [if_neg h2, if_neg (by exact h2), ← Ax.boundX_draw]
        rfl
  · rename_i hp1 hp2
    by_cases h1 : (ax.xlabel, ax.ylabel) ≠ ("", "") ∧ (ax.xlabel, ax.ylabel) ≠ (hp1.name, hp2.name)
    · rw [if_pos h1, if_pos (by exact h1)]
    · rw [if_neg h1, if_neg (by exact h1), ← Ax.boundY_draw, ← Ax.boundX_draw]
      rfl
  · rfl

/-! ### C88 -/

theorem cubeColumn_ok {cs : ConfigSpace ℝ} (hcs : AllDeclared cs) {hp : Hp ℝ} (hm : hp ∈ cs) {x : List (List (List ℝ))}
    (hx : ∀ m ∈ x, ∀ r ∈ m, r.length = cs.length ∧ ∀ e ∈ r, 0 ≤ e ∧ e ≤ 1) :
    ∃ xs, cubeColumn cs x hp.name = .ok xs ∧ List.Forall₂ (List.Forall₂ (NaturalAt cs hp)) x xs := by
  obtain ⟨y, h1, h2⟩ := C04_unscale_float (cs := cs) hcs (x := .d3 x) hx
  obtain ⟨_, _, _, hd⟩ := hcs hp hm
  obtain ⟨i, hi⟩ := List.mem_iff_getElem?.1 hm
  have hidx : cs.idx hp.name = .ok i := (idx_iff hd.wf).2 ⟨hp, hi, rfl⟩
  cases y with
  | d3 cube =>
    have h2 : List.Forall₂ (List.Forall₂ _) x cube := h2
    have key : ∃ xs, cube.mapM (numberColumn i) = .ok xs ∧ List.Forall₂ (List.Forall₂ (NaturalAt cs hp)) x xs := by
      clear h1
      rename_i h3
      clear h3
      induction h2 with
      | nil => exact ⟨[], rfl, .nil⟩
      | cons h hs ih =>
        rename_i m w ms ws
        obtain ⟨vs, hvs, hns⟩ := numberColumn_natural hcs hi (hx m (by simp)) h
        obtain ⟨xs, hxs, hn⟩ := ih fun m hm => hx m (by simp [hm])
        exact ⟨vs :: xs, by rw [List.mapM_cons, hvs, Py.ok_bind, hxs]; rfl, .cons hns hn⟩
    obtain ⟨xs, hxs, hn⟩ := key
    refine ⟨xs, ?_, hn⟩
    unfold cubeColumn
    rw [h1, Py.ok_bind]
    simp only [NdArr.asCube, Py.ok_bind, hidx, hxs]
  | _ => exact absurd h2 (by simp [ArrRel])

theorem drawCurves_ok {cs : ConfigSpace ℝ} (hcs : AllDeclared cs) {hp : Hp ℝ} (hm : hp ∈ cs) {P : Nat} {L : List (Curve ℝ)}
    (hx : ∀ c ∈ L, c.1.length = P ∧ ∀ r ∈ c.1, r.length = cs.length) (hy : ∀ c ∈ L, c.2.1.length = P) (hu : UnitCurves L) (color : String)
    {alpha : ℝ} (h0 : 0 ≤ alpha) (h1 : alpha ≤ 1) (ax : Ax ℝ) :
    ∃ lines, drawCurves color alpha cs hp P (L.map Prod.fst) (L.map fun c => c.2.1) ax = (ax.draw lines, .ok ()) ∧
      List.Forall₂ (LineOf cs hp color) L lines := by
  obtain ⟨xs, hxs, hnat⟩ := cubeColumn_ok hcs hm (x := L.map Prod.fst) (by
    intro m hm r hr
    obtain ⟨c, hc, rfl⟩ := List.mem_map.1 hm
    exact ⟨(hx c hc).2 r hr, hu c hc r hr⟩)
  refine ⟨(List.range' 0 (L.map fun c => c.2.1).length).map fun i => .line color ((transpose2 P xs).map fun row => row.getD i 0)
    ((transpose2 P (L.map fun c => c.2.1)).map fun row => row.getD i 0), ?_, ?_⟩
  · unfold drawCurves
    rw [hxs, Plot.lift_bind_ok, drawColumns_ok color h0 h1 (by simp [transpose2])]
  · have hlx : L.length = xs.length := by rw [← hnat.length_eq, List.length_map]
    rw [List.forall₂_iff_get]
    refine ⟨by simp, fun k hk hk' => ?_⟩
    have hkx : k < xs.length := by rw [← hlx]; exact hk
    have hn : List.Forall₂ (NaturalAt cs hp) L[k].1 xs[k] := by
      have := (List.forall₂_iff_get.1 hnat).2 k (by simpa using hk) hkx
      simpa using this
    refine ⟨xs[k], ?_, hn⟩
    simp only [List.get_eq_getElem, List.getElem_map, List.getElem_range', zero_add, one_mul]
    rw [transpose2_column (List.getElem?_eq_getElem hkx) (by rw [← hn.length_eq]; exact (hx _ (List.getElem_mem hk)).1),
      transpose2_column (row := L[k].2.1) (by rw [List.getElem?_map, List.getElem?_eq_getElem hk]; rfl) (hy _ (List.getElem_mem hk))]

/-- **C88** a region of one selected hyperparameter: one line per curve, in order, nothing else. -/
theorem C88_region {cs : ConfigSpace ℝ} (hcs : AllDeclared cs) {hp : Hp ℝ} (hm : hp ∈ cs) {P : Nat} {n : Node ℝ}
    (hn : RegionShape P cs.length n) (hu : UnitCurves (curves n)) (color : String) {alpha : ℝ} (h0 : 0 ≤ alpha) (h1 : alpha ≤ 1) {ax ax' : Ax ℝ}
    (hax : checkAndSetAxis [hp] true "Prediction" ax = (ax', .ok ())) :
    ∃ lines, regionPlot color alpha cs [hp] P n ax = (ax'.draw lines, .ok ()) ∧ List.Forall₂ (LineOf cs hp color) (curves n) lines := by
  obtain ⟨lines, hl, hf⟩ := drawCurves_ok hcs hm (P := P) (L := curves n) (by
      intro c hc
      exact hn.xs c.1 (by rw [← hn.map_x]; exact List.mem_map_of_mem hc)) (by
      intro c hc
      exact hn.ys c.2.1 (by rw [← hn.map_y]; exact List.mem_map_of_mem (f := fun c => c.2.1) hc)) hu color h0 h1 ax'
  rw [hn.map_x, hn.map_y] at hl
  refine ⟨lines, ?_, hf⟩
  unfold regionPlot
  rw [Plot.bind_ok hax]
  exact hl

/-- **C88** two selected hyperparameters, or none: NotImplementedError; nothing is drawn. -/
theorem C88_region_other {cs : ConfigSpace ℝ} {sel : List (Hp ℝ)} (hsel : sel.length ≠ 1) (color : String) (alpha : ℝ) (P : Nat) (n : Node ℝ)
    {ax ax' : Ax ℝ} (hax : checkAndSetAxis sel true "Prediction" ax = (ax', .ok ())) :
    regionPlot color alpha cs sel P n ax = (ax', .error .notImplemented) ∧ ax'.shapes = ax.shapes := by
  constructor
  · unfold regionPlot
    rw [Plot.bind_ok hax]
    have : drawRegion color alpha cs P n sel = Plot.raise .notImplemented := by
      unfold drawRegion
      split
      · exact absurd rfl hsel
      · rfl
    rw [this, Plot.raise_apply]
  · have := (C71_rejected ax sel true "Prediction").1
    rw [hax] at this
    exact this

/-- **C88** an ICE object: one line per sample, in order, and the empty line that carries the legend entry. -/
theorem C88_ice {s : IceState ℝ} {d : IceData ℝ} (hd : Gives s d) (hcs : AllDeclared s.cfg.space) {hp : Hp ℝ} (hsel : s.cfg.selected = [hp])
    (hm : hp ∈ s.cfg.space) (hn : RegionShape s.cfg.numGrid s.cfg.space.length ⟨0, d.x, d.y, d.v, []⟩)
    (hu : UnitCurves (curves ⟨0, d.x, d.y, d.v, []⟩)) (color : String) {alpha : ℝ} (h0 : 0 ≤ alpha) (h1 : alpha ≤ 1) {ax ax' : Ax ℝ}
    (hax : checkAndSetAxis [hp] true "Prediction" ax = (ax', .ok ())) :
    ∃ s' lines, icePlot color alpha s ax = (s', ax'.draw (lines ++ [.line color [] []]), .ok ()) ∧ Stored s' d ∧
      List.Forall₂ (LineOf s.cfg.space hp color) (curves ⟨0, d.x, d.y, d.v, []⟩) lines := by
  obtain ⟨lines, hl, hf⟩ := drawCurves_ok hcs hm (P := s.cfg.numGrid) (L := curves ⟨0, d.x, d.y, d.v, []⟩) (by
      intro c hc
      exact hn.xs c.1 (by rw [← hn.map_x]; exact List.mem_map_of_mem hc)) (by
      intro c hc
      exact hn.ys c.2.1 (by rw [← hn.map_y]; exact List.mem_map_of_mem (f := fun c => c.2.1) hc)) hu color h0 h1 ax'
  rw [hn.map_x, hn.map_y] at hl
  obtain ⟨⟨s1, hr1, hs1⟩, -, -⟩ := reads_of_gives hd
  obtain ⟨-, ⟨s2, hr2, hs2⟩, -⟩ := reads_of_gives (Or.inl hs1 : Gives s1 d)
  refine ⟨s2, lines, ?_, hs2, hf⟩
  unfold icePlot
  simp only [hsel, hax, hr1, hr2]
  have : (do
      drawCurves color alpha s.cfg.space hp s.cfg.numGrid d.x d.y
      drawLine color 1 [] [] : Plot ℝ Unit) ax' = (ax'.draw (lines ++ [.line color [] []]), .ok ()) := by
    refine (Plot.bind_ok hl).trans ?_
    unfold drawLine
    rw [if_pos ⟨zero_le_one, le_refl _, rfl⟩, Plot.add_eq, Ax.draw_draw]
  rw [this]

/-- **C88** any other number of selected hyperparameters: NotImplementedError, the object is not even calculated. -/
theorem C88_ice_other {s : IceState ℝ} (hsel : s.cfg.selected.length ≠ 1) (color : String) (alpha : ℝ) {ax ax' : Ax ℝ}
    (hax : checkAndSetAxis s.cfg.selected true "Prediction" ax = (ax', .ok ())) :
    icePlot color alpha s ax = (s, ax', .error .notImplemented) ∧ ax'.shapes = ax.shapes := by
  constructor
  · unfold icePlot
    rw [hax]
    dsimp only
    split
    · rename_i h; rw [h] at hsel; exact absurd rfl hsel
    · rfl
  · have := (C71_rejected ax s.cfg.selected true "Prediction").1
    rw [hax] at this
    exact this

/-- **C88** the plot of a new ICE object of one hyperparameter in terms of the surrogate: the line of a sample shows, over the `i`-th of the
evenly spaced values in natural units, the prediction for the sample with the hyperparameter set to that value. -/
theorem C88_ice_new {c : IceCfg ℝ} {mu sd : List ℝ → ℝ} (hc : Plottable c mu sd) (hcen : c.centered = false) {hp : Hp ℝ}
    (hsel : c.selected = [hp]) {l u : ℝ} {g : Bool} (hk : hp.kind = .float l u g ∨ hp.kind = .integer l u g) {f : Nat}
    (hf : IsFeature c.space hp f) (color : String) {alpha : ℝ} (h0 : 0 ≤ alpha) (h1 : alpha ≤ 1) {ax ax' : Ax ℝ}
    (hax : checkAndSetAxis [hp] true "Prediction" ax = (ax', .ok ())) :
    ∃ s' lines, icePlot color alpha (iceInit c) ax = (s', ax'.draw (lines ++ [.line color [] []]), .ok ()) ∧ lines.length = c.samples.length ∧
      ∀ (k : Nat) r, c.samples[k]? = some r → ∃ xs ys, lines[k]? = some (.line color xs ys) ∧ xs.length = c.perAxis ∧ ys.length = c.perAxis ∧
        ∀ i < c.perAxis, xs[i]? = some (interpolate l u g (gridValue c.perAxis i)) ∧ ys[i]? = some (mu (r.set f (gridValue c.perAxis i))) := by
  have hidx : getSelectedIdx c.selected c.space = .ok [f] := by
    rw [hsel]; exact (C06_positions hc.valid.wf [hp] [f]).2 (.cons hf .nil)
  obtain ⟨grid, hgdef⟩ : ∃ grid, grid = (linspace (0 : ℝ) 1 c.perAxis).map fun t => [t] := ⟨_, rfl⟩
  have hgr : gridPoints c.selected.length c.perAxis = .ok grid := by rw [hsel, List.length_singleton, gridPoints_one, hgdef]
  have hgl : grid.length = c.perAxis := by simp [hgdef]
  have hng : c.numGrid = c.perAxis := by rw [hc.valid.num_grid, hsel, List.length_singleton, pow_one]
  have hgat : ∀ i < c.perAxis, grid[i]? = some [gridValue c.perAxis i] := by
    intro i hi; rw [hgdef, List.getElem?_map, linspace_gridValue hi]; rfl
  obtain ⟨d, hd⟩ : ∃ d : IceData ℝ, d = ⟨iceX [f] c.samples grid, (iceX [f] c.samples grid).map (·.map mu),
    (iceX [f] c.samples grid).map (·.map fun r => sd r ^ 2)⟩ := ⟨_, rfl⟩
  have hcalc : iceCalc c grid = .ok d := by
    rw [iceCalc_ok hc.valid hc.predict hc.samples (by rw [hgl, hng]) (by rw [hng]; exact hc.points) hidx, hd, hcen]
    rfl
  have hgives : Gives (iceInit c) d := Or.inr ⟨fresh_init c, by rw [calcNow_init c hgr, hcalc]⟩
  have hsh := iceX_shape (grid := grid) [f] hc.valid.rows
  have hshape : RegionShape c.numGrid c.space.length ⟨0, d.x, d.y, d.v, []⟩ := by
    refine ⟨by rw [hng]; exact Nat.one_le_iff_ne_zero.2 hc.points, by simp [hd], by simp [hd], ?_, ?_, ?_⟩
    · intro m hm
      rw [hd] at hm
      obtain ⟨a, b⟩ := hsh.2 m hm
      exact ⟨by rw [a, hgl, hng], b⟩
    · intro r hr
      rw [hd] at hr
      obtain ⟨m, hm, rfl⟩ := List.mem_map.1 hr
      rw [List.length_map, (hsh.2 m hm).1, hgl, hng]
    · intro r hr
      rw [hd] at hr
      obtain ⟨m, hm, rfl⟩ := List.mem_map.1 hr
      rw [List.length_map, (hsh.2 m hm).1, hgl, hng]
  have hunit : UnitCurves (curves ⟨0, d.x, d.y, d.v, []⟩) := by
    intro cv hcv r hr e he
    have : cv.1 ∈ iceX [f] c.samples grid := by
      have := List.mem_map_of_mem (f := Prod.fst) hcv
      rw [hshape.map_x, hd] at this
      exact this
    obtain ⟨q, hq, h2⟩ := List.mem_map.1 this
    rw [← h2] at hr
    obtain ⟨t, ht, rfl⟩ := List.mem_map.1 hr
    rcases mem_assignRow he with h | h
    · obtain ⟨i, hi, rfl⟩ := List.getElem_of_mem ht
      have h3 := hgat i (by rw [← hgl]; exact hi)
      rw [List.getElem?_eq_getElem hi] at h3
      rw [Option.some.inj h3, List.mem_singleton] at h
      rw [h]
      exact gridValue_unit (by rw [← hgl]; exact hi)
    · exact hc.unit q hq e h
  obtain ⟨s', lines, hplot, -, hlines⟩ := C88_ice hgives hc.declared hsel (hc.valid.sel_mem hp (by rw [hsel]; simp)) hshape hunit color h0 h1 hax
  have hcl : (curves ⟨0, d.x, d.y, d.v, []⟩).length = c.samples.length := by rw [hshape.curves_length, hd]; exact hsh.1
  refine ⟨s', lines, hplot, by rw [← hlines.length_eq, hcl], fun k r hr => ?_⟩
  have hk1 : k < c.samples.length := (List.getElem?_eq_some_iff.1 hr).1
  have hk2 : k < (curves ⟨0, d.x, d.y, d.v, []⟩).length := by rw [hcl]; exact hk1
  have hk3 : k < lines.length := by rw [← hlines.length_eq]; exact hk2
  obtain ⟨xs, e1, e2⟩ := (List.forall₂_iff_get.1 hlines).2 k hk2 hk3
  have hx : ((curves ⟨0, d.x, d.y, d.v, []⟩).get ⟨k, hk2⟩).1 = grid.map fun t => assignRow [f] t r := by
    have h3 : ((curves ⟨0, d.x, d.y, d.v, []⟩).map Prod.fst)[k]? = some (grid.map fun t => assignRow [f] t r) := by
      rw [hshape.map_x, hd]
      simp [iceX, hr]
    rw [List.getElem?_map, List.getElem?_eq_getElem hk2] at h3
    exact Option.some.inj h3
  have hy : ((curves ⟨0, d.x, d.y, d.v, []⟩).get ⟨k, hk2⟩).2.1 = grid.map fun t => mu (assignRow [f] t r) := by
    have h3 : ((curves ⟨0, d.x, d.y, d.v, []⟩).map fun c => c.2.1)[k]? = some (grid.map fun t => mu (assignRow [f] t r)) := by
      rw [hshape.map_y, hd]
      simp [iceX, hr]
    rw [List.getElem?_map, List.getElem?_eq_getElem hk2] at h3
    exact Option.some.inj h3
  rw [hx] at e2
  rw [hy] at e1
  refine ⟨xs, _, by rw [List.getElem?_eq_getElem hk3]; exact congrArg some e1, by rw [← e2.length_eq, List.length_map, hgl],
    by rw [List.length_map, hgl], fun i hi => ⟨?_, ?_⟩⟩
  · refine natural_eq hk (fun f' hf' => ?_) e2 (by rw [List.length_map, hgl]; exact hi)
    have hff : f' = f := by
      have h3 := (C06_positions hc.valid.wf [hp] [f']).2 (.cons hf' .nil)
      rw [hsel, h3] at hidx
      exact (List.cons.inj (Except.ok.inj hidx)).1
    have hfl : f < r.length := by
      rw [hc.valid.rows r (List.mem_of_getElem? hr)]
      obtain ⟨h, h2, -⟩ := hf
      exact (List.getElem?_eq_some_iff.1 h2).1
    rw [hff]
    simp [at2, hgat i hi, assignRow, hfl]
  · rw [List.getElem?_map, hgat i hi]
    rfl

/-! ### C89 -/

theorem leafLoop_ok {cs : ConfigSpace ℝ} (hcs : AllDeclared cs) {hp : Hp ℝ} (hm : hp ∈ cs) {P : Nat} {alpha : ℝ} (h0 : 0 ≤ alpha) (h1 : alpha ≤ 1)
    {colors : List String} {ax' : Ax ℝ} (hax : checkAndSetAxis [hp] true "Prediction" ax' = (ax', .ok ())) (leaves : List (Node ℝ))
    (hl : ∀ n ∈ leaves, RegionShape P cs.length n ∧ UnitCurves (curves n)) : ∀ (i : Nat) (ss : List (Shape ℝ)), i + leaves.length = colors.length →
      ∃ groups : List (List (Shape ℝ)), leafLoop alpha cs [hp] P colors i leaves (ax'.draw ss) = (ax'.draw (ss ++ groups.flatten), .ok ()) ∧
        groups.length = leaves.length ∧ ∀ (j : Nat) leaf color, leaves[j]? = some leaf → colors[i + j]? = some color →
          ∃ g, groups[j]? = some g ∧ List.Forall₂ (LineOf cs hp color) (curves leaf) g := by
  induction leaves with
  | nil => intro i ss _; exact ⟨[], by simp [leafLoop], rfl, by simp⟩
  | cons leaf rest ih =>
    intro i ss hlen
    rw [List.length_cons] at hlen
    have hi : i < colors.length := by omega
    have hax2 : checkAndSetAxis [hp] true "Prediction" (ax'.draw ss) = (ax'.draw ss, .ok ()) := by rw [checkAndSetAxis_draw, hax]
    obtain ⟨hn, hu⟩ := hl leaf (by simp)
    obtain ⟨lines, hd, hf⟩ := C88_region hcs hm hn hu colors[i] h0 h1 hax2
    rw [Ax.draw_draw] at hd
    obtain ⟨groups, hg, hgl, hga⟩ := ih (fun n hn => hl n (by simp [hn])) (i + 1) (ss ++ lines) (by omega)
    refine ⟨lines :: groups, ?_, by simp [hgl], ?_⟩
    · unfold leafLoop
      rw [show pyGet colors i = .ok colors[i] by unfold pyGet; rw [List.getElem?_eq_getElem hi], Plot.lift_bind_ok, Plot.bind_ok hd, hg]
      simp
    · intro j leaf' color hj hc
      cases j with
      | zero =>
        rw [Nat.add_zero, List.getElem?_eq_getElem hi] at hc
        simp only [List.getElem?_cons_zero, Option.some.injEq] at hj hc
        subst hj hc
        exact ⟨lines, by simp, hf⟩
      | succ j =>
        obtain ⟨g, h1, h2⟩ := hga j leaf' color (by simpa using hj) (by rw [← hc]; congr 1; omega)
        exact ⟨g, by simpa using h1, h2⟩

/-- **C89** the plot of a partitioner shows, leaf by leaf, every curve of the leaf in the colour of the leaf. -/
theorem C89_leaves {p : DT ℝ} (hcs : AllDeclared p.cfg.space) {hp : Hp ℝ} (hsel : p.cfg.selected = [hp]) (hm : hp ∈ p.cfg.space)
    (hl : ∀ n ∈ p.leaves, RegionShape p.cfg.numGrid p.cfg.space.length n ∧ UnitCurves (curves n)) (hne : p.leaves ≠ []) {colors : List String}
    (hcol : colors.length = p.leaves.length) {alpha : ℝ} (h0 : 0 ≤ alpha) (h1 : alpha ≤ 1) {ax ax' : Ax ℝ}
    (hax : checkAndSetAxis [hp] true "Prediction" ax = (ax', .ok ())) :
    ∃ groups : List (List (Shape ℝ)), dtPlot colors alpha p ax = (ax'.draw groups.flatten, .ok ()) ∧ groups.length = p.leaves.length ∧
      ∀ (i : Nat) leaf color, p.leaves[i]? = some leaf → colors[i]? = some color →
        ∃ g, groups[i]? = some g ∧ List.Forall₂ (LineOf p.cfg.space hp color) (curves leaf) g := by
  obtain ⟨leaf, rest, hcons⟩ := List.exists_cons_of_ne_nil hne
  have hlen : 0 < p.leaves.length := List.length_pos_iff.2 hne
  have hidem := C71_repeat hax
  obtain ⟨groups, hg, hgl, hga⟩ := leafLoop_ok hcs hm h0 h1 (colors := colors) hidem p.leaves hl 0 [] (by omega)
  refine ⟨groups, ?_, hgl, fun i leaf color hi hc => hga i leaf color hi (by rw [Nat.zero_add]; exact hc)⟩
  unfold dtPlot
  rw [if_neg (by omega), if_neg (by omega), hsel]
  rw [Ax.draw_nil, List.nil_append] at hg
  rw [← hg, hcons]
  unfold leafLoop
  have hc0 : 0 < colors.length := by omega
  rw [show pyGet colors 0 = .ok colors[0] by unfold pyGet; rw [List.getElem?_eq_getElem hc0], Plot.lift_bind_ok, Plot.lift_bind_ok]
  have : regionPlot colors[0] alpha p.cfg.space [hp] p.cfg.numGrid leaf ax = regionPlot colors[0] alpha p.cfg.space [hp] p.cfg.numGrid leaf ax' := by
    unfold regionPlot
    rw [Plot.bind_ok hax, Plot.bind_ok hidem]
  rw [Plot.bind_apply, Plot.bind_apply, this]

/-- **C89** after a partition every curve of the root is shown exactly once. -/
theorem C89_partition {P : Nat} {p : DT ℝ} (hp : ValidDT P p) (hP : p.cfg.numGrid = P) (hcs : AllDeclared p.cfg.space) {q : Hp ℝ}
    (hsel : p.cfg.selected = [q]) (hm : q ∈ p.cfg.space) (hu : UnitCurves (curves p.root)) {d : Int} (hd : 0 < d) {alpha : ℝ} (h0 : 0 ≤ alpha)
    (h1 : alpha ≤ 1) {ax ax' : Ax ℝ} (hax : checkAndSetAxis [q] true "Prediction" ax = (ax', .ok ())) :
    ∃ leaves, (dtPartition p d).2 = .ok leaves ∧ ∀ colors : List String, colors.length = leaves.length →
      ∃ groups : List (List (Shape ℝ)), dtPlot colors alpha (dtPartition p d).1 ax = (ax'.draw groups.flatten, .ok ()) ∧
        groups.flatten.length = (curves p.root).length ∧ groups.length = leaves.length ∧
        ∀ (i : Nat) leaf color, leaves[i]? = some leaf → colors[i]? = some color →
          ∃ g, groups[i]? = some g ∧ List.Forall₂ (LineOf p.cfg.space q color) (curves leaf) g := by
  obtain ⟨leaves, e1, e2, e3, e4⟩ := C50_leaves_partition hp hd
  obtain ⟨leaves', f1, f2, -⟩ := C51_depth_and_count hp hd
  rw [e1] at f1
  obtain rfl := Except.ok.inj f1
  have hcfg : (dtPartition p d).1.cfg = p.cfg := by
    obtain ⟨L, hL, -⟩ := partition_eq hp hd
    rw [hL]
  refine ⟨leaves, e1, fun colors hcol => ?_⟩
  obtain ⟨groups, g1, g2, g3⟩ := C89_leaves (p := (dtPartition p d).1) (colors := colors) (by rw [hcfg]; exact hcs) (by rw [hcfg]; exact hsel)
    (by rw [hcfg]; exact hm) (by
      rw [e2, hcfg, hP]
      exact fun n hn => ⟨(e4 n hn).1, fun c hc => hu c ((e4 n hn).2.subset hc)⟩) (by rw [e2]; exact List.length_pos_iff.1 f2)
    (by rw [e2]; exact hcol) h0 h1 hax
  rw [hcfg, e2] at g3
  rw [e2] at g2
  refine ⟨groups, g1, ?_, g2, g3⟩
  have hlens : groups.map List.length = leaves.map fun n => (curves n).length := by
    refine List.ext_getElem (by simp [g2]) fun i hi hi' => ?_
    simp only [List.length_map] at hi hi'
    obtain ⟨g, hg, hf⟩ := g3 i leaves[i] colors[i] (List.getElem?_eq_getElem hi') (List.getElem?_eq_getElem (by omega))
    rw [List.getElem?_eq_getElem hi] at hg
    simp only [List.getElem_map, Option.some.inj hg, hf.length_eq]
  rw [List.length_flatten, hlens, ← e3.length_eq, List.length_flatMap]

/-- **C89** before the partition, or with a wrong number of colours, nothing is drawn: AssertionError. -/
theorem C89_refused {p : DT ℝ} {colors : List String} (h : p.leaves = [] ∨ colors.length ≠ p.leaves.length) (alpha : ℝ) (ax : Ax ℝ) :
    dtPlot colors alpha p ax = (ax, .error .assertion) := by
  unfold dtPlot
  by_cases h0 : p.leaves.length = 0
  · rw [if_pos h0]; rfl
  · rw [if_neg h0]
    rcases h with h | h
    · rw [h] at h0; exact absurd rfl h0
    · rw [if_pos h]; rfl

section examples
local instance transcFamilyPlots : Transc ℚ := ⟨id, id⟩

/-- two leaves, two curves each, over `x2` -/
example : (exDt.map fun p => (dtPlot ["red", "blue"] (1/10) (dtPartition p 1).1 Ax.new).1.shapes) =
    .ok [.line "red" [0, 1] [9/10, 29/10], .line "red" [0, 1] [8/10, 28/10], .line "blue" [0, 1] [1/10, 21/10], .line "blue" [0, 1] [2/10, 22/10]] := by
  decide +kernel

example : (exDt.map fun p => (dtPlot ["red"] (1/10) (dtPartition p 1).1 Ax.new).2) = .ok (.error .assertion) := by decide +kernel

example : (icePlot "red" (1/10) (iceInit (exIce false)) Ax.new).2.1.shapes =
    [.line "red" [0, 1] [1/4, 9/4], .line "red" [0, 1] [1/2, 5/2], .line "red" [] []] := by decide +kernel

end examples

end PyPDP
