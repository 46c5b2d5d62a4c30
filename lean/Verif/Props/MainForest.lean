/-
C104: one replication of examples/main_random_forest.py.
-/
import Verif.Model.MainForest
import Verif.Props.Main
import Verif.Props.ForestFilled
import Verif.Props.Tables

namespace PyPDP
open Spec

/-- what the generator may return for one tree: `size` indices of the `N` samples, a bit for each of the `m` splittable hyperparameters, one of them -/
structure DrawFor (N m : Nat) (size : Int) (w : ForestDraw) : Prop where
  size : w.indices.length = size.toNat
  range : ∀ i ∈ w.indices, i < N
  mask : w.mask.length = m
  choice : w.choice < m

/-- the average over grid points and rows of the standard deviation predicted -/
noncomputable def meanSd (space selected : List (Hp ℝ)) (sd : List ℝ → ℝ) (grid rows : List (List ℝ)) : ℝ :=
  (grid.map fun t => averageOver rows fun r => abs (sd (replaced space selected t r))).sum / grid.length

theorem ice_confidence {c : IceCfg ℝ} (hc : ValidCfg c) (hcen : c.centered = false) {mu sd : List ℝ → ℝ} (hmu : RowWise c.space.length c.predict mu sd)
    (hn : c.samples ≠ []) (hg : 1 ≤ c.perAxis) {grid : List (List ℝ)} (hgr : gridPoints c.selected.length c.perAxis = .ok grid) :
    iceMeanConfidence (iceInit c) = .ok (meanSd c.space c.selected sd grid c.samples) := by
  obtain ⟨idx, hidx, -⟩ := hc.idx
  obtain ⟨grid', hgr', hgl, hfull⟩ := C40_grid (K := ℝ) (List.length_pos_iff.2 hc.sel_ne) c.perAxis
  rw [hgr] at hgr'
  obtain rfl := Except.ok.inj hgr'
  obtain ⟨own, o1, o2, o3⟩ := calcNow_curves hc hcen hmu hn hg hidx hgr
  have o3' : curves (⟨0, own.x, own.y, own.v, []⟩ : Node ℝ) = c.samples.map (curveOf c.space c.selected mu sd grid) := by
    change dataCurves own = _
    rw [o3]
    exact List.map_congr_left fun r hr => curveAt_eq hc hidx (fun t ht => ((hfull.2 t).1 ht).1) mu sd hr
  obtain ⟨-, -, -, -, -, -, -, h⟩ := region_average (by rw [hgl]; exact o2) hn o3' c.space c.selected
  obtain ⟨i', hi⟩ := readAll_gives (.inr ⟨fresh_init c, o1⟩)
  unfold iceMeanConfidence
  rw [hi, Py.ok_bind]
  exact h

theorem ceil_half {n : Int} (h1 : 0 < n) (h2 : n ≤ 2) : ⌈(n : ℝ) / 2⌉ = 1 := by
  rw [Int.ceil_eq_iff]
  have a : (0 : ℝ) < n := by exact_mod_cast h1
  have b : (n : ℝ) ≤ 2 := by exact_mod_cast h2
  push_cast
  constructor <;> linarith

theorem half_votes (n : Int) (v : Nat) : ⌈(n : ℝ) / 2⌉ ≤ (v : Int) ↔ n ≤ 2 * v := by
  rw [Int.ceil_le, div_le_iff₀ two_pos]
  push_cast
  constructor
  · intro h
    have : (n : ℝ) ≤ ((2 * v : Int) : ℝ) := by push_cast; linarith
    exact_mod_cast this
  · intro h
    have : (n : ℝ) ≤ ((2 * v : Int) : ℝ) := by exact_mod_cast h
    push_cast at this
    linarith

open Classical in
/-- A line of the file, for `n` trees grown as the generator drew: the mean standard deviation over the samples that share the leaf of the incumbent
in at least half of the trees; nan if there are none. -/
def ForestLine (cs : ConfigSpace ℝ) (selected possible : List (Hp ℝ)) (mu sd : List ℝ → ℝ) (grid samples : List (List ℝ)) (points : Nat) (depth : Int)
    (ofVector : List ℝ → Config ℝ) (best : Config ℝ) (average : List (List ℝ) → ℝ) (q : Int × (Nat → ForestDraw)) (row : ForestRow) : Prop :=
  row.numTrees = q.1 ∧ row.base = average samples ∧
  ∃ (p : RF ℝ) (trees : List (DT ℝ)) (inside : List (List ℝ)), p.cfg.space = cs ∧ p.cfg.selected = selected ∧ p.possible = possible ∧
    (trees.length : Int) = q.1 ∧
    (∀ (k : Nat) t, trees[k]? = some t → IsForestTree p (samples.map (curveOf cs selected mu sd grid)) 100 1 points depth (q.2 k) t) ∧
    inside = samples.filter (fun r => decide (q.1 ≤ 2 * (votes trees (ofVector r) best : Int))) ∧ (inside = [] → 3 ≤ row.numTrees) ∧
    row.region = if inside = [] then .error .nan else .ok (average inside)

/-- the loop over the numbers of trees -/
theorem forestRows_ok {c : IceCfg ℝ} (hc : ValidCfg c) (hcen : c.centered = false) (hfloat : FloatSpace c.space) {mu sd : List ℝ → ℝ}
    (hmu : RowWise c.space.length c.predict mu sd) (hn : c.samples ≠ []) (hg : 1 ≤ c.perAxis) {grid : List (List ℝ)}
    (hgr : gridPoints c.selected.length c.perAxis = .ok grid) {size depth : Int} (hs : 0 < size) (hd : 0 < depth)
    {ofVector : List ℝ → Config ℝ} (hof : ∀ r ∈ c.samples, ConfigOf c.space r (ofVector r)) {best : Config ℝ} {possible : List (Hp ℝ)}
    (hinc : HasNumbers possible best) {calls : List (Int × (Nat → ForestDraw))}
    (hcalls : ∀ q ∈ calls, 0 < q.1 ∧ ∀ k : Nat, (k : Int) < q.1 → DrawFor c.samples.length possible.length size (q.2 k)) :
    ∀ p : RF ℝ, ValidRF p → p.cfg = c → p.possible = possible → p.ice = some (iceInit c) →
      ∃ rows, forestRows ofVector best (iceInit c) depth size p calls = .ok rows ∧
        List.Forall₂ (ForestLine c.space c.selected possible mu sd grid c.samples (c.perAxis ^ c.selected.length) depth ofVector best
          (meanSd c.space c.selected sd grid)) calls rows := by
  classical
  induction calls with
  | nil => intro p _ _ _ _; exact ⟨[], rfl, .nil⟩
  | cons q rest ih =>
    intro p hp hcfg hposs hice
    obtain ⟨n, draw⟩ := q
    obtain ⟨hn0, hdraw⟩ := hcalls (n, draw) (by simp)
    dsimp only at hn0 hdraw
    obtain ⟨trees, i, R, h1, -, h2, h3, hlen, h4, h5, h6, h7, h8⟩ := forest_call hp (by rw [hcfg]; exact hfloat) (fun i own hi ho => by
        rw [hice] at hi
        obtain rfl := Option.some.inj hi
        rw [hcfg] at ho
        exact .inr ⟨fresh_init c, ho⟩) (by rw [hcfg]; exact hmu) (by rw [hcfg]; exact hn) (by rw [hcfg]; exact hg) hn0 hd hs (draw := draw)
      (fun k hk => by
        obtain ⟨a1, a2, a3, a4⟩ := hdraw k hk
        exact ⟨a1, by rw [hcfg]; exact a2, by rw [hposs]; exact a3, by rw [hposs]; exact a4⟩)
      (by rw [hcfg]; exact hof) (by rw [hposs]; exact hinc) ⌈(n : ℝ) / 2⌉ (by rw [hcfg]; exact hgr)
    obtain rfl := h2 _ hice
    rw [hcfg] at h5 h6 h7 h8
    simp only [half_votes] at h6
    obtain ⟨rows, k1, k2⟩ := ih (fun q hq => hcalls q (by simp [hq])) _ h3 hcfg hposs rfl
    obtain ⟨inside, hins⟩ : ∃ l, l = c.samples.filter fun r => decide (n ≤ 2 * (votes trees (ofVector r) best : Int)) := ⟨_, rfl⟩
    rw [← hins] at h6
    refine ⟨⟨n, meanSd c.space c.selected sd grid c.samples, meanConfidence R⟩ :: rows, ?_, .cons ?_ k2⟩
    · unfold forestRows
      rw [h1]
      dsimp only
      rw [h4, Py.ok_bind, ice_confidence hc hcen hmu hn hg hgr, Py.ok_bind, k1, Py.ok_bind]
      rfl
    · refine ⟨rfl, rfl, p, trees, inside, by rw [hcfg], by rw [hcfg], hposs, hlen, h8, hins, ?_, ?_⟩
      · intro he
        by_contra hlt
        rw [ceil_half hn0 (by dsimp only at hlt; omega)] at h7
        obtain ⟨r, hr, hv⟩ := h7 (by simpa using hn0)
        have : r ∈ inside := by
          rw [hins]
          refine List.mem_filter.2 ⟨hr, decide_eq_true ?_⟩
          dsimp only at hlt
          omega
        rw [he] at this
        cases this
      · dsimp only
        by_cases he : inside = []
        · rw [if_pos he]
          rw [he] at h6
          refine C82_empty ?_
          have := h5.curves_length
          rw [h6] at this
          have hv : R.v.length = 0 := by rw [← h5.yv, ← h5.xy, ← this]; rfl
          exact List.eq_nil_of_length_eq_zero hv
        · rw [if_neg he]
          exact (region_average h5 he h6 c.space c.selected).choose_spec.2.2.2.2.2.2

/-- **C104** One replication of examples/main_random_forest.py runs through in every dimension `d ≥ 2`, for every selected axis, all sizes and
numbers of trees and whatever is drawn: `n` points of the function are evaluated, the incumbent is the best of them. The file gets one line for
each number of trees, with the same positive base confidence, at most the standard deviation of the evaluated values. The confidence of
a region is positive and at most this standard deviation too, and its relative change against the base is below 1 - unless no sample
is in enough incumbent leaves: then it is nan, which cannot happen with one or two trees. The comparison with the decision tree is always a
number. -/
theorem C104_forest_script {S : Type} {i : MainInput S} {d : Nat} (hd : 2 ≤ d) {f : BlackboxFn ℝ}
    (hf : forNDimensions i.order (-5) 5 false styblinskiTangValue (d : ℝ) none none = .ok f) (hi : i.Good f.cs) {drawn : List (Config ℝ)}
    (hdr : i.iceDraws = .many drawn) {k : Nat} (hk1 : 1 ≤ k) (hk2 : k ≤ d)
    (kind : AcqKind) {initial n nCandidates : Int} (hini : 1 ≤ initial) (hn1 : 1 ≤ n) (hn : 2 ≤ nCandidates) {perAxis : Nat} (hg : 1 ≤ perAxis)
    {size depth : Int} (hs : 0 < size) (hdep : 0 < depth) {ofVector : List ℝ → Config ℝ} (hof : ∀ c ∈ drawn, ConfigOf f.cs c.vector (ofVector c.vector))
    {calls : List (Int × (Nat → ForestDraw))}
    (hcalls : ∀ q ∈ calls, 0 < q.1 ∧ ∀ k : Nat, (k : Int) < q.1 → DrawFor drawn.length (d - 1) size (q.2 k)) :
    ∃ res : ForestResult S, forestScript i ofVector calls d ("x" ++ toString k) kind initial n nCandidates perAxis size depth = .ok res ∧
      (res.sampler.configs.length = n.toNat ∧
        (∀ (j : Nat) c y, res.sampler.configs[j]? = some c → res.sampler.ys[j]? = some y → f.value c = .ok y) ∧
        ∃ (j : Nat) (v : ℝ), res.sampler.configs[j]? = some res.incumbent ∧ res.sampler.ys[j]? = some v ∧ ∀ y ∈ res.sampler.ys, v ≤ y) ∧
      (0 < res.dtBase ∧ res.dtBase ≤ spread res.sampler.ys) ∧ (0 < res.dtRegion ∧ res.dtRegion ≤ spread res.sampler.ys) ∧
      -- the numbers are means of the standard deviations that a Gaussian process fitted to the evaluated points predicts
      (∃ (hp : Hp ℝ) (e : Nat) (gp : GpSurrogate) (mu sd : List ℝ → ℝ) (conds : List (Cond ℝ)), hp.name = "x" ++ toString k ∧ f.cs[e]? = some hp ∧
        GpSurrogate.new.fit i.choose (res.sampler.configs.map Config.vector) res.sampler.ys = (gp, .ok ()) ∧ RowWise d gp.predict mu sd ∧
        res.dtBase = (pdpMeans (drawn.map Config.vector) sd e perAxis).sum / perAxis ∧
        containsAll f.cs conds res.incumbent = .ok true ∧
        (10 ≤ (samplesIn f.cs conds drawn).length ∨ samplesIn f.cs conds drawn = drawn.map Config.vector) ∧
        res.dtRegion = (pdpMeans (samplesIn f.cs conds drawn) sd e perAxis).sum / perAxis ∧
        List.Forall₂ (ForestLine f.cs [hp] (f.cs.filter fun h => decide (h.name ≠ hp.name)) mu sd ((linspace 0 1 perAxis).map fun t => [t])
          (drawn.map Config.vector) perAxis depth ofVector res.incumbent fun rows => (pdpMeans rows sd e perAxis).sum / perAxis) calls res.rows) ∧
      res.rows.map ForestRow.numTrees = calls.map Prod.fst ∧
      ∀ row ∈ res.rows, row.base = res.dtBase ∧
        ((row.region = .error .nan ∧ 3 ≤ row.numTrees) ∨
          ∃ m δ, row.region = .ok m ∧ 0 < m ∧ m ≤ spread res.sampler.ys ∧ calculateLogDelta m row.base = .ok δ ∧ δ < 1 ∧ (0 < δ ↔ m < row.base)) := by
  obtain ⟨cs, h1, hst, hnames⟩ := stSpace_ok hi.order d
  rw [hf] at h1
  have hfe : f = ⟨cs, styblinskiTangValue cs⟩ := Except.ok.inj h1
  have hcs : f.cs = cs := by rw [hfe]
  rw [hcs] at hi hof
  obtain ⟨hp, hh, hname⟩ := hnames k hk1 hk2
  have hget : cs.get ("x" ++ toString k) = .ok hp := by rw [← hname]; exact ConfigSpace.get_of_mem hst.wf hh
  obtain ⟨env, s, henv, hsamp, hlen, hdrawn, hyl, hvals⟩ := main_sampler (by omega) hst hi kind hn hini hn1
  have hne : s.configs ≠ [] := by
    intro h; rw [h] at hlen; simp at hlen; omega
  have hdata : TrainingData cs.length (s.configs.map Config.vector) s.ys :=
    configs_data (by rw [hst.len]; omega) hne (fun c hc => (hdrawn c hc).1) hyl
  obtain ⟨gp, hfit, -, mu, sd, hrow, hsd0, hsd⟩ := C99_unit hi.kernel hdata
  obtain ⟨l, hl, hlne, hld⟩ := hi.ice
  rw [hdr] at hl
  obtain rfl : drawn = l := by injection hl
  obtain ⟨samples, hsm⟩ : ∃ x, x = drawn.map Config.vector := ⟨_, rfl⟩
  have hsne : samples ≠ [] := by rw [hsm]; simpa using hlne
  have hrows : ∀ r ∈ samples, r.length = cs.length := by
    intro r hr
    rw [hsm] at hr
    obtain ⟨c, hc, rfl⟩ := List.mem_map.1 hr
    exact (hld c hc).1
  have hof' : ∀ r ∈ samples, ConfigOf cs r (ofVector r) := by
    intro r hr
    rw [hsm] at hr
    obtain ⟨c, hc, rfl⟩ := List.mem_map.1 hr
    exact hof c hc
  have hconf : ∀ r, ∃ c : Config ℝ, r ∈ samples → c ∈ drawn ∧ c.vector = r := by
    intro r
    by_cases hr : r ∈ samples
    · have hr' := hr
      rw [hsm] at hr'
      obtain ⟨c, hc, rfl⟩ := List.mem_map.1 hr'
      exact ⟨c, fun _ => ⟨hc, rfl⟩⟩
    · exact ⟨⟨[], []⟩, fun h => absurd h hr⟩
  choose config hconfig using hconf
  obtain ⟨j, best, v, hinc, hj, hjv, hbest⟩ := incumbent_best hyl hne
  have hbd := hdrawn best (List.mem_of_getElem? hj)
  have hsel : convertHyperparameters (.name ("x" ++ toString k)) cs = .ok [hp] := by
    generalize "x" ++ toString k = nm at hget
    simp [convertHyperparameters, resolveItem, hget]
  obtain ⟨c, pdp, curve, tree, tree', leaves, region, k1, k2, k3, k4, k5, k6, grid, box, part, inside, ⟨g1, g2, g3, g4, g5, g6⟩, -, gl, -, -, -, -, -,
    q6, -, -, -, q9, q10, q11, -, -, q14, q15⟩ :=
    workflow_curves hst.wf hst.float hrow hsel (by simpa using hh) (by simp) (by simp) hrows hsne hg 100 (minPoints := 10) (by norm_num) hdep
      (hbd.within hst) (config := config) (fun r hr => by
        obtain ⟨a, b⟩ := hconfig r hr
        have := (hld _ a).2.2.2
        rwa [b] at this)
  have hc : c = ⟨cs, [hp], samples, samples.length, perAxis, perAxis ^ [hp].length, false, gp.predict⟩ := by
    unfold algorithmInit at k1
    rw [hsel] at k1
    exact (Except.ok.inj k1).symm
  have hv : ValidCfg c := by rw [hc]; exact ⟨hst.wf, by simpa using hh, by simp, by simp, hrows, rfl, rfl⟩
  obtain ⟨p, p1, p2, p3, -, -, -⟩ := C66_from_ice (i := iceInit c) hv
  have hpc : p.cfg = c := by
    unfold rfFromIce rfInit at p1
    rw [algorithmInit_self (c := (iceInit c).cfg) hv.num_samples hv.num_grid] at p1
    simp only [Py.ok_bind] at p1
    rw [← Except.ok.inj p1]
    change { c with centered := false } = c
    rw [hc]
  have hposs : p.possible = cs.filter fun h => decide (h.name ≠ hp.name) := by
    rw [p2.possible, hpc, hc]
    refine List.filter_congr fun h _ => ?_
    simp
  have hpl : p.possible.length = d - 1 := by
    have := (filter_name hst.wf hh).2
    rw [hst.len] at this
    rw [hposs]; omega
  have hgr : gridPoints c.selected.length c.perAxis = .ok grid := by rw [hc]; exact g1
  obtain ⟨rows, r1, r2⟩ := forestRows_ok hv (by rw [hc]) (by rw [hc]; exact hst.float) (mu := mu) (sd := sd) (by rw [hc]; exact hrow) (by rw [hc]; exact hsne)
    (by rw [hc]; exact hg) hgr hs hdep (ofVector := ofVector) (by rw [hc]; exact hof') (best := best) (possible := p.possible) (by
      intro h hm
      rw [hposs] at hm
      obtain ⟨x, -, -, -, -, hx, -⟩ := hbd.within hst h (List.mem_of_mem_filter hm)
      exact ⟨x, hx⟩) (calls := calls) (by
      intro q hq
      rw [hpl, show c.samples.length = drawn.length by rw [hc, hsm, List.length_map]]
      exact hcalls q hq) p p2 hpc rfl p3
  have hbase := ice_confidence hv (by rw [hc]) (mu := mu) (sd := sd) (by rw [hc]; exact hrow) (by rw [hc]; exact hsne) (by rw [hc]; exact hg) hgr
  have hgne : grid ≠ [] := by
    intro h0
    rw [h0] at gl
    exact absurd gl.symm (pow_ne_zero _ (by omega))
  have hbound : ∀ rows : List (List ℝ), rows ≠ [] → (∀ r ∈ rows, r ∈ samples) →
      0 < meanSd c.space c.selected sd grid rows ∧ meanSd c.space c.selected sd grid rows ≤ spread s.ys := by
    intro rows hr hsub
    refine mean_grid_bounds hgne hr fun t _ r hr' => ?_
    have := hsd (replaced c.space c.selected t r) (by rw [hc]; exact replaced_length (hrows r (hsub r hr')))
    rw [abs_of_pos this.1]
    exact ⟨this.1, this.2.1⟩
  have hsub : ∀ r ∈ inside, r ∈ samples := by
    intro r hr; rw [q9] at hr; exact List.mem_of_mem_filter hr
  have hsam : c.samples = samples := by rw [hc]
  rw [hsam] at hbase r2
  have hb := hbound samples hsne fun _ h => h
  refine ⟨⟨cs, s, best, rows, meanSd c.space c.selected sd grid samples, meanSd c.space c.selected sd grid inside⟩, ?_,
    ⟨hlen, by rw [hfe]; exact hvals, j, v, hj, hjv, hbest⟩, hb, hbound inside q10 hsub, ?_, ?_, fun row hrow => ?_⟩
  · unfold forestScript
    rw [hf, Py.ok_bind, hcs, henv, Py.ok_bind]
    dsimp only
    rw [hfe, hsamp]
    dsimp only
    rw [hfit]
    dsimp only
    rw [hdr, samplesOf, Py.ok_bind, ← hsm, k1, Py.ok_bind, p1, Py.ok_bind, hinc, Py.ok_bind]
    dsimp only
    rw [r1, Py.ok_bind, k4, Py.ok_bind, k5]
    dsimp only
    rw [k6, Py.ok_bind]
    dsimp only
    rw [hbase, Py.ok_bind, q15, Py.ok_bind]
    rw [hc]
    rfl
  · obtain ⟨e, he⟩ := List.mem_iff_getElem?.1 hh
    have hgrid : grid = (linspace 0 1 perAxis).map fun t => [t] := by
      rw [List.length_singleton, gridPoints_one] at g1
      exact (Except.ok.inj g1).symm
    have hav : ∀ rows : List (List ℝ), (∀ r ∈ rows, r ∈ samples) → meanSd c.space c.selected sd grid rows = (pdpMeans rows sd e perAxis).sum / perAxis := by
      intro rows hr
      rw [hc]
      exact mean_pdpMeans hst.wf he hgrid (fun r h => hrows r (hr r h)) fun r h => (hsd r h).1
    have hins : inside = samplesIn cs region.conds drawn := by
      rw [q9, hsm]; exact samplesIn_eq hst hld (by rw [← hsm]; exact hconfig) _
    refine ⟨hp, e, gp, mu, sd, region.conds, hname, by rw [hcs]; exact he, hfit, hst.len ▸ hrow, ?_, by rw [hcs]; exact q6, ?_, ?_, ?_⟩
    · rw [← hsm]; exact hav samples fun _ h => h
    · rw [hcs, ← hins, ← hsm]; exact q11
    · rw [hcs, ← hins]; exact hav inside hsub
    · rw [hcs, ← hsm]
      refine r2.imp fun q row hq => ?_
      obtain ⟨w1, w2, p', trees, ins, w3, w4, w5, w6, w7, w8, w9, w10⟩ := hq
      refine ⟨w1, w2.trans (hav _ fun _ h => h), p', trees, ins, w3.trans (by rw [hc]), w4.trans (by rw [hc]), w5.trans hposs, w6, fun k t hk => ?_, w8, w9, ?_⟩
      · have := w7 k t hk
        rw [hc, hgrid] at this
        simpa using this
      · rw [w10, hav ins fun r hr => by rw [w8] at hr; exact List.mem_of_mem_filter hr]
  · have : ∀ {l : List (Int × (Nat → ForestDraw))} {rows : List ForestRow} {R : Int × (Nat → ForestDraw) → ForestRow → Prop}, (∀ q row, R q row → row.numTrees = q.1) →
        List.Forall₂ R l rows → rows.map ForestRow.numTrees = l.map Prod.fst := by
      intro l rows R hR h
      induction h with
      | nil => rfl
      | cons h _ ih => rw [List.map_cons, List.map_cons, ih, hR _ _ h]
    exact this (fun q row h => h.1) r2
  · obtain ⟨q, -, -, e1, p', trees, ins, -, -, -, -, -, e2', e3, e4⟩ := forall₂_mem_right r2 hrow
    have e2 : ∀ r ∈ ins, r ∈ samples := fun r hr => by rw [e2'] at hr; exact List.mem_of_mem_filter hr
    refine ⟨e1, ?_⟩
    by_cases he : ins = []
    · left
      rw [if_pos he] at e4
      exact ⟨e4, e3 he⟩
    · right
      rw [if_neg he] at e4
      obtain ⟨b1, b2⟩ := hbound ins he e2
      obtain ⟨b, hb'⟩ : ∃ b, b = row.base := ⟨_, rfl⟩
      rw [← hb']
      have hb0 : 0 < b := by rw [hb', e1]; exact hb.1
      refine ⟨_, (b - meanSd c.space c.selected sd grid ins) / b, e4, b1, b2, ?_, ?_, ?_⟩
      · rw [calculateLogDelta, if_neg hb0.ne', abs_of_pos hb0]
      · rw [div_lt_one hb0]; linarith
      · rw [div_pos_iff_of_pos_right hb0, sub_pos]

/-- the hypotheses hold for the numbers of the script, with a generator that always draws the middle of the space and the first sample -/
example : ∃ (i : MainInput Unit) (ofVector : List ℝ → Config ℝ) (res : ForestResult Unit),
    forestScript i ofVector ([1, 5, 10, 15, 20, 30, 40, 50, 60, 80, 100].map fun n => (n, fun _ => ⟨List.replicate 200 0, [true, false, true, false], 2⟩))
      5 "x1" (.lcb 1) 20 170 100 20 200 3 = .ok res ∧ res.rows.length = 11 ∧ res.sampler.configs.length = 170 ∧ 0 < res.dtRegion := by
  obtain ⟨cs, hf, hs, -⟩ := stSpace_ok (order := id) (fun l => List.Perm.refl l) 5
  obtain ⟨dr, hdr⟩ : ∃ dr : Drawer (Config ℝ) Unit, dr = ⟨fun _ n => (List.replicate n (midConfig cs), ()), by simp⟩ := ⟨_, rfl⟩
  have hdrawn : ∀ s n, ∀ c ∈ (dr.draw s n).1, DrawnFrom cs c := by
    intro s n c hc
    rw [hdr] at hc
    rw [List.eq_of_mem_replicate hc]
    exact midConfig_drawn hs
  obtain ⟨res, h1, h2, -, h3, -, h4, -⟩ := C104_forest_script (S := Unit) (d := 5)
    (i := ⟨id, fun _ _ => matern 1, fun _ _ => 0, dr, dr, (), fun _ => .error .value, .absent, .many (List.replicate 1000 (midConfig cs))⟩)
    (by norm_num) hf ⟨fun l => List.Perm.refl l, fun _ _ => matern_unit one_pos _, hdrawn, hdrawn, by simp [loadCache],
      ⟨_, rfl, List.ne_nil_of_length_pos (by rw [List.length_replicate]; norm_num), fun c hc => by rw [List.eq_of_mem_replicate hc]; exact midConfig_drawn hs⟩⟩
    rfl (k := 1) le_rfl (by norm_num) (.lcb 1) (initial := 20) (n := 170) (by norm_num) (by norm_num)
    (nCandidates := 100) (by norm_num) (perAxis := 20) (by norm_num) (size := 200) (depth := 3) (by norm_num) (by norm_num) (ofVector := fun _ => midConfig cs)
    (fun c hc => by rw [List.eq_of_mem_replicate hc]; exact (midConfig_drawn hs).2.2.2)
    (calls := [1, 5, 10, 15, 20, 30, 40, 50, 60, 80, 100].map fun n => (n, fun _ => ⟨List.replicate 200 0, [true, false, true, false], 2⟩)) (by
      intro q hq
      obtain ⟨n, hn, rfl⟩ := List.mem_map.1 hq
      refine ⟨?_, fun k _ => ⟨by rw [List.length_replicate]; rfl, fun j hj => ?_, rfl, by norm_num⟩⟩
      · simp only [List.mem_cons, List.not_mem_nil, or_false] at hn
        dsimp only
        omega
      · rw [List.eq_of_mem_replicate hj, List.length_replicate]; norm_num)
  refine ⟨_, _, res, h1, ?_, h2.1, h3.1⟩
  have := congrArg List.length h4
  simpa using this

end PyPDP
