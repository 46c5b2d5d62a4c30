/-
C105: one replication of `figure_6_table_1_data_generation` in examples/main_paper.py.
-/
import Verif.Model.MainPaper
import Verif.Props.Main
import Verif.Props.MMD

namespace PyPDP
open Spec

/-- the axes of a box except that of `hp` -/
noncomputable def boxAxes (box : ConfigSpace ℝ) (hp : Hp ℝ) : List Axis := (box.filter fun h => decide (h.name ≠ hp.name)).filterMap axisOf

/-- the loop over the numbers of splits, if every pass succeeds -/
theorem paperRows_ok {β : Type} (inv : Hp ℝ → Val ℝ → ℝ) (order : SpaceOrder ℝ) {cfg : Config ℝ} {b : β} {q : DT ℝ} {Row : PaperRow → Prop} {splits : List Int}
    (hstep : ∀ k ∈ splits, ∀ L0, ∃ L region mc implied nll, dtPartition { q with leaves := L0 } k = ({ q with leaves := L }, .ok L) ∧
      dtIncumbentRegion { q with leaves := L } cfg = .ok (some region) ∧ meanConfidence region = .ok mc ∧ regionImplied q.cfg.space region.conds = .ok implied ∧
      negativeLogLikelihood inv q.cfg.space q.cfg.selected region (trueStyblinskiTang order implied) = .ok nll ∧ Row ⟨k, region, implied, mc, nll⟩) :
    ∀ L0, ∃ rows, paperRows inv order (.ok (some cfg, b)) { q with leaves := L0 } splits = .ok rows ∧ rows.map PaperRow.splits = splits ∧ ∀ row ∈ rows, Row row := by
  induction splits with
  | nil => exact fun L0 => ⟨[], rfl, rfl, by simp⟩
  | cons k ks ih =>
    intro L0
    obtain ⟨L, region, mc, implied, nll, h1, h2, h3, h4, h5, h6⟩ := hstep k (by simp) L0
    obtain ⟨rows, r1, r2, r3⟩ := ih (fun k hk => hstep k (by simp [hk])) L
    refine ⟨⟨k, region, implied, mc, nll⟩ :: rows, ?_, by rw [List.map_cons, r2], ?_⟩
    · unfold paperRows
      rw [h1]
      dsimp only
      rw [Py.ok_bind]
      dsimp only
      rw [h2, Py.ok_bind]
      dsimp only
      rw [h3, Py.ok_bind, h4, Py.ok_bind, h5, Py.ok_bind, r1, Py.ok_bind]
      rfl
    · intro row hrow
      rcases List.mem_cons.1 hrow with rfl | hrow
      · exact h6
      · exact r3 row hrow

theorem dtPartition_congr {K : Type} [Field K] [LinearOrder K] [Transc K] {p q : DT K} (h1 : p.cfg = q.cfg) (h2 : p.possible = q.possible)
    (h3 : p.numSplits = q.numSplits) (h4 : p.minPoints = q.minPoints) (h5 : p.root = q.root) (d : Int) :
    (dtPartition p d).2 = (dtPartition q d).2 ∧ (0 < d → (dtPartition p d).1.leaves = (dtPartition q d).1.leaves) := by
  unfold dtPartition
  rw [h1, h2, h3, h4, h5]
  split
  · split <;> simp
  · exact ⟨rfl, fun h => absurd h ‹_›⟩

theorem firstContaining_mem {K : Type} [Field K] [LinearOrder K] [Transc K] {cs : ConfigSpace K} {cfg : Config K} {L : List (Node K)} {m : Node K}
    (h : firstContaining cs cfg L = .ok (some m)) : m ∈ L := by
  induction L with
  | nil => cases h
  | cons a as ih =>
    unfold firstContaining at h
    obtain ⟨b, -, h⟩ := Py.bind_eq_ok.1 h
    split at h
    · rw [← Option.some.inj (Except.ok.inj h)]; simp
    · exact List.mem_cons_of_mem _ (ih h)

/-- the values of the function on a box and on the whole space: only the names count -/
theorem st_box {cs box : ConfigSpace ℝ} (h : box.map Hp.name = cs.map Hp.name) {ρ : Assignment} {v : ℝ}
    (hv : styblinskiTangValue box (assignConfig box ρ) = .ok v) : styblinskiTangValue cs (assignConfig cs ρ) = .ok v := by
  rw [st_value ρ fun _ h => h] at hv ⊢
  rw [← hv]
  have : ∀ l : ConfigSpace ℝ, (l.map fun hp => stTerm (ρ hp.name)) = (l.map Hp.name).map fun m => stTerm (ρ m) := by
    intro l; rw [List.map_map]; rfl
  rw [this, this, h]

theorem boxAxes_spec {box : ConfigSpace ℝ} {hp : Hp ℝ} (h : ∀ q ∈ box, ∃ l u, q.kind = .float l u false ∧ l < u) :
    List.Forall₂ (fun (h : Hp ℝ) (a : Axis) => h.name = a.name ∧
      ((∃ log, h.kind = .float a.lower a.upper log) ∨ ∃ log, h.kind = .integer a.lower a.upper log)) (box.filter fun h => decide (h.name ≠ hp.name)) (boxAxes box hp) ∧
      ∀ a ∈ boxAxes box hp, a.lower < a.upper := by
  have h' : ∀ q ∈ box.filter fun h => decide (h.name ≠ hp.name), ∃ l u, q.kind = .float l u false ∧ l < u := fun q hq => h q (List.mem_of_mem_filter hq)
  unfold boxAxes
  generalize (box.filter fun h => decide (h.name ≠ hp.name)) = l at h'
  induction l with
  | nil => simp
  | cons q qs ih =>
    obtain ⟨i1, i2⟩ := ih fun q hq => h' q (by simp [hq])
    obtain ⟨lo, up, hk, hlt⟩ := h' q (by simp)
    have : axisOf q = some ⟨q.name, lo, up⟩ := by simp [axisOf, Hp.numerical?, hk]
    rw [List.filterMap_cons_some this]
    refine ⟨.cons ⟨rfl, .inl ⟨_, hk⟩⟩ i1, fun a ha => ?_⟩
    rcases List.mem_cons.1 ha with rfl | ha
    · exact hlt
    · exact i2 a ha

/-- the PDP and the confidence of a region with the curves of the sample rows `rows`, for a surrogate with standard deviations in `(0, b]` -/
theorem region_facts {cs : ConfigSpace ℝ} {hp : Hp ℝ} {P : Nat} (hP : 1 ≤ P) {n : Node ℝ} {mu sd : List ℝ → ℝ} {grid : List (List ℝ)}
    (hgrid : grid = (linspace 0 1 P).map fun t => [t]) (hn : RegionShape grid.length cs.length n) {rows : List (List ℝ)} (hne : rows ≠ [])
    (hrows : ∀ r ∈ rows, r.length = cs.length) {b : ℝ} (hsd : ∀ r, r.length = cs.length → 0 < sd r ∧ sd r ≤ b)
    (hc : curves n = rows.map (curveOf cs [hp] mu sd grid)) :
    n.y.length = rows.length ∧ ∃ part mc, regionPdp cs [hp] n = .ok part ∧ part.y.length = P ∧ part.v.length = P ∧ (∀ v ∈ part.v, 0 < v) ∧
      meanConfidence n = .ok mc ∧ (0 < mc ∧ mc ≤ b) ∧
      (∀ φ, gaussLoss P (fun p => averageOver rows fun r => mu (replaced cs [hp] [gridFraction P p] r))
          (fun p => averageOver rows fun r => sd (replaced cs [hp] [gridFraction P p] r) ^ 2) φ =
        gaussLoss P (fun p => part.y.getD p 0) (fun p => part.v.getD p 0) φ) ∧
      ∀ e, cs.WF → cs[e]? = some hp → part.y = pdpMeans rows mu e P ∧ part.v = pdpMeans rows (fun r => sd r ^ 2) e P ∧ mc = (pdpMeans rows sd e P).sum / P := by
  have hgl : grid.length = P := by rw [hgrid, List.length_map, linspace_length]
  have hg0 : grid ≠ [] := by
    intro h; rw [h] at hgl; simp at hgl; omega
  have hbound : ∀ t ∈ grid, ∀ r ∈ rows, 0 < abs (sd (replaced cs [hp] t r)) ∧ abs (sd (replaced cs [hp] t r)) ≤ b := by
    intro t _ r hr
    have := hsd (replaced cs [hp] t r) (by rw [replaced_length (hrows r hr)])
    rw [abs_of_pos this.1]
    exact this
  obtain ⟨part, p1, -, -, p2, p3, p4, p5⟩ := region_average hn hne hc cs [hp]
  refine ⟨?_, part, _, p1, by rw [p2, hgl], by rw [p3, hgl], fun v hv => ?_, p5, mean_grid_bounds hg0 hne hbound, fun φ => ?_, fun e hwf he => ⟨?_, ?_, ?_⟩⟩
  · have := congrArg List.length hc
    rw [hn.curves_length, List.length_map] at this
    rw [← this]; exact hn.xy.symm
  · obtain ⟨j, hj, rfl⟩ := List.getElem_of_mem hv
    have hjg : j < grid.length := by omega
    have := (p4 j _ (List.getElem?_eq_getElem hjg)).2
    rw [List.getElem?_eq_getElem hj] at this
    rw [Option.some.inj this]
    refine averageOver_pos hne fun r hr => ?_
    rw [← sq_abs]
    exact pow_pos (hbound _ (List.getElem_mem hjg) r hr).1 2
  · unfold gaussLoss
    congr 2
    refine Finset.sum_congr rfl fun p hp' => ?_
    have : grid[p]? = some [gridFraction P p] := by
      rw [hgrid, List.getElem?_map, (linspace_fraction (Finset.mem_range.1 hp')).1]; rfl
    obtain ⟨e1, e2⟩ := p4 p _ this
    simp only [List.getD_eq_getElem?_getD, e1, e2, Option.getD_some]
  · exact eq_pdpMeans hwf he hgrid hrows (by rw [p2, hgl]) fun p t ht => (p4 p t ht).1
  · exact eq_pdpMeans hwf he hgrid hrows (by rw [p3, hgl]) fun p t ht => (p4 p t ht).2
  · exact mean_pdpMeans hwf he hgrid hrows fun r hr => (hsd r hr).1

/-- **C105** One replication of the table of the paper runs through in every dimension `d ≥ 2`, for every selected axis, all numbers of splits and
whatever is drawn. `n + 4 d` points of the function are evaluated. The discrepancy is a number between 0 and `√2` unless all points
coincide. The base likelihood compares the PDP with the exact partial dependence over `[-5, 5]^d`. There is one line for every number of splits; its
region contains the incumbent; its implied space is a proper box inside `[-5, 5]^d` that contains the incumbent and is full on the
selected axis; the likelihood compares the PDP of the region (with positive variances) with the exact average of the function over this box; the
confidence is positive and at most the standard deviation of the evaluated values. PDP and confidences are means of the predictions of a Gaussian process fitted to exactly the
evaluated points: at every grid point over all random samples, or over those of them that are in the region. -/
theorem C105_paper {S : Type} {i : MainInput S} {d : Nat} (hd : 2 ≤ d) {f : BlackboxFn ℝ}
    (hf : forNDimensions i.order (-5) 5 false styblinskiTangValue (d : ℝ) none none = .ok f) (hi : i.Good f.cs) {k : Nat} (hk1 : 1 ≤ k) (hk2 : k ≤ d)
    (kind : AcqKind) {n nCandidates : Int} (hn0 : 0 ≤ n) (hn : 2 ≤ nCandidates) {perAxis : Nat} (hg : 1 ≤ perAxis) (numSplits : Nat) {minPoints : Nat}
    (hm : 1 ≤ minPoints) {uniform : Int → List (Config ℝ)} (hun : ∀ m, (uniform m).length = m.toNat ∧ ∀ c ∈ uniform m, DrawnFrom f.cs c)
    {splits : List Int} (hsp : ∀ s ∈ splits, 0 < s) :
    ∃ (res : PaperResult S) (hp : Hp ℝ) (best : Config ℝ) (all : IceCurve ℝ) (g : Assignment → ℝ) (e : Nat) (draws : List (Config ℝ)) (gp : GpSurrogate) (mu sd : List ℝ → ℝ),
      paperScript i uniform d ("x" ++ toString k) kind n nCandidates perAxis numSplits minPoints splits = .ok res ∧
      f.cs.get ("x" ++ toString k) = .ok hp ∧ (∀ ρ, f.value (assignConfig f.cs ρ) = .ok (g ρ)) ∧
      res.sampler.configs.length = (n + 4 * d).toNat ∧ res.sampler.ys.length = (n + 4 * d).toNat ∧
      (∀ (j : Nat) c y, res.sampler.configs[j]? = some c → res.sampler.ys[j]? = some y → f.value c = .ok y) ∧
      (∃ (j : Nat) (v : ℝ), res.sampler.configs[j]? = some best ∧ res.sampler.ys[j]? = some v ∧ ∀ y ∈ res.sampler.ys, v ≤ y) ∧
      ((∃ a ∈ res.sampler.configs ++ uniform (n + 4 * d), ∃ b ∈ res.sampler.configs ++ uniform (n + 4 * d), a.vector ≠ b.vector) →
        ∃ m, res.mmd = .ok m ∧ 0 ≤ m ∧ m ≤ Real.sqrt 2) ∧
      regionPdp f.cs [hp] res.root = .ok all ∧ all.y.length = perAxis ∧ all.v.length = perAxis ∧ (∀ v ∈ all.v, 0 < v) ∧
      res.baseNll = gaussLoss perAxis (fun p => all.y.getD p 0) (fun p => all.v.getD p 0) (fun p => stPartial d (-5 + 10 * gridFraction perAxis p)) ∧
      (0 < res.baseMc ∧ res.baseMc ≤ spread res.sampler.ys) ∧
      (f.cs[e]? = some hp ∧ i.iceDraws = .many draws ∧
        GpSurrogate.new.fit i.choose (res.sampler.configs.map Config.vector) res.sampler.ys = (gp, .ok ()) ∧ RowWise d gp.predict mu sd ∧
        all.y = pdpMeans (draws.map Config.vector) mu e perAxis ∧ all.v = pdpMeans (draws.map Config.vector) (fun r => sd r ^ 2) e perAxis ∧
        res.baseMc = (pdpMeans (draws.map Config.vector) sd e perAxis).sum / perAxis) ∧
      res.rows.map PaperRow.splits = splits ∧
      ∀ row ∈ res.rows, containsAll f.cs row.region.conds best = .ok true ∧ regionImplied f.cs row.region.conds = .ok row.implied ∧ Within row.implied best ∧
        row.implied.map Hp.name = f.cs.map Hp.name ∧ (∀ h ∈ row.implied, ∃ l u, h.kind = .float l u false ∧ -5 ≤ l ∧ l < u ∧ u ≤ 5) ∧
        hp ∈ row.implied ∧ (minPoints ≤ row.region.y.length ∨ row.region.y.length = res.root.y.length) ∧
        (0 < row.mc ∧ row.mc ≤ spread res.sampler.ys) ∧
        ∃ part, regionPdp f.cs [hp] row.region = .ok part ∧ part.y.length = perAxis ∧ part.v.length = perAxis ∧ (∀ v ∈ part.v, 0 < v) ∧
          row.nll = gaussLoss perAxis (fun p => part.y.getD p 0) (fun p => part.v.getD p 0)
            (fun p => average (boxAxes row.implied hp) g fun _ => -5 + 10 * gridFraction perAxis p) ∧
          part.y = pdpMeans (samplesIn f.cs row.region.conds draws) mu e perAxis ∧ part.v = pdpMeans (samplesIn f.cs row.region.conds draws) (fun r => sd r ^ 2) e perAxis ∧
          row.mc = (pdpMeans (samplesIn f.cs row.region.conds draws) sd e perAxis).sum / perAxis := by
  obtain ⟨cs, h1, hs, hnames⟩ := stSpace_ok hi.order d
  rw [hf] at h1
  have hfe : f = ⟨cs, styblinskiTangValue cs⟩ := Except.ok.inj h1
  subst hfe
  dsimp only at hi hun ⊢
  obtain ⟨hp, hh, hname⟩ := hnames k hk1 hk2
  have hget : cs.get ("x" ++ toString k) = .ok hp := by rw [← hname]; exact ConfigSpace.get_of_mem hs.wf hh
  obtain ⟨env, s, henv, hsamp, hlen, hdrawn, hyl, hvals⟩ := main_sampler (by omega) hs hi kind hn (initial := 4 * d) (n := n + 4 * d) (by omega) (by omega)
  have hini : env.initialPoints = 4 * d := by
    rw [gpSampler_ok i.choose (.inl rfl)] at henv
    have := Except.ok.inj henv
    rw [← (Prod.mk.inj this).1]
  have hne : s.configs ≠ [] := by
    intro h; rw [h] at hlen; simp at hlen; omega
  have hdata : TrainingData cs.length (s.configs.map Config.vector) s.ys := configs_data (by rw [hs.len]; omega) hne (fun c hc => (hdrawn c hc).1) hyl
  obtain ⟨gp, hfit, -, mu, sd, hrow, hsd0, hsd⟩ := C99_unit hi.kernel hdata
  obtain ⟨l, hl, hlne, hld⟩ := hi.ice
  obtain ⟨samples, hsm⟩ : ∃ x, x = l.map Config.vector := ⟨_, rfl⟩
  have hsne : samples ≠ [] := by rw [hsm]; simpa using hlne
  have hrows : ∀ r ∈ samples, r.length = cs.length := by
    intro r hr
    rw [hsm] at hr
    obtain ⟨c, hc, rfl⟩ := List.mem_map.1 hr
    exact (hld c hc).1
  have hconf : ∀ r, ∃ c : Config ℝ, r ∈ samples → c ∈ l ∧ c.vector = r := by
    intro r
    by_cases hr : r ∈ samples
    · have hr' := hr
      rw [hsm] at hr'
      obtain ⟨c, hc, rfl⟩ := List.mem_map.1 hr'
      exact ⟨c, fun _ => ⟨hc, rfl⟩⟩
    · exact ⟨⟨[], []⟩, fun h => absurd h hr⟩
  choose config hconfig' using hconf
  have hconfig : ∀ r ∈ samples, ConfigOf cs r (config r) := fun r hr => by
    obtain ⟨a, b⟩ := hconfig' r hr
    have := (hld _ a).2.2.2
    rwa [b] at this
  obtain ⟨e, he⟩ := List.mem_iff_getElem?.1 hh
  obtain ⟨j, best, v, hinc, hj, hjv, hbest⟩ := incumbent_best hyl hne
  have hwithin := (hdrawn best (List.mem_of_getElem? hj)).within hs
  have hsel : convertHyperparameters (.name ("x" ++ toString k)) cs = .ok [hp] := by
    generalize "x" ++ toString k = nm at hget
    simp [convertHyperparameters, resolveItem, hget]
  -- the tree, once
  obtain ⟨c, hc⟩ : ∃ c : IceCfg ℝ, c = ⟨cs, [hp], samples, samples.length, perAxis, perAxis ^ [hp].length, false, gp.predict⟩ := ⟨_, rfl⟩
  have hinit : algorithmInit cs gp.predict (.name ("x" ++ toString k)) samples perAxis = .ok c := by rw [algorithmInit, hsel, hc]; rfl
  have work := fun (depth : Int) (hdep : 0 < depth) => workflow_curves hs.wf hs.float hrow hsel (by simpa using hh) (by simp) (by simp) hrows hsne hg numSplits hm hdep
      hwithin (config := config) (fun r hr => hconfig r hr)
  obtain ⟨q, hdt, hqi, hqc, hql, hqm⟩ : ∃ q : DT ℝ, dtInit cs gp.predict (.name ("x" ++ toString k)) samples perAxis numSplits minPoints none = .ok q ∧
      dtFromIce (iceInit c) numSplits minPoints none = .ok { q with ice := iceInit c } ∧ q.cfg = c ∧ q.leaves = [] ∧ q.minPoints = minPoints := by
    obtain ⟨c', -, -, tree, -, -, -, k1, -, -, k4, -⟩ := work 1 one_pos
    rw [hinit] at k1
    obtain rfl := Except.ok.inj k1
    have k4' := k4
    unfold dtFromIce at k4
    obtain ⟨q, hq, k4⟩ := Py.bind_eq_ok.1 k4
    have hself : algorithmInit c.space c.predict (.many (c.selected.map .hp)) c.samples c.perAxis = .ok c := by
      have := algorithmInit_self (c := c) (by rw [hc]) (by rw [hc])
      rw [this, hc]
    have hdt : dtInit cs gp.predict (.name ("x" ++ toString k)) samples perAxis numSplits minPoints none = .ok q := by
      rw [← hq]
      unfold dtInit
      simp only [iceInit]
      rw [hinit, hself, hc]
    obtain ⟨c', ns, i', dat, e1, -, -, -, -, rfl⟩ := dtInit_ok hdt
    rw [hinit] at e1
    obtain rfl := Except.ok.inj e1
    refine ⟨_, hdt, ?_, rfl, rfl, rfl⟩
    rw [k4', ← Except.ok.inj k4]
  have hcs : c.space = cs := by rw [hc]
  have hcl : c.selected = [hp] := by rw [hc]
  obtain ⟨hv, -, -, hqs⟩ := dt_valid hs.wf hrows hg hdt (by rw [hqc, hcl]; simpa using hh) (by rw [hqc, hcl]; simp) (by rw [hqc, hcl]; simp)
  have hposs : hp.name ∉ q.possible.map Hp.name := by
    obtain ⟨c', ns, i', dat, e1, -, -, -, -, rfl⟩ := dtInit_ok hdt
    rw [hinit] at e1
    obtain rfl := Except.ok.inj e1
    rw [hcl]
    intro h
    obtain ⟨h', hm', e⟩ := List.mem_map.1 h
    have := (List.mem_filter.1 hm').2
    simp only [decide_eq_true_eq] at this
    exact this.1 (by rw [e]; simp)
  -- the regions
  have hsd' : ∀ r, r.length = cs.length → 0 < sd r ∧ sd r ≤ spread s.ys := fun r hr => ⟨(hsd r hr).1, (hsd r hr).2.1⟩
  obtain ⟨grid, hgrid⟩ : ∃ grid : List (List ℝ), grid = (linspace 0 1 perAxis).map fun t => [t] := ⟨_, rfl⟩
  have hgl : grid.length = perAxis := by rw [hgrid, List.length_map, linspace_length]
  have hgp : gridPoints [hp].length perAxis = .ok grid := by rw [List.length_singleton, gridPoints_one, hgrid]
  obtain ⟨g, hgv⟩ : ∃ g : Assignment → ℝ, ∀ ρ, styblinskiTangValue cs (assignConfig cs ρ) = .ok (g ρ) := ⟨_, fun ρ => st_value ρ fun _ h => h⟩
  obtain ⟨hrs, hrc⟩ : RegionShape grid.length cs.length q.root ∧ curves q.root = samples.map (curveOf cs [hp] mu sd grid) := by
    obtain ⟨c', -, -, tree, -, -, -, k1, -, -, k4, -, -, grid', -, -, -, ⟨g1, g2, -, -, g5, -⟩, -⟩ := work 1 one_pos
    rw [hinit] at k1
    obtain rfl := Except.ok.inj k1
    rw [hqi] at k4
    rw [hgp] at g1
    obtain rfl := Except.ok.inj g1
    rw [← Except.ok.inj k4] at g2 g5
    exact ⟨g2, g5⟩
  obtain ⟨hrl, all, baseMc, a1, a2, a3, a4, a5, a6, a7, a8⟩ := region_facts hg hgrid hrs hsne hrows hsd' hrc
  obtain ⟨b1, -⟩ := region_nll hi.order i.inv hd hs hh hgrid hrs hsne hrows (fun r hr => (hsd r hr).1) hrc
  rw [a7] at b1
  obtain ⟨rows, r1, r2, r3⟩ := paperRows_ok i.inv i.order (cfg := best) (b := some v) (q := q) (splits := splits)
    (Row := fun row => containsAll cs row.region.conds best = .ok true ∧ regionImplied cs row.region.conds = .ok row.implied ∧ Within row.implied best ∧
        row.implied.map Hp.name = cs.map Hp.name ∧ (∀ h ∈ row.implied, ∃ l u, h.kind = .float l u false ∧ -5 ≤ l ∧ l < u ∧ u ≤ 5) ∧
        hp ∈ row.implied ∧ (minPoints ≤ row.region.y.length ∨ row.region.y.length = q.root.y.length) ∧
        (0 < row.mc ∧ row.mc ≤ spread s.ys) ∧
        ∃ part, regionPdp cs [hp] row.region = .ok part ∧ part.y.length = perAxis ∧ part.v.length = perAxis ∧ (∀ v ∈ part.v, 0 < v) ∧
          row.nll = gaussLoss perAxis (fun p => part.y.getD p 0) (fun p => part.v.getD p 0)
            (fun p => average (boxAxes row.implied hp) g fun _ => -5 + 10 * gridFraction perAxis p) ∧
          part.y = pdpMeans (samplesIn cs row.region.conds l) mu e perAxis ∧ part.v = pdpMeans (samplesIn cs row.region.conds l) (fun r => sd r ^ 2) e perAxis ∧
          row.mc = (pdpMeans (samplesIn cs row.region.conds l) sd e perAxis).sum / perAxis) (by
    intro sp hspl L0
    have hdep := hsp sp hspl
    have hv0 : ValidDT (perAxis ^ q.cfg.selected.length) { q with leaves := L0 } := ⟨hv.wf, hv.possible_mem, hv.shape, hv.depth, hv.conds⟩
    have hv1 : ValidDT (perAxis ^ q.cfg.selected.length) { q with ice := iceInit c } := ⟨hv.wf, hv.possible_mem, hv.shape, hv.depth, hv.conds⟩
    obtain ⟨L, hL, -⟩ := partition_eq hv0 hdep
    obtain ⟨L1, hL1, -⟩ := partition_eq hv1 hdep
    have hsame := (dtPartition_congr (p := { q with leaves := L0 }) (q := { q with ice := iceInit c }) rfl rfl rfl rfl rfl sp).1
    rw [hL, hL1] at hsame
    obtain rfl := Except.ok.inj hsame
    obtain ⟨c', -, -, tree, tree', leaves, region, k1, -, -, k4, k5, k6, grid', box, part, inside, ⟨g1, -, g3, -, -, g6⟩, -, -, -, -, -, -, -,
      q6, q7, q7', q8, q9, q10, q11, -⟩ := work sp hdep
    rw [hinit] at k1
    obtain rfl := Except.ok.inj k1
    rw [hqi] at k4
    obtain rfl := Except.ok.inj k4
    rw [hL1] at k5
    obtain ⟨ht', hlv⟩ := Prod.mk.inj k5
    obtain rfl := Except.ok.inj hlv
    rw [← ht'] at k6
    rw [hgp] at g1
    obtain rfl := Except.ok.inj g1
    have hsub : ∀ r ∈ inside, r ∈ samples := by
      intro r hr; rw [q9] at hr; exact List.mem_of_mem_filter hr
    have hreg : region ∈ L := by
      unfold dtIncumbentRegion at k6
      split at k6
      · cases k6
      · exact firstContaining_mem k6
    obtain ⟨L2, f1, f2⟩ := C59_proper_box hv0 (by
      intro h hm'
      dsimp only at hm'
      rw [hqs] at hm'
      exact ⟨-5, 5, false, by simp [Hp.numerical?, hs.kind _ hm'], by norm_num, by simp⟩) (by dsimp only; omega) hdep
    rw [hL] at f1
    obtain rfl := Except.ok.inj f1
    obtain ⟨out, o1, o2, o3, o4⟩ := f2 region hreg
    dsimp only at o1 o2 o3 o4
    rw [hqs] at o1 o2 o3 o4
    rw [q7] at o1
    obtain rfl := Except.ok.inj o1
    have hkinds : ∀ h ∈ box, ∃ l u, h.kind = .float l u false ∧ -5 ≤ l ∧ l < u ∧ u ≤ 5 := by
      intro h hh'
      obtain ⟨f, hf, rfl⟩ := List.getElem_of_mem hh'
      have hf' : f < List.length cs := by omega
      obtain ⟨l', u', e1, e2, e3, e4, -⟩ := o4 f _ (-5) 5 false (List.getElem?_eq_getElem hf') (by simp [Hp.numerical?, hs.kind _ (List.getElem_mem hf')])
      rw [List.getElem?_eq_getElem hf] at e1
      rw [Option.some.inj e1]
      exact ⟨l', u', rfl, e2, e3, e4⟩
    have hpbox : hp ∈ box := by
      obtain ⟨f, hf⟩ := List.mem_iff_getElem?.1 hh
      obtain ⟨l', u', e1, -, -, -, e2⟩ := o4 f hp (-5) 5 false hf (by simp [Hp.numerical?, hs.kind _ hh])
      obtain ⟨rfl, rfl⟩ := e2 hposs
      have := List.mem_of_getElem? e1
      have he : hp = ⟨hp.name, .float (-5) 5 false⟩ := by
        rw [← hs.kind hp hh]
      rwa [← he] at this
    have hbwf : box.WF := by
      have := hs.wf
      unfold ConfigSpace.WF at this ⊢
      rw [o2]; exact this
    obtain ⟨x1, x2⟩ := boxAxes_spec (hp := hp) (fun h hm => by
      obtain ⟨l, u, y1, -, y2, -⟩ := hkinds h hm
      exact ⟨l, u, y1, y2⟩)
    have hane : boxAxes box hp ≠ [] := by
      intro h0
      rw [h0] at x1
      have h0 := x1.length_eq
      have := (filter_name hbwf hpbox).2
      rw [h0, o3, hs.len] at this
      simp at this
      omega
    obtain ⟨⟨g', y1, y2⟩, -⟩ := region_nll_box hi.order i.inv hs hh hgrid g3 q10 (fun r hr => hrows r (hsub r hr)) (fun r hr => (hsd r hr).1) g6 hbwf hpbox rfl
      (hs.kind hp hh) hane x1 x2
    have hgg : g' = g := by
      funext ρ
      have := st_box q7' (y1 ρ)
      rw [hgv] at this
      exact (Except.ok.inj this).symm
    obtain ⟨z0, part, mc, z1, z2, z3, z4, z5, z6, z7, z8⟩ := region_facts hg hgrid g3 q10 (fun r hr => hrows r (hsub r hr)) hsd' g6
    rw [hgg, z7] at y2
    refine ⟨L, region, mc, box, _, hL, k6, z5, by rw [hqs]; exact q7, by rw [hqs, hqc, hcl]; exact y2, q6, q7, q8, q7', hkinds, hpbox, ?_, z6, part, z1, z2, z3, z4, rfl, ?_⟩
    swap
    · dsimp only
      rw [← samplesIn_eq hs hld (by rw [← hsm]; exact hconfig') region.conds, ← hsm, ← q9]
      exact z8 e hs.wf he
    dsimp only
    rw [z0, hrl]
    rcases q11 with h | h
    · exact .inl h
    · exact .inr (by rw [h])) []
  have hq0 : ({ q with leaves := [] } : DT ℝ) = q := by rw [← hql]
  rw [hq0] at r1
  refine ⟨⟨cs, s, maximumMeanDiscrepancy (s.configs.map Config.vector) ((uniform (n + 4 * d)).map Config.vector), q.root, baseMc, _, rows⟩, hp, best, all, g, e, l, gp, mu, sd, ?_, hget, hgv, hlen, hyl.trans hlen, hvals, ⟨j, v, hj, hjv, hbest⟩, ?_, a1, a2, a3, a4, rfl, a6,
    ⟨he, hl, hfit, hs.len ▸ hrow, by rw [← hsm]; exact a8 e hs.wf he⟩, r2, r3⟩
  · unfold paperScript
    rw [hf, Py.ok_bind]
    dsimp only
    rw [henv, Py.ok_bind]
    dsimp only
    rw [hini, hsamp]
    dsimp only
    rw [hfit]
    dsimp only
    rw [hl, samplesOf, Py.ok_bind, ← hsm, hdt, Py.ok_bind, a5, Py.ok_bind, hqc, hcl, b1, Py.ok_bind, hinc, r1, Py.ok_bind]
    rfl
  · rintro ⟨x, hx, y, hy, hxy⟩
    dsimp only
    obtain ⟨u1, u2⟩ := hun (n + 4 * d)
    obtain ⟨-, m, -, -, m1, m2, -⟩ := C33_value (d := cs.length) (Xs := s.configs.map Config.vector) (Xu := (uniform (n + 4 * d)).map Config.vector) (by
        intro r hr
        obtain ⟨c, hc, rfl⟩ := List.mem_map.1 hr
        exact (hdrawn c hc).1) (by
        intro r hr
        obtain ⟨c, hc, rfl⟩ := List.mem_map.1 hr
        exact (u2 c hc).1) (by rw [List.length_map, hlen]; omega) (by rw [List.length_map, u1]; omega)
      ⟨x.vector, by rw [← List.map_append]; exact List.mem_map_of_mem hx, y.vector, by rw [← List.map_append]; exact List.mem_map_of_mem hy, hxy⟩
    exact ⟨m, m1, m2, C33_le_sqrt_two (d := cs.length) (by
        intro r hr
        obtain ⟨c, hc, rfl⟩ := List.mem_map.1 hr
        exact (hdrawn c hc).1) (by
        intro r hr
        obtain ⟨c, hc, rfl⟩ := List.mem_map.1 hr
        exact (u2 c hc).1) m1⟩

/-- the hypotheses hold for the first column of the table (3 dimensions, 80 + 12 points, 1 and 3 splits), here with a generator that always draws the
middle of the space -/
example : ∃ (i : MainInput Unit) (u : Int → List (Config ℝ)) (res : PaperResult Unit), paperScript i u 3 "x1" (.lcb (1/10)) 80 100 20 100 10 [1, 3] = .ok res ∧
    res.sampler.ys.length = 92 ∧ res.rows.map PaperRow.splits = [1, 3] ∧ 0 < res.baseMc := by
  obtain ⟨cs, hf, hs, -⟩ := stSpace_ok (order := id) (fun l => List.Perm.refl l) 3
  obtain ⟨dr, hdr⟩ : ∃ dr : Drawer (Config ℝ) Unit, dr = ⟨fun _ n => (List.replicate n (midConfig cs), ()), by simp⟩ := ⟨_, rfl⟩
  have hdrawn : ∀ s n, ∀ c ∈ (dr.draw s n).1, DrawnFrom cs c := by
    intro s n c hc
    rw [hdr] at hc
    rw [List.eq_of_mem_replicate hc]
    exact midConfig_drawn hs
  obtain ⟨res, hp, best, all, g, _, _, _, _, _, h1, -, -, -, h2, -, -, -, -, -, -, -, -, h3, -, h4, -⟩ := C105_paper (S := Unit) (d := 3)
    (i := ⟨id, fun _ _ => matern 1, fun _ _ => 0, dr, dr, (), fun _ => .error .value, .absent, .many (List.replicate 1000 (midConfig cs))⟩)
    (by norm_num) hf ⟨fun l => List.Perm.refl l, fun _ _ => matern_unit one_pos _, hdrawn, hdrawn, by simp [loadCache],
      ⟨_, rfl, List.ne_nil_of_length_pos (by rw [List.length_replicate]; norm_num), fun c hc => by rw [List.eq_of_mem_replicate hc]; exact midConfig_drawn hs⟩⟩ (k := 1) le_rfl (by norm_num) (.lcb (1/10))
    (n := 80) (nCandidates := 100) (by norm_num) (by norm_num) (perAxis := 20) (by norm_num) 100 (minPoints := 10) (by norm_num)
    (uniform := fun m => List.replicate m.toNat (midConfig cs)) (fun m => ⟨List.length_replicate, fun c hc => by rw [List.eq_of_mem_replicate hc]; exact midConfig_drawn hs⟩)
    (splits := [1, 3]) (by simp)
  exact ⟨_, _, res, h1, h2, h4, h3.1⟩

/-- the average of the function over a half box differs from that over the whole: on `[0, 5]` instead of `[-5, 5]` one axis contributes `25/12` instead of `-25/6` -/
example (ρ : Assignment) : average [⟨"x2", 0, 5⟩] (fun ρ => stTerm (ρ "x1") + stTerm (ρ "x2")) ρ = stTerm (ρ "x1") + 25 / 12 := by
  have h := average_additive (S := ["x1", "x2"]) (by simp) ρ [⟨"x2", 0, 5⟩] (by simp) (by simp) (by simp)
  simp only [List.map_cons, List.map_nil, List.sum_cons, List.sum_nil, add_zero] at h
  rw [h]
  have : (["x1", "x2"].filter fun m => decide (m ∉ ["x2"])) = ["x1"] := by decide
  rw [this]
  simp only [List.map_cons, List.map_nil, List.sum_cons, List.sum_nil, add_zero, styblinskiTangIntegral]
  norm_num

end PyPDP
