/-
C115: examples/main_meta_pdp.py.
-/
import Verif.Model.MainMeta
import Verif.Props.MainPaper
import Verif.Props.MainPresentation
import Verif.Props.SamplerPlots
import Verif.Props.AdvancedPlots
import Verif.Props.CacheExact
import Verif.Props.Tables
import Verif.Props.Main2D

namespace PyPDP
open Spec
variable {S : Type}

/-- a run of a Bayesian optimisation with any function that is defined on all configurations that can be drawn -/
theorem gp_sampler_good {i : MainInput S} {d : Nat} (hd : 1 ≤ d) {names : List String} {good : Config ℝ → Prop} (hgood : ∀ c, good c → c.vector.length = d)
    (hk : ∀ Z t, UnitCovariance d (i.choose Z t))
    (hdr : ∀ s n, ∀ c ∈ (i.drawer.draw s n).1, good c) (hca : ∀ s n, ∀ c ∈ (i.acqDrawer.draw s n).1, good c)
    {o : Objective (Config ℝ) ℝ} (ho : ∀ c, good c → ∀ t, o.raises t c = none)
    (hcache : ∀ p ∈ loadCache i.ofVec i.file, good p.1 ∧ p.2 = o.value p.1) (kind : AcqKind) {nCandidates : Int} (hn : 2 ≤ nCandidates)
    {initial n : Int} (hini : 1 ≤ initial) (hn1 : 1 ≤ n) :
    ∃ env s, gpSampler i.choose kind true initial names i.drawer i.acqDrawer nCandidates = .ok (env, .new) ∧ env.initialPoints = initial ∧
      boSample o env (startSampler i .new) n = (s, none) ∧ s.configs.length = n.toNat ∧ (∀ c ∈ s.configs, good c) ∧
      s.ys = s.configs.map o.value := by
  have henv := gpSampler_ok i.choose (kind := kind) (minimize := true) (.inl rfl) initial names i.drawer i.acqDrawer nCandidates
  obtain ⟨env, he⟩ : ∃ env : BOEnv (Config ℝ) ℝ GpSurrogate S, env =
    { initialPoints := initial, minimize := true, names, drawer := i.drawer, acqDrawer := i.acqDrawer, nCandidates, fit := gpFitStep i.choose, acq := gpAcq kind true } := ⟨_, rfl⟩
  rw [← he] at henv
  have hruns : Runs good o env := by
    rw [he]
    refine ⟨fun t c hc => ho c hc t, hdr, hca, fun m l ys hne hg hl => ?_, by dsimp only; omega⟩
    obtain ⟨m', h, -⟩ := gpFitStep_ok (fun Z t => (hk Z t).1) (configs_data hd hne (fun c hc => hgood c (hg c hc)) hl) m
    exact ⟨m', h⟩
  obtain ⟨start, hstart⟩ : ∃ st : BOState (Config ℝ) ℝ GpSurrogate S, st = startSampler i .new := ⟨_, rfl⟩
  have hg : Good good start := by rw [hstart]; exact ⟨by simp [startSampler, samplerInit], rfl⟩
  have hc : ∀ p ∈ start.cache, good p.1 := by rw [hstart]; exact fun p hp => (hcache p hp).1
  obtain ⟨h1, h2, -, -⟩ := boSample_runs hruns (by rw [he]; exact hn) (n := n) (.inl (by omega)) hg hc
  obtain ⟨s, hs'⟩ : ∃ s, boSample o env start n = (s, none) := ⟨_, Prod.ext rfl h1⟩
  rw [hs'] at h2
  classical
  obtain ⟨new, n1, n2, -, -⟩ := C19_sample_appends (o := o) (.bo env) hs'
  have hal := (randomOrBO_aligned (o := o) (.bo env) start n (by rw [hstart]; rfl) (by
    rw [hstart]
    exact fun p hp => (hcache p hp).2)).1
  rw [hs'] at hal
  refine ⟨env, s, henv, by rw [he], by rw [← hstart, hs'], ?_, h2.configs, hal⟩
  rw [n2, hstart]
  simp only [startSampler, samplerInit, List.nil_append, List.length_map, n1]

/-- a run of a Bayesian optimisation on any space of float hyperparameters and any function that is defined on it -/
theorem gp_sampler {i : MainInput S} {cs : ConfigSpace ℝ} (hd : 1 ≤ cs.length) (hk : ∀ Z t, UnitCovariance cs.length (i.choose Z t))
    (hdr : ∀ s n, ∀ c ∈ (i.drawer.draw s n).1, DrawnFrom cs c) (hca : ∀ s n, ∀ c ∈ (i.acqDrawer.draw s n).1, DrawnFrom cs c)
    {o : Objective (Config ℝ) ℝ} (ho : ∀ c, DrawnFrom cs c → ∀ t, o.raises t c = none)
    (hcache : ∀ p ∈ loadCache i.ofVec i.file, DrawnFrom cs p.1 ∧ p.2 = o.value p.1) (kind : AcqKind) {nCandidates : Int} (hn : 2 ≤ nCandidates)
    {initial n : Int} (hini : 1 ≤ initial) (hn1 : 1 ≤ n) :
    ∃ env s, gpSampler i.choose kind true initial (cs.map Hp.name) i.drawer i.acqDrawer nCandidates = .ok (env, .new) ∧ env.initialPoints = initial ∧
      boSample o env (startSampler i .new) n = (s, none) ∧ s.configs.length = n.toNat ∧ (∀ c ∈ s.configs, DrawnFrom cs c) ∧
      s.ys = s.configs.map o.value :=
  gp_sampler_good hd (fun _ h => h.1) hk hdr hca ho hcache kind hn hini hn1

/-- a decision tree built from samples, its partition, the region of a configuration, and the two mean confidences -/
theorem partitioner_run {space : ConfigSpace ℝ} (hwf : space.WF) (hfloat : FloatSpace space) {predict : Predict ℝ} {mu sd : List ℝ → ℝ}
    (hp : RowWise space.length predict mu sd) {sel : Selection ℝ} {selected : List (Hp ℝ)} (hsel : convertHyperparameters sel space = .ok selected)
    (hmem : ∀ hp ∈ selected, hp ∈ space) (hd : (selected.map Hp.name).Nodup) (hne : selected ≠ [])
    {samples : List (List ℝ)} (hrows : ∀ r ∈ samples, r.length = space.length) (hs : samples ≠ []) {perAxis : Nat} (hg : 1 ≤ perAxis)
    (numSplits : Nat) {minPoints : Nat} (hm : 1 ≤ minPoints) {depth : Int} (hdep : 0 < depth)
    {incumbent : Config ℝ} (hinc : Within space incumbent)
    {config : List ℝ → Config ℝ} (hconf : ∀ r ∈ samples, ConfigOf space r (config r)) :
    ∃ (q q' : DT ℝ) (L : List (Node ℝ)) (region : Node ℝ) (grid inside : List (List ℝ)),
      dtInit space predict sel samples perAxis numSplits minPoints none = .ok q ∧ dtPartition q depth = (q', .ok L) ∧
      dtIncumbentRegion q' incumbent = .ok (some region) ∧ gridPoints selected.length perAxis = .ok grid ∧
      containsAll space region.conds incumbent = .ok true ∧
      inside = samples.filter (fun r => decide (containsAll space region.conds (config r) = .ok true)) ∧ inside ≠ [] ∧
      (minPoints ≤ inside.length ∨ inside = samples) ∧
      meanConfidence q.root = .ok ((grid.map fun t => averageOver samples fun r => abs (sd (replaced space selected t r))).sum / grid.length) ∧
      meanConfidence region = .ok ((grid.map fun t => averageOver inside fun r => abs (sd (replaced space selected t r))).sum / grid.length) ∧
      ∀ c ∈ region.conds, c.hp ∈ space ∧ ∀ h ∈ selected, c.hp.name ≠ h.name := by
  obtain ⟨c, hc⟩ : ∃ c : IceCfg ℝ, c = ⟨space, selected, samples, samples.length, perAxis, perAxis ^ selected.length, false, predict⟩ := ⟨_, rfl⟩
  have hinit : algorithmInit space predict sel samples perAxis = .ok c := by rw [algorithmInit, hsel, hc]; rfl
  have hself : algorithmInit c.space c.predict (.many (c.selected.map .hp)) c.samples c.perAxis = .ok c := by
    have := algorithmInit_self (c := c) (by rw [hc]) (by rw [hc])
    rw [this, hc]
  obtain ⟨c', -, -, tree, tree', leaves, region, k1, -, -, k4, k5, k6, grid, box, part, inside, ⟨g1, -, -, g4, -, -⟩, -, -, -, -, -, -, -,
    q6, -, -, -, q9, q10, q11, -, -, q14, q15⟩ := workflow_curves hwf hfloat hp hsel hmem hd hne hrows hs hg numSplits hm hdep hinc (config := config) hconf
  rw [hinit] at k1
  obtain rfl := Except.ok.inj k1
  unfold dtFromIce at k4
  obtain ⟨q, hq, k4⟩ := Py.bind_eq_ok.1 k4
  have hdt : dtInit space predict sel samples perAxis numSplits minPoints none = .ok q := by
    rw [← hq]
    unfold dtInit
    simp only [iceInit]
    rw [hinit, hself, hc]
  have htree : tree = { q with ice := iceInit c } := (Except.ok.inj k4).symm
  obtain ⟨c', ns, i', dat, e1, -, -, -, -, hq'⟩ := dtInit_ok hdt
  rw [hinit] at e1
  obtain rfl := Except.ok.inj e1
  have hqc : q.cfg = c := by rw [hq']
  obtain ⟨hv, -, -, -⟩ := dt_valid hwf hrows hg hdt (by rw [hqc, hc]; exact hmem) (by rw [hqc, hc]; exact hd) (by rw [hqc, hc]; exact hne)
  have hv1 : ValidDT (perAxis ^ q.cfg.selected.length) { q with ice := iceInit c } := ⟨hv.wf, hv.possible_mem, hv.shape, hv.depth, hv.conds⟩
  obtain ⟨L, hL, -⟩ := partition_eq hv hdep
  obtain ⟨L1, hL1, -⟩ := partition_eq hv1 hdep
  have hsame := (dtPartition_congr (p := q) (q := { q with ice := iceInit c }) rfl rfl rfl rfl rfl depth).1
  rw [hL, hL1] at hsame
  obtain rfl := Except.ok.inj hsame
  rw [htree, hL1] at k5
  obtain ⟨ht', hlv⟩ := Prod.mk.inj k5
  obtain rfl := Except.ok.inj hlv
  have hreg : region ∈ L := by
    rw [← ht'] at k6
    unfold dtIncumbentRegion at k6
    split at k6
    · cases k6
    · exact firstContaining_mem k6
  refine ⟨q, { q with leaves := L }, L, region, grid, inside, hdt, hL, ?_, g1, q6, q9, q10, q11, ?_, q15, fun cd hcd => ?_⟩
  · rw [← k6, ← ht']; rfl
  · rw [htree] at q14; exact q14
  · obtain ⟨n1, n2, -, -⟩ := C49_never_split hdt hv (by rw [hL]) hreg hcd
    rw [hqc, hc] at n2
    exact ⟨n1, n2⟩

/-! ### blackbox_function -/

/-- What a repetition has measured: `38 d - 20` points of the function are evaluated, the incumbent is the best of them, a Gaussian process is
fitted to all of them; the base confidence is the mean of its standard deviations over all random samples (and the grid of `x1`), the other one the mean over those
samples that are in the region, which contains the incumbent; delta is the relative reduction. -/
def MetaRun.Measures (i : MainInput S) (f : BlackboxFn ℝ) (d perAxis minPoints : Nat) (r : MetaRun S) : Prop :=
  ∃ (hp : Hp ℝ) (e : Nat) (draws : List (Config ℝ)) (mu sd : List ℝ → ℝ), f.cs.get "x1" = .ok hp ∧ f.cs[e]? = some hp ∧
    r.sampler.configs.length = 38 * d - 20 ∧ r.sampler.ys.length = 38 * d - 20 ∧ (∀ c ∈ r.sampler.configs, DrawnFrom f.cs c) ∧
    (∀ (j : Nat) c y, r.sampler.configs[j]? = some c → r.sampler.ys[j]? = some y → f.value c = .ok y) ∧
    (∃ (j : Nat) (v : ℝ), r.sampler.configs[j]? = some r.incumbent ∧ r.sampler.ys[j]? = some v ∧ ∀ y ∈ r.sampler.ys, v ≤ y) ∧
    GpSurrogate.new.fit i.choose (r.sampler.configs.map Config.vector) r.sampler.ys = (r.surrogate, .ok ()) ∧ RowWise d r.surrogate.predict mu sd ∧
    i.iceDraws = .many draws ∧ containsAll f.cs r.region.conds r.incumbent = .ok true ∧ samplesIn f.cs r.region.conds draws ≠ [] ∧
    (minPoints ≤ (samplesIn f.cs r.region.conds draws).length ∨ samplesIn f.cs r.region.conds draws = draws.map Config.vector) ∧
    r.baseMc = (pdpMeans (draws.map Config.vector) sd e perAxis).sum / perAxis ∧
    r.mc = (pdpMeans (samplesIn f.cs r.region.conds draws) sd e perAxis).sum / perAxis ∧
    (0 < r.baseMc ∧ r.baseMc ≤ spread r.sampler.ys) ∧ (0 < r.mc ∧ r.mc ≤ spread r.sampler.ys) ∧ r.delta = 1 - r.mc / r.baseMc ∧
    (d = 1 → r.mc = r.baseMc)

theorem meta_run {i : MainInput S} {order : SpaceOrder ℝ} (hord : ∀ l, (order l).Perm l) {d : Nat} (hd : 1 ≤ d) {f : BlackboxFn ℝ}
    (hf : forNDimensions order (-5) 5 false styblinskiTangValue (d : ℝ) none none = .ok f) (hi : i.Good f.cs) (kind : AcqKind) {nCandidates : Int}
    (hn : 2 ≤ nCandidates) {perAxis : Nat} (hg : 1 ≤ perAxis) (numSplits : Nat) {minPoints : Nat} (hm : 1 ≤ minPoints) {nSplits : Int} (hdep : 0 < nSplits) :
    ∃ r, metaRepetition i f d kind nCandidates perAxis numSplits minPoints nSplits = .ok r ∧ r.Measures i f d perAxis minPoints ∧
      ∃ env, gpSampler i.choose kind true (4 * d) (f.cs.map Hp.name) i.drawer i.acqDrawer nCandidates = .ok (env, .new) ∧
        boSample (callObjective i.inv f) env (startSampler i .new) (38 * d - 20) = (r.sampler, none) := by
  obtain ⟨cs, h1, hs, hnames⟩ := stSpace_ok hord d
  rw [hf] at h1
  have hfe : f = ⟨cs, styblinskiTangValue cs⟩ := Except.ok.inj h1
  subst hfe
  dsimp only at hi ⊢
  obtain ⟨hp, hh, hname⟩ := hnames 1 le_rfl hd
  have hx1 : ("x" ++ toString 1 : String) = "x1" := by decide +kernel
  rw [hx1] at hname
  have hget : cs.get "x1" = .ok hp := by rw [← hname]; exact ConfigSpace.get_of_mem hs.wf hh
  obtain ⟨env, s, henv, hsamp, hlen, hdrawn, hyl, hvals⟩ := main_sampler hd hs hi kind hn (initial := 4 * d) (n := 38 * d - 20) (by omega) (by omega)
  have hini : env.initialPoints = 4 * d := by
    rw [gpSampler_ok i.choose (.inl rfl)] at henv
    have := Except.ok.inj henv
    rw [← (Prod.mk.inj this).1]
  replace hlen : s.configs.length = 38 * d - 20 := by omega
  have hne : s.configs ≠ [] := by
    intro h; rw [h] at hlen; simp at hlen; omega
  have hdata : TrainingData cs.length (s.configs.map Config.vector) s.ys := configs_data (by rw [hs.len]; exact hd) hne (fun c hc => (hdrawn c hc).1) hyl
  obtain ⟨gp, hfit, -, mu, sd, hrow, hsd0, hsd⟩ := C99_unit hi.kernel hdata
  obtain ⟨l, hl, hlne, hld⟩ := hi.ice
  have hsne : l.map Config.vector ≠ [] := by simpa using hlne
  have hrows : ∀ r ∈ l.map Config.vector, r.length = cs.length := by
    intro r hr
    obtain ⟨c, hc, rfl⟩ := List.mem_map.1 hr
    exact (hld c hc).1
  have hconf : ∀ r, ∃ c : Config ℝ, r ∈ l.map Config.vector → c ∈ l ∧ c.vector = r := by
    intro r
    by_cases hr : r ∈ l.map Config.vector
    · obtain ⟨c, hc, rfl⟩ := List.mem_map.1 hr
      exact ⟨c, fun _ => ⟨hc, rfl⟩⟩
    · exact ⟨⟨[], []⟩, fun h => absurd h hr⟩
  choose config hconfig' using hconf
  have hconfig : ∀ r ∈ l.map Config.vector, ConfigOf cs r (config r) := fun r hr => by
    obtain ⟨a, b⟩ := hconfig' r hr
    have := (hld _ a).2.2.2
    rwa [b] at this
  obtain ⟨e, he⟩ := List.getElem?_of_mem hh
  obtain ⟨j, best, v, hinc, hj, hjv, hbest⟩ := incumbent_best hyl hne
  have hsel : convertHyperparameters (.name "x1") cs = .ok [hp] := by
    generalize "x1" = nm at hget
    simp [convertHyperparameters, resolveItem, hget]
  obtain ⟨q, q', L, region, grid, inside, t1, t2, t3, t4, t5, t6, t7, t8, t9, t10, t11⟩ :=
    partitioner_run hs.wf hs.float hrow hsel (by simpa using hh) (by simp) (by simp) hrows hsne hg numSplits hm hdep
      ((hdrawn best (List.mem_of_getElem? hj)).within hs) (config := config) (fun r hr => hconfig r hr)
  have hgrid : grid = (linspace 0 1 perAxis).map fun t => [t] := by
    rw [List.length_singleton, gridPoints_one] at t4
    exact (Except.ok.inj t4).symm
  have hsub : ∀ r ∈ inside, r ∈ l.map Config.vector := by
    intro r hr; rw [t6] at hr; exact List.mem_of_mem_filter hr
  have hin : inside = samplesIn cs region.conds l := by rw [t6]; exact samplesIn_eq hs hld hconfig' _
  have hg0 : grid ≠ [] := by
    intro h
    have : grid.length = perAxis := by rw [hgrid, List.length_map, linspace_length]
    rw [h] at this; simp at this; omega
  have hb : ∀ rows : List (List ℝ), (∀ r ∈ rows, r ∈ l.map Config.vector) → rows ≠ [] →
      0 < (grid.map fun t => averageOver rows fun r => abs (sd (replaced cs [hp] t r))).sum / grid.length ∧
      (grid.map fun t => averageOver rows fun r => abs (sd (replaced cs [hp] t r))).sum / grid.length ≤ spread s.ys := by
    intro rows hr hr0
    refine mean_grid_bounds hg0 hr0 fun t _ r hr' => ?_
    have := hsd (replaced cs [hp] t r) (by rw [replaced_length (hrows r (hr r hr'))])
    rw [abs_of_pos this.1]
    exact ⟨this.1, this.2.1⟩
  obtain ⟨a, ha⟩ : ∃ a, a = (grid.map fun t => averageOver (l.map Config.vector) fun r => abs (sd (replaced cs [hp] t r))).sum / grid.length := ⟨_, rfl⟩
  obtain ⟨b, hbe⟩ : ∃ b, b = (grid.map fun t => averageOver inside fun r => abs (sd (replaced cs [hp] t r))).sum / grid.length := ⟨_, rfl⟩
  have hA := hb _ (fun _ h => h) hsne
  have hB := hb _ hsub t7
  rw [← ha] at t9 hA
  rw [← hbe] at t10 hB
  refine ⟨⟨s, gp, best, q.root, region, a, b, (a - b) / |a|⟩, ?_, ⟨hp, e, l, mu, sd, hget, he, hlen, hyl.trans hlen, hdrawn, hvals, ⟨j, v, hj, hjv, hbest⟩,
    hfit, hs.len ▸ hrow, hl, t5, by rw [← hin]; exact t7, by rw [← hin]; exact t8, ?_, ?_, hA, hB, ?_, ?_⟩, env, henv, hsamp⟩
  · unfold metaRepetition
    dsimp only
    rw [henv, Py.ok_bind]
    dsimp only
    have he : (34 * (d : Int) - 20 + env.initialPoints) = 38 * d - 20 := by rw [hini]; ring
    unfold startSampler
    rw [he, hsamp]
    dsimp only
    rw [hfit]
    dsimp only
    rw [hl, samplesOf, Py.ok_bind, t1, Py.ok_bind, t9, Py.ok_bind, t2]
    dsimp only
    rw [hinc, Py.ok_bind]
    dsimp only
    rw [t3, Py.ok_bind]
    dsimp only
    rw [t10, Py.ok_bind, calculateLogDelta, if_neg hA.1.ne']
    rfl
  · dsimp only
    rw [ha, mean_pdpMeans hs.wf he hgrid hrows fun r hr => (hsd r hr).1]
  · dsimp only
    rw [hbe, ← hin, mean_pdpMeans hs.wf he hgrid (fun r hr => hrows r (hsub r hr)) fun r hr => (hsd r hr).1]
  · dsimp only
    rw [abs_of_pos hA.1, sub_div, div_self hA.1.ne']
  · intro h1
    have hone : cs = [hp] := by
      obtain ⟨x, hx⟩ := List.length_eq_one_iff.1 (hs.len.trans h1)
      rw [hx] at hh ⊢
      rw [List.mem_singleton.1 hh]
    have hnil : region.conds = [] := by
      refine List.eq_nil_iff_forall_not_mem.2 fun c hc => ?_
      obtain ⟨m1, m2⟩ := t11 c hc
      rw [hone] at m1
      exact m2 hp (by simp) (by rw [List.mem_singleton.1 m1])
    have : inside = l.map Config.vector := by
      rw [t6, hnil]
      exact List.filter_eq_self.2 fun x _ => by simp [containsAll]
    dsimp only
    rw [hbe, ha, this]

/-- **C115** `blackbox_function` of examples/main_meta_pdp.py returns a number in every dimension `d ≥ 1`, for every positive number of repetitions and of
splits and whatever is drawn: the mean over the repetitions of `mc / base_mc`, minus 1. So it is above -1; it is negative exactly if the
regions are on average more certain than the whole space. In one dimension it is 0 whatever the kernel is. -/
theorem C115_function {order : SpaceOrder ℝ} (hord : ∀ l, (order l).Perm l) {d : Nat} (hd : 1 ≤ d) {f : BlackboxFn ℝ}
    (hf : forNDimensions order (-5) 5 false styblinskiTangValue (d : ℝ) none none = .ok f) {inputs : List (MainInput S)} (hi : ∀ i ∈ inputs, i.Good f.cs)
    (hne : inputs ≠ []) (kind : AcqKind) {nCandidates : Int} (hn : 2 ≤ nCandidates) {perAxis : Nat} (hg : 1 ≤ perAxis) (numSplits : Nat) {minPoints : Nat}
    (hm : 1 ≤ minPoints) {nSplits : Int} (hdep : 0 < nSplits) :
    ∃ v runs, metaFunction order inputs d kind nCandidates perAxis numSplits minPoints nSplits = .ok (v, runs) ∧
      List.Forall₂ (fun i (r : MetaRun S) => r.Measures i f d perAxis minPoints) inputs runs ∧
      v = (runs.map fun r => r.mc / r.baseMc).sum / inputs.length - 1 ∧ -1 < v ∧
      (v < 0 ↔ (runs.map fun r => r.mc / r.baseMc).sum < inputs.length) ∧ (d = 1 → v = 0) := by
  have hruns : ∃ runs, inputs.mapM (fun i => metaRepetition i f d kind nCandidates perAxis numSplits minPoints nSplits) = .ok runs ∧
      List.Forall₂ (fun i (r : MetaRun S) => r.Measures i f d perAxis minPoints) inputs runs := by
    clear hne
    induction inputs with
    | nil => exact ⟨[], rfl, .nil⟩
    | cons i is ih =>
      obtain ⟨r, r1, r2, -⟩ := meta_run hord hd hf (hi i (by simp)) kind hn hg numSplits hm hdep
      obtain ⟨rs, s1, s2⟩ := ih fun i' hi' => hi i' (by simp [hi'])
      refine ⟨r :: rs, ?_, .cons r2 s2⟩
      rw [List.mapM_cons, r1, Py.ok_bind, s1]
      rfl
  obtain ⟨runs, r1, r2⟩ := hruns
  have hlen : runs.length = inputs.length := r2.length_eq.symm
  have hr0 : runs ≠ [] := by
    intro h; rw [h] at hlen; exact hne (List.length_eq_zero_iff.1 hlen.symm)
  have hN : (0 : ℝ) < inputs.length := by exact_mod_cast List.length_pos_iff.2 hne
  have hfacts : ∀ r ∈ runs, 0 < r.baseMc ∧ 0 < r.mc ∧ r.delta = 1 - r.mc / r.baseMc ∧ (d = 1 → r.mc = r.baseMc) := by
    intro r hr
    obtain ⟨i, -, hp, e, draws, mu, sd, -, -, -, -, -, -, -, -, -, -, -, -, -, -, -, a, b, c, e⟩ := forall₂_mem_right r2 hr
    exact ⟨a.1, b.1, c, e⟩
  have hsum : (runs.map MetaRun.delta).sum = runs.length - (runs.map fun r => r.mc / r.baseMc).sum := by
    clear r1 r2 hlen hr0
    induction runs with
    | nil => simp
    | cons r rs ih =>
      simp only [List.map_cons, List.sum_cons, List.length_cons, Nat.cast_add, Nat.cast_one]
      rw [ih fun r' hr' => hfacts r' (by simp [hr']), (hfacts r (by simp)).2.2.1]
      ring
  have hpos : 0 < (runs.map fun r => r.mc / r.baseMc).sum := List.sum_pos _ (fun v hv => by
    obtain ⟨r, hr, rfl⟩ := List.mem_map.1 hv
    exact div_pos (hfacts r hr).2.1 (hfacts r hr).1) (by simpa using hr0)
  have hv : -((runs.map MetaRun.delta).sum / (runs.length : ℝ)) = (runs.map fun r => r.mc / r.baseMc).sum / inputs.length - 1 := by
    rw [hsum, hlen, sub_div, div_self hN.ne']
    ring
  refine ⟨_, runs, ?_, r2, rfl, ?_, ?_, ?_⟩
  · unfold metaFunction
    rw [hf, Py.ok_bind, r1, Py.ok_bind, if_neg hr0, hv]
    rfl
  · linarith [div_pos hpos hN]
  · rw [sub_neg, div_lt_one hN]
  · intro h1
    have : (runs.map fun r => r.mc / r.baseMc) = runs.map fun _ => (1 : ℝ) := List.map_congr_left fun r hr => by
      rw [(hfacts r hr).2.2.2 h1, div_self (hfacts r hr).1.ne']
    rw [this, List.map_const', List.sum_replicate, nsmul_eq_mul, mul_one, hlen, div_self hN.ne', sub_self]

/-- Without a repetition the mean is nan. -/
theorem C115_no_repetitions {order : SpaceOrder ℝ} (hord : ∀ l, (order l).Perm l) (d : Nat) (kind : AcqKind) (nCandidates : Int)
    (perAxis numSplits minPoints : Nat) (nSplits : Int) :
    metaFunction (S := S) order [] d kind nCandidates perAxis numSplits minPoints nSplits = .error .nan := by
  obtain ⟨cs, h1, -⟩ := stSpace_ok hord d
  unfold metaFunction
  rw [h1]
  rfl

/-! ### the file shared by all kernels -/

theorem loadLoop_of {ofVec : List ℝ → Py (Config ℝ)} {l : List (Config ℝ)} (h : ∀ c ∈ l, ofVec c.vector = .ok c) (ys : List ℝ) :
    loadLoop ofVec ((l.map Config.vector).zip ys) = l.zip ys := by
  induction l generalizing ys with
  | nil => simp [loadLoop]
  | cons c cs ih =>
    cases ys with
    | nil => simp [loadLoop]
    | cons y ys => simp [loadLoop, h c (by simp), ih fun c' hc' => h c' (by simp [hc'])]

/-- A sampler that has sampled `n` points leaves a file from which `n` points are read back as the ones it has, and if the file it has read had at least `n` points, it
has the first `n` of these. -/
theorem shared_file {o : Objective (Config ℝ) ℝ} {env : BOEnv (Config ℝ) ℝ GpSurrogate S} {i : MainInput S} {n : Nat} (hn : 1 ≤ n)
    {s : BOState (Config ℝ) ℝ GpSurrogate S} (h : boSample o env (startSampler i .new) n = (s, none)) (hround : ∀ c ∈ s.configs, i.ofVec c.vector = .ok c) :
    (loadCache i.ofVec (saveCache Config.vector s i.file)).take n = s.configs.zip s.ys ∧ n ≤ (loadCache i.ofVec (saveCache Config.vector s i.file)).length ∧
    (n ≤ (loadCache i.ofVec i.file).length → s.configs.zip s.ys = (loadCache i.ofVec i.file).take n) ∧
    (∀ p ∈ loadCache i.ofVec (saveCache Config.vector s i.file), p ∈ loadCache i.ofVec i.file ∨ p ∈ s.configs.zip s.ys) := by
  classical
  obtain ⟨new, n1, ⟨n2, n3⟩, -, -⟩ := sampler_ok (o := o) (.bo env) h
  have hlen : s.configs.length = n := by rw [n2]; simp [startSampler, samplerInit, n1]
  have hylen : s.ys.length = n := by rw [n3]; simp [startSampler, samplerInit, n1]
  have hne : s.configs ≠ [] := by
    intro h0; rw [h0] at hlen; simp at hlen; omega
  have hsaved : s.cache = [] → loadCache i.ofVec (saveCache Config.vector s i.file) = s.configs.zip s.ys := by
    intro hc
    rw [saveCache, if_neg (by simp [hc]), if_neg (by simpa using hne), loadCache, loadLoop_of hround]
  have hzip : (s.configs.zip s.ys).length = n := by rw [List.length_zip, hlen, hylen]; simp
  by_cases hit : n ≤ (loadCache i.ofVec i.file).length
  · obtain ⟨k1, k2, k3⟩ := sampler_hit (o := o) (.bo env) (s := startSampler i .new) (n := (n : Int)) (by omega) (by simp [startSampler, samplerInit, hit])
    rw [h] at k1 k2 k3
    simp only [startSampler, samplerInit, List.nil_append, Int.toNat_natCast] at k1 k2 k3
    have hz : s.configs.zip s.ys = (loadCache i.ofVec i.file).take n := by
      rw [k1, k2]
      exact (List.zip_of_prod rfl rfl).symm
    by_cases hc : s.cache = []
    · rw [hsaved hc]
      exact ⟨List.take_of_length_le hzip.le, hzip.ge, fun _ => hz, fun p hp => .inr hp⟩
    · rw [C23_not_written _ _ _ (.inr hc)]
      exact ⟨hz.symm, hit, fun _ => hz, fun p hp => .inl hp⟩
  · have hm := sampler_miss (o := o) (.bo env) (s := startSampler i .new) (n := (n : Int)) (by
      have : ((startSampler i .new : BOState (Config ℝ) ℝ GpSurrogate S).configs.length : Int) = 0 := rfl
      rw [this]
      simp only [startSampler, samplerInit]
      omega)
    rw [h] at hm
    obtain ⟨-, -, -, -, m5⟩ := sampler_ok (o := o) (.bo env) hm.symm
    have hc : s.cache = [] := List.eq_nil_iff_forall_not_mem.2 fun p hp => by simpa [SamplerState.clearCache] using m5 p hp
    rw [hsaved hc]
    exact ⟨List.take_of_length_le hzip.le, hzip.ge, fun h => absurd h hit, fun p hp => .inr hp⟩

/-- **C115** Only the first kernel ever acquires points: whatever kernels `blackbox_function` is called with one after the other (and whatever file there is at
the start), all calls work with the same points, those of the first call. `hround` is ConfigSpace's contract that a configuration is determined by its
vector. -/
theorem C115_shared {i : MainInput S} {order : SpaceOrder ℝ} (hord : ∀ l, (order l).Perm l) {d : Nat} (hd : 1 ≤ d) {f : BlackboxFn ℝ}
    (hf : forNDimensions order (-5) 5 false styblinskiTangValue (d : ℝ) none none = .ok f) (hround : ∀ c, DrawnFrom f.cs c → i.ofVec c.vector = .ok c)
    (kind : AcqKind) {nCandidates : Int} (hn : 2 ≤ nCandidates) {perAxis : Nat} (hg : 1 ≤ perAxis) (numSplits : Nat) {minPoints : Nat} (hm : 1 ≤ minPoints)
    {nSplits : Int} (hdep : 0 < nSplits) {file : CacheFile (List ℝ) ℝ} {kernels : List (List (List ℝ) → List ℝ → Kernel)}
    (hi : ∀ k ∈ kernels, ({ i with choose := k, file } : MainInput S).Good f.cs) :
    ∃ rs, metaCalls i f d kind nCandidates perAxis numSplits minPoints nSplits file kernels = .ok rs ∧
      List.Forall₂ (fun k (r : MetaRun S) => r.Measures { i with choose := k } f d perAxis minPoints) kernels rs ∧
      ∃ points values, ∀ r ∈ rs, r.sampler.configs = points ∧ r.sampler.ys = values := by
  -- one call, with any file
  have step : ∀ k file, ({ i with choose := k, file } : MainInput S).Good f.cs → ∃ r,
      metaRepetition { i with choose := k, file } f d kind nCandidates perAxis numSplits minPoints nSplits = .ok r ∧
      r.Measures { i with choose := k } f d perAxis minPoints ∧ r.sampler.configs.length = 38 * d - 20 ∧ r.sampler.ys.length = 38 * d - 20 ∧
      (loadCache i.ofVec (saveCache Config.vector r.sampler file)).take (38 * d - 20) = r.sampler.configs.zip r.sampler.ys ∧
      38 * d - 20 ≤ (loadCache i.ofVec (saveCache Config.vector r.sampler file)).length ∧
      (38 * d - 20 ≤ (loadCache i.ofVec file).length → r.sampler.configs.zip r.sampler.ys = (loadCache i.ofVec file).take (38 * d - 20)) ∧
      ∀ p ∈ loadCache i.ofVec (saveCache Config.vector r.sampler file), DrawnFrom f.cs p.1 ∧ styblinskiTangValue f.cs p.1 = .ok p.2 := by
    intro k file hgood
    obtain ⟨r, r1, r2, env, -, hsamp⟩ := meta_run hord hd hf hgood kind hn hg numSplits hm hdep
    have hfv : f.value = styblinskiTangValue f.cs := by
      obtain ⟨cs, h1, -⟩ := stSpace_ok hord d
      rw [hf] at h1
      rw [Except.ok.inj h1]
    have e : (38 * (d : Int) - 20) = ((38 * d - 20 : Nat) : Int) := by omega
    rw [e] at hsamp
    obtain ⟨hp, draws, config, inside, mu, sd, m0, m1, m2, m3, m4, m5⟩ := r2
    obtain ⟨a1, a2, a3, a4⟩ := shared_file (by omega) hsamp (fun c hc => hround c (m3 c hc))
    refine ⟨r, r1, ⟨hp, draws, config, inside, mu, sd, m0, m1, m2, m3, m4, m5⟩, m1, m2, a1, a2, a3, fun p hp => ?_⟩
    rcases a4 p hp with h | h
    · exact hgood.cache p h
    · obtain ⟨j, hj⟩ := List.mem_iff_getElem?.1 h
      obtain ⟨c1, c2⟩ := List.getElem?_zip_eq_some.1 hj
      exact ⟨m3 _ (List.mem_of_getElem? c1), by rw [← hfv]; exact m4 j _ _ c1 c2⟩
  -- later calls
  have later : ∀ (ks : List (List (List ℝ) → List ℝ → Kernel)) (file : CacheFile (List ℝ) ℝ) (points : List (Config ℝ)) (values : List ℝ),
      (∀ k ∈ ks, ({ i with choose := k, file } : MainInput S).Good f.cs) → 38 * d - 20 ≤ (loadCache i.ofVec file).length →
      (loadCache i.ofVec file).take (38 * d - 20) = points.zip values → points.length = 38 * d - 20 → values.length = 38 * d - 20 →
      ∃ rs, metaCalls i f d kind nCandidates perAxis numSplits minPoints nSplits file ks = .ok rs ∧
        List.Forall₂ (fun k (r : MetaRun S) => r.Measures { i with choose := k } f d perAxis minPoints) ks rs ∧
        ∀ r ∈ rs, r.sampler.configs = points ∧ r.sampler.ys = values := by
    intro ks
    induction ks with
    | nil => exact fun _ _ _ _ _ _ _ _ => ⟨[], rfl, .nil, by simp⟩
    | cons k ks ih =>
      intro file points values hgood hfl htake hpl hvl
      obtain ⟨r, r1, r2, r3, r4, r5, r6, r7, r8⟩ := step k file (hgood k (by simp))
      have hz := (r7 hfl).trans htake
      have hp : r.sampler.configs = points := by
        have := congrArg (List.map Prod.fst) hz
        rwa [List.map_fst_zip (by omega), List.map_fst_zip (by omega)] at this
      have hv : r.sampler.ys = values := by
        have := congrArg (List.map Prod.snd) hz
        rwa [List.map_snd_zip (by omega), List.map_snd_zip (by omega)] at this
      obtain ⟨rs, s1, s2, s3⟩ := ih _ points values (fun k' hk' => by
        have hg' := hgood k' (by simp [hk'])
        exact ⟨hg'.order, hg'.kernel, hg'.drawn, hg'.candidates, r8, hg'.ice⟩) r6 (by rw [r5, hp, hv]) hpl hvl
      refine ⟨r :: rs, ?_, .cons r2 s2, fun r' hr' => ?_⟩
      · unfold metaCalls
        rw [r1, Py.ok_bind, s1]
        rfl
      · rcases List.mem_cons.1 hr' with rfl | hr'
        · exact ⟨hp, hv⟩
        · exact s3 r' hr'
  cases kernels with
  | nil => exact ⟨[], rfl, .nil, [], [], by simp⟩
  | cons k ks =>
    obtain ⟨r, r1, r2, r3, r4, r5, r6, r7, r8⟩ := step k file (hi k (by simp))
    obtain ⟨rs, s1, s2, s3⟩ := later ks _ r.sampler.configs r.sampler.ys (fun k' hk' => by
      have hg' := hi k' (by simp [hk'])
      exact ⟨hg'.order, hg'.kernel, hg'.drawn, hg'.candidates, r8, hg'.ice⟩) r6 r5 r3 r4
    refine ⟨r :: rs, ?_, .cons r2 s2, r.sampler.configs, r.sampler.ys, fun r' hr' => ?_⟩
    · unfold metaCalls
      rw [r1, Py.ok_bind, s1]
      rfl
    · rcases List.mem_cons.1 hr' with rfl | hr'
      · exact ⟨rfl, rfl⟩
      · exact s3 r' hr'

/-! ### optimize_mc -/

theorem metaSpace_drawn {lo up : ℝ} (h : lo < up) {c : Config ℝ} (hc : DrawnFrom (metaSpace lo up) c) :
    ∃ v, c.values = [("kernel_size", .num v)] ∧ c.get? "kernel_size" = some (.num v) ∧ lo ≤ v ∧ v ≤ up := by
  obtain ⟨h1, h2, h3, h4⟩ := hc
  obtain ⟨e, he⟩ := List.length_eq_one_iff.1 (show c.vector.length = 1 from h1)
  have hg := h4 0 ⟨"kernel_size", .float lo up false⟩ lo up false e rfl rfl (by rw [he]; rfl)
  dsimp only at hg
  obtain ⟨p, hp⟩ := List.length_eq_one_iff.1 (show c.values.length = 1 by
    have := congrArg List.length h3
    simpa [metaSpace] using this)
  have hn : p.1 = "kernel_size" := by
    rw [hp] at h3
    simpa [metaSpace] using h3
  have hv : p.2 = .num (interpolate lo up false e) := by
    rw [Config.get?, hp] at hg
    simpa [hn] using hg
  obtain ⟨a, b⟩ := h2 e (by rw [he]; simp)
  refine ⟨_, by rw [hp, ← hv, ← hn], hg, ?_, ?_⟩ <;> simp only [interpolate] <;> norm_num <;> nlinarith

/-- **C115** `optimize_mc` evaluates 14 kernel sizes within the bounds (whatever is drawn), and saves three images: the evaluated sizes with their values, as points in
increasing order; the mean that a Gaussian process fitted to exactly these 14 values predicts for every kernel size of the grid (no sample of the 2000 matters,
since there is no other hyperparameter), with a confidence band of its standard deviations; and in the third image only this band. -/
theorem C115_optimize {i : MainInput S} {lo up : ℝ} (hlu : lo < up) (hk : ∀ Z t, UnitCovariance 1 (i.choose Z t))
    (hdr : ∀ s n, ∀ c ∈ (i.drawer.draw s n).1, DrawnFrom (metaSpace lo up) c) (hca : ∀ s n, ∀ c ∈ (i.acqDrawer.draw s n).1, DrawnFrom (metaSpace lo up) c)
    {argsort : List ℝ → List Nat} (hsort : Argsort argsort) {g : ℝ → Py ℝ} {G : ℝ → ℝ} (hgv : ∀ v, lo ≤ v → v ≤ up → g v = .ok (G v))
    (hcache : ∀ p ∈ loadCache i.ofVec i.file, DrawnFrom (metaSpace lo up) p.1 ∧ ∀ v, p.1.get? "kernel_size" = some (.num v) → p.2 = G v)
    (kind : AcqKind) {nCandidates : Int} (hn : 2 ≤ nCandidates) {perAxis : Nat} (hP : 2 ≤ perAxis) {draws : Hp ℝ → Hp ℝ → Draws (Config ℝ)}
    {samples : List (List ℝ)} (hsa : ∀ q p, UnitDraws (metaSpace lo up) (draws q p) samples) (g0 : Gallery) :
    ∃ (s : BOState (Config ℝ) ℝ GpSurrogate S) (xs xo yo : List ℝ) (gp : GpSurrogate) (mu sd : List ℝ → ℝ) (ax axM axS : Ax ℝ) (shapes shapes' : List (Shape ℝ)),
      optimizeMc i argsort g lo up kind nCandidates perAxis draws g0 =
        (⟨g0.count, saveFig (saveFig (saveFig g0.files "samples" [ax]) "hyperparameters_mean" [axM]) "hyperparameters_std" [axS]⟩, .ok s) ∧
      xs.length = 14 ∧ ReadsAs "kernel_size" s.configs xs ∧ (∀ x ∈ xs, lo ≤ x ∧ x ≤ up) ∧ s.ys = xs.map G ∧
      ax = ⟨"kernel_size", "Prediction", false, false, some (lo, up), none, [.points "red" xo yo]⟩ ∧ xo.Pairwise (· ≤ ·) ∧
      (xo.zip yo).Perm (xs.zip (xs.map G)) ∧
      GpSurrogate.new.fit i.choose (s.configs.map Config.vector) (xs.map G) = (gp, .ok ()) ∧ RowWise 1 gp.predict mu sd ∧ (∀ r, r.length = 1 → 0 < sd r) ∧
      AxisOne ⟨"kernel_size", .float lo up false⟩ "Prediction" lo up false axM
        ([.line "red" (naturalGrid lo up false perAxis) ((List.range perAxis).map fun p => mu [gridValue perAxis p])] ++ shapes) ∧
      AxisOne ⟨"kernel_size", .float lo up false⟩ "Prediction" lo up false axS shapes' ∧
      ShowsConfidence "red" "lightsalmon" (3 / 2) (naturalGrid lo up false perAxis) ((List.range perAxis).map fun p => mu [gridValue perAxis p])
        ((List.range perAxis).map fun p => sd [gridValue perAxis p]) shapes ∧
      ShowsConfidence "red" "lightsalmon" (3 / 2) (naturalGrid lo up false perAxis) ((List.range perAxis).map fun p => mu [gridValue perAxis p])
        ((List.range perAxis).map fun p => sd [gridValue perAxis p]) shapes' := by
  obtain ⟨hp, hhp⟩ : ∃ hp : Hp ℝ, hp = ⟨"kernel_size", .float lo up false⟩ := ⟨_, rfl⟩
  have hcs : metaSpace lo up = [hp] := by rw [hhp]; rfl
  have hkind : hp.kind = .float lo up false := by rw [hhp]
  have hcall : ∀ c, DrawnFrom (metaSpace lo up) c → (∀ t, (metaObjective g).raises t c = none) ∧
      ∀ v, c.get? "kernel_size" = some (.num v) → (metaObjective g).value c = G v := by
    intro c hc
    obtain ⟨v, h1, h2, h3, h4⟩ := metaSpace_drawn hlu hc
    refine ⟨fun t => ?_, fun w hw => ?_⟩
    · simp only [metaObjective, h1, hgv v h3 h4]
    · rw [h2] at hw
      cases hw
      simp only [metaObjective, h1, hgv v h3 h4]
  obtain ⟨env, s, henv, hini, hsamp, hlen, hdrawn, hys⟩ := gp_sampler (i := i) (cs := metaSpace lo up) le_rfl hk hdr hca (o := metaObjective g)
    (fun c hc => (hcall c hc).1) (fun p hp => by
      obtain ⟨a, b⟩ := hcache p hp
      obtain ⟨v, -, h2, -⟩ := metaSpace_drawn hlu a
      exact ⟨a, by rw [b v h2, (hcall _ a).2 v h2]⟩) kind hn (initial := 4) (n := 14) (by norm_num) (by norm_num)
  have hne : s.configs ≠ [] := by
    intro h; rw [h] at hlen; simp at hlen
  obtain ⟨xs, hxs, hxb⟩ : ∃ xs, ReadsAs "kernel_size" s.configs xs ∧ ∀ x ∈ xs, lo ≤ x ∧ x ≤ up := by
    have key : ∀ l : List (Config ℝ), (∀ c ∈ l, DrawnFrom (metaSpace lo up) c) → ∃ xs, ReadsAs "kernel_size" l xs ∧ ∀ x ∈ xs, lo ≤ x ∧ x ≤ up := by
      intro l hl
      induction l with
      | nil => exact ⟨[], .nil, by simp⟩
      | cons c cs ih =>
        obtain ⟨v, -, h2, h3, h4⟩ := metaSpace_drawn hlu (hl c (by simp))
        obtain ⟨xs, h5, h6⟩ := ih fun c' hc' => hl c' (by simp [hc'])
        exact ⟨v :: xs, .cons h2 h5, by simpa using ⟨⟨h3, h4⟩, h6⟩⟩
    exact key _ hdrawn
  have hysx : s.ys = xs.map G := by
    rw [hys]
    refine List.ext_getElem (by simp [hxs.length_eq]) fun j h1 h2 => ?_
    have hj : j < s.configs.length := by simpa using h1
    have hj' : j < xs.length := by simpa using h2
    have := (List.forall₂_iff_get.1 hxs).2 j hj hj'
    rw [List.getElem_map, List.getElem_map]
    exact (hcall _ (hdrawn _ (List.getElem_mem hj))).2 _ this
  have hyl : s.ys.length = s.configs.length := by rw [hys, List.length_map]
  have hdata : TrainingData 1 (s.configs.map Config.vector) s.ys := configs_data le_rfl hne (fun c hc => (hdrawn c hc).1) hyl
  obtain ⟨gp, hfit, -, mu, sd, hrow, -, hsd⟩ := C99_unit hk hdata
  have hax := newAxis_one (hp := hp) (.inl hkind) "Prediction"
  have hname : hp.name = "kernel_size" := by rw [hhp]
  obtain ⟨xo, yo, p1, -, -, p4, p5⟩ := C86_one hsort (cs := [hp]) (sel := .none) rfl (s := s) hyl.symm (by rw [hname]; exact hxs) "red" hax
  have hwf : ConfigSpace.WF ([hp] : ConfigSpace ℝ) := by simp [ConfigSpace.WF]
  have hdecl : AllDeclared [hp] := by
    intro h hm
    obtain rfl := List.mem_singleton.1 hm
    exact ⟨lo, up, false, hwf, ⟨h, by simp, rfl, .inl hkind⟩, hlu, by simp⟩
  rw [hcs] at hsa
  obtain ⟨M, T, m1, m2, m3, m4⟩ := C94_matrix hwf hdecl (by simp) hrow hP (draws := draws) (samples := fun _ _ => samples) (fun q _ p _ => hsa q p)
  obtain ⟨rowM, rowS, r1, r2, r3, r4, ⟨axM, axS, shapes, shapes', a1, a2, a3, a4, a5, a6⟩, -⟩ := m4 0 hp lo up false rfl (.inl hkind)
  have hM : M = [[axM]] := by
    obtain ⟨x, rfl⟩ := List.length_eq_one_iff.1 (show M.length = 1 from m2)
    obtain rfl : x = rowM := by simpa using r1
    obtain ⟨y, rfl⟩ := List.length_eq_one_iff.1 (show x.length = 1 from r3)
    obtain rfl : y = axM := by simpa using a1
    rfl
  have hT : T = [[axS]] := by
    obtain ⟨x, rfl⟩ := List.length_eq_one_iff.1 (show T.length = 1 from m3)
    obtain rfl : x = rowS := by simpa using r2
    obtain ⟨y, rfl⟩ := List.length_eq_one_iff.1 (show x.length = 1 from r4)
    obtain rfl : y = axS := by simpa using a2
    rfl
  obtain ⟨configs, -, hsm, hs0, hsl⟩ := hsa hp hp
  have hset : ∀ r ∈ samples, ∀ t, r.set 0 t = [t] := by
    intro r hr t
    obtain ⟨e, rfl⟩ := List.length_eq_one_iff.1 (show r.length = 1 from (hsl r hr).1)
    rfl
  have hs1 : (samples.length : ℝ) ≠ 0 := by
    have := List.length_pos_iff.2 hs0
    positivity
  have hmean : ∀ (φ : List ℝ → ℝ) t, (meanOver samples fun r => φ (r.set 0 t)) = φ [t] := by
    intro φ t
    have : (samples.map fun r => φ (r.set 0 t)) = samples.map fun _ => φ [t] := List.map_congr_left fun r hr => by rw [hset r hr]
    rw [meanOver, this, List.map_const', List.sum_replicate, nsmul_eq_mul, mul_comm, mul_div_assoc, div_self hs1, mul_one]
  have e1 : pdpMeans samples mu 0 perAxis = (List.range perAxis).map fun p => mu [gridValue perAxis p] := by
    unfold pdpMeans
    exact List.map_congr_left fun p _ => hmean mu _
  have e2 : pdpStds samples sd 0 perAxis = (List.range perAxis).map fun p => sd [gridValue perAxis p] := by
    unfold pdpStds
    refine List.map_congr_left fun p _ => ?_
    rw [hmean (fun r => sd r ^ 2), Real.sqrt_sq (hsd _ rfl).1.le]
  rw [e1] at a3 a5 a6
  rw [e2] at a5 a6
  rw [hysx] at hfit p5
  refine ⟨s, xs, xo, yo, gp, mu, sd, _, axM, axS, shapes, shapes', ?_, by rw [← hxs.length_eq, hlen]; rfl, hxs, hxb, hysx, rfl, p4, p5, hfit, hrow,
    fun r hr => (hsd r hr).1, by rw [← hhp]; exact a3, by rw [← hhp]; exact a4, a5, a6⟩
  unfold optimizeMc
  rw [hcs]
  dsimp only
  rw [hcs] at henv
  have e4 : (4 : Int) * (([hp] : List (Hp ℝ)).length : Int) = 4 := by simp
  have e14 : (34 : Int) * (([hp] : List (Hp ℝ)).length : Int) - 20 = 14 := by simp
  rw [e4, e14, Show.lift_bind henv]
  dsimp only
  rw [Show.sampled_bind hsamp, Show.on_bind p1, Show.bind_ok (p := Show.save _ _) rfl, Show.changed_bind (by rw [hysx]; exact hfit)]
  unfold showMatrix
  rw [Show.changed_bind (by rw [m1])]
  dsimp only
  rw [Show.bind_ok (p := Show.save _ _) rfl, Show.bind_ok (p := Show.save _ _) rfl, hM, hT, hname]
  rfl

/-! ### examples -/

/-- the numbers of the script, two kernels one after the other, without a file at the start: everything drawn is the middle of the space -/
example : ∃ (i : MainInput Unit) (f : BlackboxFn ℝ) (a b : MetaRun Unit),
    metaCalls i f 3 (.lcb 1) 100 20 100 10 3 .absent [fun _ _ => matern 1, fun _ _ => matern 2] = .ok [a, b] ∧ a.sampler.configs.length = 94 ∧
    a.sampler.configs = b.sampler.configs ∧ a.delta = 1 - a.mc / a.baseMc := by
  classical
  obtain ⟨cs, hf, hs, -⟩ := stSpace_ok (order := id) (fun l => List.Perm.refl l) 3
  obtain ⟨dr, hdr⟩ : ∃ dr : Drawer (Config ℝ) Unit, dr = ⟨fun _ n => (List.replicate n (midConfig cs), ()), by simp⟩ := ⟨_, rfl⟩
  have hdrawn : ∀ s n, ∀ c ∈ (dr.draw s n).1, DrawnFrom cs c := by
    intro s n c hc
    rw [hdr] at hc
    rw [List.eq_of_mem_replicate hc]
    exact midConfig_drawn hs
  obtain ⟨ofVec, hof⟩ : ∃ ofVec : List ℝ → Py (Config ℝ), ∀ c, DrawnFrom cs c → ofVec c.vector = .ok c := by
    refine ⟨fun v => if h : ∃ c, DrawnFrom cs c ∧ c.vector = v then .ok h.choose else .error .value, fun c hc => ?_⟩
    have hex : ∃ c', DrawnFrom cs c' ∧ c'.vector = c.vector := ⟨c, hc, rfl⟩
    dsimp only
    rw [dif_pos hex, DrawnFrom.unique hs hex.choose_spec.1 hc hex.choose_spec.2]
  obtain ⟨rs, h1, h2, p, v, h3⟩ := C115_shared (S := Unit) (d := 3)
    (i := ⟨id, fun _ _ => matern 1, fun _ _ => 0, dr, dr, (), ofVec, .absent, .many (List.replicate 1000 (midConfig cs))⟩)
    (fun l => List.Perm.refl l) (by norm_num) hf hof (.lcb 1) (nCandidates := 100) (by norm_num) (perAxis := 20) (by norm_num) 100 (minPoints := 10) (by norm_num)
    (nSplits := 3) (by norm_num) (file := .absent) (kernels := [fun _ _ => matern 1, fun _ _ => matern 2]) (by
      intro k hk
      refine ⟨fun l => List.Perm.refl l, ?_, hdrawn, hdrawn, by simp [loadCache],
        ⟨_, rfl, List.ne_nil_of_length_pos (by rw [List.length_replicate]; norm_num), fun c hc => by rw [List.eq_of_mem_replicate hc]; exact midConfig_drawn hs⟩⟩
      intro Z t
      rcases List.mem_cons.1 hk with rfl | hk
      · exact matern_unit one_pos _
      · rw [List.mem_singleton.1 hk]; exact matern_unit two_pos _)
  obtain ⟨a, as, ha, has, rfl⟩ := List.forall₂_cons_left_iff.1 h2
  obtain ⟨b, bs, hb, hbs, rfl⟩ := List.forall₂_cons_left_iff.1 has
  obtain rfl := List.forall₂_nil_left_iff.1 hbs
  refine ⟨_, _, a, b, h1, ?_, by rw [(h3 a (by simp)).1, (h3 b (by simp)).1], ?_⟩
  · obtain ⟨-, -, -, -, -, -, -, h, -⟩ := ha
    exact h
  · obtain ⟨-, -, -, -, -, -, -, -, -, -, -, -, -, -, -, -, -, -, -, -, -, -, h, -⟩ := ha
    exact h

/-- the script minimises `g v = v ^ 2` over `[1/10, 5]`: every draw is the middle of the space -/
example : ∃ (i : MainInput Unit) (s : BOState (Config ℝ) ℝ GpSurrogate Unit) (xs : List ℝ) (ax axM axS : Ax ℝ),
    optimizeMc i exArgsort (fun v => .ok (v ^ 2)) (1 / 10) 5 (.lcb (1 / 10)) 500 50 (fun _ _ => .many [⟨[1 / 2], []⟩]) ⟨0, []⟩ =
      (⟨0, [("samples", [ax]), ("hyperparameters_mean", [axM]), ("hyperparameters_std", [axS])]⟩, .ok s) ∧
    xs.length = 14 ∧ s.ys = xs.map (fun v => v ^ 2) := by
  obtain ⟨dr, hdr⟩ : ∃ dr : Drawer (Config ℝ) Unit, dr = ⟨fun _ n => (List.replicate n ⟨[1 / 2], [("kernel_size", .num (51 / 20))]⟩, ()), by simp⟩ := ⟨_, rfl⟩
  have hdrawn : ∀ s n, ∀ c ∈ (dr.draw s n).1, DrawnFrom (metaSpace (1 / 10) 5) c := by
    intro s n c hc
    rw [hdr] at hc
    rw [List.eq_of_mem_replicate hc]
    refine ⟨rfl, by norm_num, rfl, ?_⟩
    intro j hp l u lg e h1 h2 h3
    match j with
    | 0 =>
      cases Option.some.inj h1
      cases h2
      cases Option.some.inj h3
      simp [Config.get?, interpolate]
      norm_num
    | j + 1 => simp [metaSpace] at h1
  obtain ⟨s, xs, xo, yo, gp, mu, sd, ax, axM, axS, -, -, h1, h2, -, -, h3, -⟩ := C115_optimize (S := Unit)
    (i := ⟨id, fun _ _ => matern 1, fun _ _ => 0, dr, dr, (), fun _ => .error .value, .absent, .many []⟩) (lo := 1 / 10) (up := 5) (by norm_num)
    (fun _ _ => matern_unit one_pos _) hdrawn hdrawn exArgsort_sorts (g := fun v => .ok (v ^ 2)) (G := fun v => v ^ 2) (fun _ _ _ => rfl) (by simp [loadCache])
    (.lcb (1 / 10)) (nCandidates := 500) (by norm_num) (perAxis := 50) (by norm_num) (draws := fun _ _ => .many [⟨[1 / 2], []⟩]) (samples := [[1 / 2]])
    (fun _ _ => ⟨_, rfl, rfl, by simp, by norm_num [metaSpace]⟩) ⟨0, []⟩
  exact ⟨_, s, xs, ax, axM, axS, h1, h2, h3⟩

end PyPDP
