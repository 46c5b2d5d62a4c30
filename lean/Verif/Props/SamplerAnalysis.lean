/-
C117: `plot_sampling_bias` of examples/main_sampler_analysis.py.
-/
import Verif.Model.SamplerAnalysis
import Verif.Props.PaperFigures
import Verif.Props.MMD
import Verif.Lemmas.Grid

namespace PyPDP
open Spec
variable {S : Type}

/-! ### the grid -/

theorem gridConfigs_drawn {d : Nat} {cs : ConfigSpace ℝ} (hs : StSpace d cs) {k : Nat} {c : Config ℝ} (hc : c ∈ gridConfigs cs k) : DrawnFrom cs c := by
  obtain ⟨vs, hvs, rfl⟩ := List.mem_map.1 hc
  rw [generateGrid, mem_cartesian, List.forall₂_map_right_iff] at hvs
  have hlen : vs.length = cs.length := hvs.length_eq
  have hat : ∀ (j : Nat) (hp : Hp ℝ), cs[j]? = some hp → ∃ x : ℝ, vs[j]? = some (.num x) ∧ -5 ≤ x ∧ x ≤ 5 := by
    intro j hp hj
    obtain ⟨hj', rfl⟩ := List.getElem?_eq_some_iff.1 hj
    have hm := (List.forall₂_iff_get.1 hvs).2 j (by omega) hj'
    simp only [List.get_eq_getElem] at hm
    rw [axisGrid, hs.kind _ (List.getElem_mem hj')] at hm
    obtain ⟨x, hx, e⟩ := List.mem_map.1 hm
    refine ⟨x, by rw [List.getElem?_eq_getElem (by omega), e], ?_⟩
    exact linspace_mem_range (by norm_num) hx
  refine ⟨by simp [valuesConfig, hlen], fun e he => ?_, ?_, fun j hp l u g e hj hk he => ?_⟩
  · obtain ⟨j, hj, rfl⟩ := List.getElem_of_mem he
    simp only [valuesConfig, List.length_zipWith] at hj
    obtain ⟨x, hx, h1, h2⟩ := hat j cs[j] (List.getElem?_eq_getElem (by omega))
    obtain ⟨hj', e⟩ := List.getElem?_eq_some_iff.1 hx
    simp only [valuesConfig, List.getElem_zipWith, e, unitValue, hs.kind _ (List.getElem_mem (show j < cs.length by omega))]
    constructor
    · exact div_nonneg (by linarith) (by norm_num)
    · rw [div_le_one (by norm_num)]; linarith
  · simp [valuesConfig, List.map_fst_zip, hlen]
  · have hm := List.mem_of_getElem? hj
    obtain ⟨x, hx, h1, h2⟩ := hat j hp hj
    have := hs.kind hp hm
    rw [hk] at this
    cases this
    have he' : e = (x + 5) / 10 := by
      simp only [valuesConfig, List.getElem?_zipWith, hj, hx, unitValue, hk] at he
      rw [← Option.some.inj he]
      norm_num
    have h0 : interpolate (-5) 5 false e = x := by rw [he']; simp only [interpolate]; norm_num; ring
    rw [h0]
    refine get?_of_mem ?_ ?_ _
    · rw [List.map_fst_zip (by simp [hlen])]
      exact hs.wf
    · refine List.mem_of_getElem? (i := j) ?_
      simp [List.getElem?_zip_eq_some, hj, hx]

theorem gridConfigs_size {d : Nat} {cs : ConfigSpace ℝ} (hs : StSpace d cs) (k : Nat) : (gridConfigs cs k).length = k ^ d ∧ (gridConfigs cs k).Nodup := by
  obtain ⟨h1, h2⟩ := C28_grid_size (fun _ _ => []) cs (fun hp hm => ⟨-5, 5, false, hs.kind hp hm, by norm_num, by simp⟩) k
  rw [hs.len] at h1
  refine ⟨by rw [gridConfigs, List.length_map, h1], List.Nodup.map_on (fun a ha b hb e => ?_) h2⟩
  rw [generateGrid, mem_cartesian] at ha hb
  have la : a.length = (cs.map Hp.name).length := by have := ha.length_eq; simpa using this
  have lb : b.length = (cs.map Hp.name).length := by have := hb.length_eq; simpa using this
  have := congrArg (fun c : Config ℝ => c.values.map Prod.snd) e
  simp only [valuesConfig] at this
  rwa [List.map_snd_zip (by omega), List.map_snd_zip (by omega)] at this

/-- a grid of unused points is used up in order -/
theorem gridLoop_mem {C K G : Type} [DecidableEq C] (o : Objective C K) (g : List C) (hno : ∀ c ∈ g, ∀ t, o.raises t c = none) (s : SamplerState C K (GridExtra C G))
    (hnd : g.Nodup) (hdis : ∀ c ∈ g, c ∉ s.configs) (m : Nat) (hm : m ≤ g.length) :
    ∃ t, gridLoop o (s.configs.length + m) g s = (t, none) ∧ t.configs = s.configs ++ g.take m ∧ t.ys = s.ys ++ (g.take m).map o.value := by
  induction g generalizing s m with
  | nil =>
    have : m = 0 := by simpa using hm
    subst this
    exact ⟨s, by simp [gridLoop], by simp, by simp⟩
  | cons c rest ih =>
    cases m with
    | zero => exact ⟨s, by simp [gridLoop], by simp, by simp⟩
    | succ m =>
      have hc : c ∉ s.configs := hdis c List.mem_cons_self
      have hv : o.eval s.calls c = .ok (o.value c) := by rw [Objective.eval, hno c List.mem_cons_self]
      unfold gridLoop
      rw [if_pos (by omega)]
      dsimp only
      rw [if_neg hc, hv]
      dsimp only
      obtain ⟨hnc, hnd⟩ := List.nodup_cons.1 hnd
      obtain ⟨t, h1, h2, h3⟩ := ih (fun c' hc' => hno c' (List.mem_cons_of_mem _ hc')) ((({ s with extra := { s.extra with grid := some rest } } :
          SamplerState C K (GridExtra C G)).record c (o.value c)).tick) hnd (by
        intro c' hc' hmem
        simp only [SamplerState.record, SamplerState.tick] at hmem
        rcases List.mem_append.1 hmem with hmem | hmem
        · exact hdis c' (List.mem_cons_of_mem _ hc') hmem
        · rw [List.mem_singleton] at hmem; exact hnc (hmem ▸ hc')) m (by simpa using hm)
      have e : ((({ s with extra := { s.extra with grid := some rest } } :
          SamplerState C K (GridExtra C G)).record c (o.value c)).tick).configs.length + m = s.configs.length + (m + 1) := by
        simp [SamplerState.record, SamplerState.tick]; omega
      rw [e] at h1
      exact ⟨t, h1, by rw [h2]; simp [SamplerState.record, SamplerState.tick], by rw [h3]; simp [SamplerState.record, SamplerState.tick]⟩

open Classical in
/-- the grid sampler: the first `n` points of the shuffled grid, which has the smallest number of steps that gives enough points -/
theorem grid_run {i : MainInput S} {d : Nat} (hd : 1 ≤ d) {cs : ConfigSpace ℝ} (hs : StSpace d cs) (hi : i.Good cs) (shuffle : List (Config ℝ) → List (Config ℝ))
    (hsh : ∀ l, (shuffle l).Perm l) {n : Int} (hn : 2 ≤ n) :
    ∃ s, gridSampler (callObjective i.inv ⟨cs, styblinskiTangValue cs⟩) ⟨cs.length, ceilRoot cs.length, gridConfigs cs, fun (_ : Unit) l => (shuffle l, ())⟩
        (samplerInit i.ofVec i.file ⟨none, ()⟩) n = (s, none) ∧
      s.configs.length = n.toNat ∧ (∀ c ∈ s.configs, DrawnFrom cs c) ∧ s.ys.length = s.configs.length ∧
      (∀ (j : Nat) c y, s.configs[j]? = some c → s.ys[j]? = some y → styblinskiTangValue cs c = .ok y) ∧
      (loadCache i.ofVec i.file = [] → s.configs = (shuffle (gridConfigs cs (ceilRoot d n.toNat))).take n.toNat) := by
  obtain ⟨o, ho⟩ : ∃ o, o = callObjective i.inv ⟨cs, styblinskiTangValue cs⟩ := ⟨_, rfl⟩
  have hval : ∀ c, DrawnFrom cs c → styblinskiTangValue cs c = .ok (o.value c) ∧ ∀ t, o.raises t c = none := fun c hc => by
    rw [ho]; exact objective_drawn hs i.inv hc
  rw [← ho]
  unfold gridSampler
  by_cases hc : n ≤ (loadCache i.ofVec i.file).length
  · obtain ⟨l, hl⟩ : ∃ l, l = (loadCache i.ofVec i.file).take n.toNat := ⟨_, rfl⟩
    have hmem : ∀ x ∈ l, DrawnFrom cs x.1 ∧ styblinskiTangValue cs x.1 = .ok x.2 := fun x hx => hi.cache x (by rw [hl] at hx; exact List.mem_of_mem_take hx)
    refine ⟨_, sampleWith_hit _ (by omega) (by simpa [samplerInit] using hc), ?_, fun c hc' => ?_, ?_, fun j c y hj hy => ?_, fun h0 => ?_⟩
    · simp only [afterHit, samplerInit, List.nil_append, List.length_map, List.length_take]
      omega
    · simp only [afterHit, samplerInit, List.nil_append, ← hl] at hc'
      obtain ⟨x, hx, rfl⟩ := List.mem_map.1 hc'
      exact (hmem x hx).1
    · simp [afterHit, samplerInit]
    · simp only [afterHit, samplerInit, List.nil_append, ← hl, List.getElem?_map] at hj hy
      obtain ⟨x, hx, rfl⟩ := Option.map_eq_some_iff.1 hj
      rw [hx] at hy
      rw [← Option.some.inj hy]
      exact (hmem x (List.mem_of_getElem? hx)).2
    · rw [h0] at hc
      simp at hc
      omega
  · obtain ⟨g, hg⟩ : ∃ g, g = shuffle (gridConfigs cs (ceilRoot d n.toNat)) := ⟨_, rfl⟩
    have hp : g.Perm (gridConfigs cs (ceilRoot d n.toNat)) := hg ▸ hsh _
    obtain ⟨h1, h2⟩ := gridConfigs_size hs (ceilRoot d n.toNat)
    have hgd : ∀ c ∈ g, DrawnFrom cs c := fun c hc => gridConfigs_drawn hs (hp.mem_iff.1 hc)
    have hgl : n.toNat ≤ g.length := by rw [hp.length_eq, h1]; exact le_ceilRoot_pow (by omega)
    obtain ⟨t, g1, g2, g3⟩ := gridLoop_mem (G := Unit) o g (fun c hc => (hval c (hgd c hc)).2) ⟨[], [], [], 0, ⟨some g, ()⟩⟩ (hp.nodup_iff.2 h2) (by simp) n.toNat hgl
    simp only [List.nil_append] at g2 g3
    refine ⟨t, ?_, by rw [g2, List.length_take]; omega, fun c hc => hgd c (List.mem_of_mem_take (g2 ▸ hc)), by rw [g2, g3]; simp, fun j c y hj hy => ?_, fun _ => by rw [g2, hg]⟩
    · rw [sampleWith_miss _ (by simp only [samplerInit, List.length_nil]; omega), sampleWith_nocache _ _ rfl, if_pos (by omega), gridSample]
      have hlen : List.length cs = d := hs.len
      simp only [samplerInit, SamplerState.clearCache, List.length_nil, gridPrepare, Nat.cast_zero, zero_add]
      rw [if_neg (by omega), hlen, ← hg]
      dsimp only
      simpa using g1
    · rw [g2] at hj
      rw [g3, List.getElem?_map, hj] at hy
      rw [(hval c (hgd c (List.mem_of_mem_take (List.mem_of_getElem? hj)))).1, ← Option.some.inj hy]

/-! ### one repetition -/

/-- what is assumed about one repetition: as for the other scripts, the grid is only reordered, the uniform draws contain two different points -/
structure BiasInput.Good (i : BiasInput S) (cs : ConfigSpace ℝ) : Prop where
  main : i.main.Good cs
  shuffle : ∀ l, (i.shuffle l).Perm l
  uniform : ∃ l, i.uniform = .many l ∧ (∀ c ∈ l, DrawnFrom cs c) ∧ ∃ a ∈ l, ∃ b ∈ l, a.vector ≠ b.vector

/-- any of the samplers -/
theorem bias_sample {i : BiasInput S} {d : Nat} (hd : 1 ≤ d) {cs : ConfigSpace ℝ} (hs : StSpace d cs) (hi : i.Good cs) (sampler : BiasSampler) {nCandidates : Int}
    (hnc : 2 ≤ nCandidates) {n : Int} (hn : 2 ≤ n) :
    ∃ s, biasSample ⟨cs, styblinskiTangValue cs⟩ (4 * d) nCandidates n i sampler = .ok s ∧
      s.configs.length = n.toNat ∧ (∀ c ∈ s.configs, DrawnFrom cs c) ∧ s.ys.length = s.configs.length ∧
      (∀ (j : Nat) c y, s.configs[j]? = some c → s.ys[j]? = some y → styblinskiTangValue cs c = .ok y) ∧
      (sampler = .random → loadCache i.main.ofVec i.main.file = [] → s.configs = (i.main.drawer.draw i.main.rng n.toNat).1) ∧
      (sampler = .grid → loadCache i.main.ofVec i.main.file = [] → s.configs = (i.shuffle (gridConfigs cs (ceilRoot d n.toNat))).take n.toNat) ∧
      ∀ kind, sampler = .bayes kind → loadCache i.main.ofVec i.main.file = [] → OptimisedBy d i.main kind (4 * d) nCandidates.toNat s.configs s.ys := by
  cases sampler with
  | bayes kind =>
    obtain ⟨env, s, henv, hsamp, hsl, hsd, hyl, hsv⟩ := main_sampler hd hs hi.main kind hnc (initial := 4 * d) (by omega) (n := n) (by omega)
    replace hsamp : boSample (callObjective i.main.inv ⟨cs, styblinskiTangValue cs⟩) env (startSampler i.main .new) n = (s, none) := hsamp
    refine ⟨⟨s.configs, s.ys, s.cache, s.calls, ()⟩, ?_, hsl, hsd, hyl, hsv, fun h => (by cases h), fun h => (by cases h), fun kind' h h0 => ?_⟩
    · unfold biasSample
      dsimp only
      rw [henv, Py.ok_bind]
      dsimp only
      rw [hsamp]
    · cases h
      refine main_sampler_points (n := n.toNat) hd hs hi.main (by rw [← henv]; norm_num) (o := callObjective i.main.inv ⟨cs, styblinskiTangValue cs⟩) ?_ h0 hsl hsd
      rw [Int.toNat_of_nonneg (by omega)]
      exact hsamp
  | random =>
    obtain ⟨s, hsamp, hsl, hsd, hyl, hsv, hdr⟩ := random_run hs hi.main hn
    refine ⟨⟨s.configs, s.ys, s.cache, s.calls, ()⟩, ?_, hsl, hsd, hyl, hsv, fun _ => hdr, fun h => (by cases h), fun _ h => (by cases h)⟩
    unfold biasSample
    dsimp only
    rw [hsamp]
  | grid =>
    obtain ⟨s, hsamp, hsl, hsd, hyl, hsv, hdr⟩ := grid_run hd hs hi.main i.shuffle hi.shuffle hn
    refine ⟨⟨s.configs, s.ys, s.cache, s.calls, ()⟩, ?_, hsl, hsd, hyl, hsv, fun h => (by cases h), fun _ => hdr, fun _ h => (by cases h)⟩
    unfold biasSample
    dsimp only
    rw [hsamp]

/-- the means over the samples of the squared predicted standard deviations -/
noncomputable def pdpVariances (samples : List (List ℝ)) (sd : List ℝ → ℝ) (f n : Nat) : List ℝ :=
  (List.range n).map fun i => meanOver samples fun r => sd (r.set f (gridValue n i)) ^ 2

/-- the curve of a new PDP of one hyperparameter -/
theorem curve_one {s : PdpState ℝ} (hs : PdpFresh s) (hi : s.ice = none) {mu sd : List ℝ → ℝ} (hc : Plottable s.cfg mu sd) {hp : Hp ℝ} (hsel : s.cfg.selected = [hp])
    {f : Nat} (hf : IsFeature s.cfg.space hp f) :
    ∃ x, (pdpCurve s).2 = .ok ⟨s.cfg.space, [hp], x, pdpMeans s.cfg.samples mu f s.cfg.perAxis, pdpVariances s.cfg.samples sd f s.cfg.perAxis⟩ ∧
      x.length = s.cfg.perAxis ∧ (∀ r ∈ x, r.length = s.cfg.space.length ∧ ∀ e ∈ r, 0 ≤ e ∧ e ≤ 1) ∧
      ∀ p < s.cfg.perAxis, ∀ f', IsFeature s.cfg.space hp f' → at2 x p f' = some (gridValue s.cfg.perAxis p) := by
  obtain ⟨idx, grid, x, y, v, hidx, hgr, -, hcurve, hvalid, -, hl, hat⟩ := pdp_core hs hi hc
  rw [hsel] at hidx hgr
  obtain rfl := idx_one hc.valid.wf hf hidx
  rw [List.length_singleton, gridPoints_one] at hgr
  obtain rfl := Except.ok.inj hgr
  rw [List.length_map, linspace_length] at hl
  have key : ∀ p < s.cfg.perAxis, _ := fun p hp' => hat p [gridValue s.cfg.perAxis p] (by rw [List.getElem?_map, linspace_gridValue hp']; rfl)
  have hy : y = pdpMeans s.cfg.samples mu f s.cfg.perAxis := eq_range_map (hvalid.values.trans hl) fun p hp' => (key p hp').2.1
  have hv : v = pdpVariances s.cfg.samples sd f s.cfg.perAxis := eq_range_map (hvalid.variances.trans hl) fun p hp' => (key p hp').2.2
  refine ⟨x, by rw [hcurve, hsel, hy, hv], hl, hvalid.rows, fun p hp' f' hf' => ?_⟩
  exact (key p hp').1 0 hp f' (by rw [hsel]; rfl) hf'

/-- One repetition: the sampler evaluated `n` points, the surrogate is a Gaussian process fitted to exactly these, the curve is its partial dependence on `x1` (hyperparameter
number `e`), and the discrepancy is that between the `n` points and the uniform draws. Without a cache file the random sampler takes what it draws, and the grid sampler takes `n` points of a
grid with as few steps as possible, and Bayesian optimisation chooses each point after the first `4 d` with its acquisition function. -/
def BiasRunOf (d : Nat) (cs : ConfigSpace ℝ) (nCandidates e P n : Nat) (kind : BiasSampler) (i : BiasInput S) (r : BiasRun) : Prop :=
  r.configs.length = n ∧ r.ys.length = n ∧ (∀ c ∈ r.configs, DrawnFrom cs c) ∧
  (∀ (j : Nat) c y, r.configs[j]? = some c → r.ys[j]? = some y → styblinskiTangValue cs c = .ok y) ∧
  (kind = .random → loadCache i.main.ofVec i.main.file = [] → r.configs = (i.main.drawer.draw i.main.rng n).1) ∧
  (kind = .grid → loadCache i.main.ofVec i.main.file = [] →
    ∃ k, n ≤ k ^ d ∧ (∀ j, n ≤ j ^ d → k ≤ j) ∧ r.configs = (i.shuffle (gridConfigs cs k)).take n) ∧
  (∀ acq, kind = .bayes acq → loadCache i.main.ofVec i.main.file = [] → OptimisedBy d i.main acq (4 * d) nCandidates r.configs r.ys) ∧
  GpSurrogate.new.fit i.main.choose (r.configs.map Config.vector) r.ys = (r.surrogate, .ok ()) ∧
  (∃ mu sd draws, RowWise d r.surrogate.predict mu sd ∧ i.main.iceDraws = .many draws ∧ r.curve.y = pdpMeans (draws.map Config.vector) mu e P ∧
    r.curve.v = pdpVariances (draws.map Config.vector) sd e P) ∧
  ∃ uniform l m, i.uniform = .many uniform ∧ medianDistanceBetweenPoints (r.configs.map Config.vector ++ uniform.map Config.vector) = .ok l ∧ 0 < l ∧ r.mmd = .ok m ∧ 0 ≤ m ∧
    m ^ 2 = max 0 (mmdSquared (rbfKernel d l) (r.configs.map Config.vector) (uniform.map Config.vector))

/-- the points of the curve -/
def EvenPoints (cs : ConfigSpace ℝ) (hp : Hp ℝ) (P : Nat) (x : List (List ℝ)) : Prop :=
  x.length = P ∧ (∀ r ∈ x, r.length = cs.length ∧ ∀ e ∈ r, 0 ≤ e ∧ e ≤ 1) ∧ ∀ p < P, ∀ f', IsFeature cs hp f' → at2 x p f' = some (gridValue P p)

theorem bias_run {order : SpaceOrder ℝ} {d : Nat} (hd : 1 ≤ d) {cs : ConfigSpace ℝ}
    (hf : forNDimensions order (-5) 5 false styblinskiTangValue (d : ℝ) none none = .ok ⟨cs, styblinskiTangValue cs⟩) (hs : StSpace d cs) {hp : Hp ℝ} {e : Nat}
    (he : cs[e]? = some hp) (hname : hp.name = "x1") {i : BiasInput S} (hi : i.Good cs) (kind : BiasSampler) {nCandidates : Int} (hnc : 2 ≤ nCandidates) {n : Int} (hn : 2 ≤ n)
    {P : Nat} (hP : 1 ≤ P) :
    ∃ r, biasRun order d nCandidates n P kind i = .ok r ∧ BiasRunOf d cs nCandidates.toNat e P n.toNat kind i r ∧ EvenPoints cs hp P r.curve.x := by
  have hlen : List.length cs = d := hs.len
  have hhp := List.mem_of_getElem? he
  obtain ⟨s, hsamp, hsl, hsd, hyl, hsv, hdrw, hgrid, hopt⟩ := bias_sample hd hs hi kind hnc hn
  have hne : s.configs ≠ [] := List.ne_nil_of_length_pos (by omega)
  have hdata : TrainingData d (s.configs.map Config.vector) s.ys := configs_data hd hne (fun c hc => by rw [(hsd c hc).1, hlen]) hyl
  obtain ⟨gp, hfit, -, mu, sd, hrow, -, -⟩ := C99_unit (by rw [← hlen]; exact hi.main.kernel) hdata
  have hrow' : RowWise (List.length cs) gp.predict mu sd := by rw [hlen]; exact hrow
  obtain ⟨l, hl1, hl2, hl3⟩ := hi.main.ice
  obtain ⟨samples, hsm⟩ : ∃ y, y = l.map Config.vector := ⟨_, rfl⟩
  have hdr : UnitDraws cs i.main.iceDraws samples := by
    refine ⟨l, hl1, hsm, by rw [hsm]; simpa using hl2, fun r hr => ?_⟩
    rw [hsm] at hr
    obtain ⟨c, hc, rfl⟩ := List.mem_map.1 hr
    exact ⟨(hl3 c hc).1, (hl3 c hc).2.1⟩
  have hdecl : AllDeclared cs := fun h' hm' => ⟨-5, 5, false, hs.declares hm'⟩
  obtain ⟨c, hc⟩ : ∃ c : IceCfg ℝ, c = ⟨cs, [hp], samples, samples.length, P, P ^ 1, false, gp.predict⟩ := ⟨_, rfl⟩
  have hget : cs.get "x1" = .ok hp := by rw [← hname]; exact ConfigSpace.get_of_mem hs.wf hhp
  have hsel : convertHyperparameters (.many [.name "x1"]) cs = .ok [hp] := by
    simp [convertHyperparameters, resolveItem, hget]
  have hpdp : pdpInit cs gp.predict (.many [.name "x1"]) samples P = .ok ⟨c, none, none, none, none⟩ := by
    unfold pdpInit
    rw [algorithmInit, hsel, hc]
    rfl
  have hplt := plottable_drawn hs.wf hdecl hrow' (by omega : P ≠ 0) hdr (sel := [hp]) (by simpa using hhp) (by simp) (by simp)
  rw [List.length_singleton, ← hc] at hplt
  obtain ⟨x, hx1, hx2, hx3, hx4⟩ := curve_one (s := ⟨c, none, none, none, none⟩) ⟨rfl, rfl, rfl⟩ rfl hplt (hp := hp) (f := e) (by rw [hc]) (by rw [hc]; exact ⟨hp, he, rfl⟩)
  have hc1 : c.space = cs := by rw [hc]
  have hc2 : c.samples = samples := by rw [hc]
  have hc3 : c.perAxis = P := by rw [hc]
  dsimp only at hx1 hx2 hx3 hx4
  rw [hc1, hc2, hc3] at hx1
  rw [hc3] at hx2
  rw [hc1] at hx3
  rw [hc1, hc3] at hx4
  obtain ⟨u, hu1, hu2, a, ha, b, hb, hab⟩ := hi.uniform
  have hul : 2 ≤ (u.map Config.vector).length := by
    by_contra hcon
    rw [List.length_map] at hcon
    match u, ha, hb, hcon with
    | [z], ha, hb, _ => exact hab (by rw [List.mem_singleton.1 ha, List.mem_singleton.1 hb])
    | _ :: _ :: _, _, _, hcon => exact hcon (by simp)
  have hvec : ∀ q : List (Config ℝ), (∀ c ∈ q, DrawnFrom cs c) → ∀ r ∈ q.map Config.vector, r.length = d := by
    intro q hq r hr
    obtain ⟨c, hc, rfl⟩ := List.mem_map.1 hr
    rw [(hq c hc).1, hlen]
  obtain ⟨w, m, hm1, hm2, hm3, hm4, hm5⟩ := C33_value (hvec _ hsd) (hvec _ hu2) (by rw [List.length_map]; omega) hul
    ⟨a.vector, List.mem_append_right _ (List.mem_map_of_mem ha), b.vector, List.mem_append_right _ (List.mem_map_of_mem hb), hab⟩
  refine ⟨⟨s.configs, s.ys, gp, ⟨cs, [hp], x, pdpMeans samples mu e P, pdpVariances samples sd e P⟩, .ok m⟩, ?_, ⟨hsl, hyl.trans hsl, hsd, hsv, hdrw, fun h1 h2 => ⟨_, le_ceilRoot_pow (by omega), fun j => ceilRoot_le, hgrid h1 h2⟩, hopt, hfit,
    ⟨mu, sd, l, hrow, hl1, by rw [← hsm], by rw [← hsm]⟩, u, w, m, hu1, hm1, hm2, rfl, hm4, hm5⟩, hx2, hx3, hx4⟩
  unfold biasRun
  rw [hf, Py.ok_bind]
  dsimp only
  rw [hsamp, Py.ok_bind, hfit]
  dsimp only
  rw [samplesOf_drawn hdr, Py.ok_bind, hpdp, Py.ok_bind, hx1, Py.ok_bind, hu1]
  show (do let uniform ← Except.ok (u.map Config.vector); _ : Py BiasRun) = _
  rw [Py.ok_bind, hm3]
  rfl

/-! ### the true partial dependence -/

theorem mapM_perm {α β : Type} {f : α → Py β} {l l' : List α} (h : l'.Perm l) {bs : List β} (hb : l.mapM f = .ok bs) : ∃ bs', l'.mapM f = .ok bs' ∧ bs'.Perm bs := by
  rw [Py.mapM_eq_ok] at hb
  obtain ⟨bs', h1, h2⟩ := List.perm_comp_forall₂ h hb
  exact ⟨bs', Py.mapM_eq_ok.2 h1, h2⟩

/-- the order in which the hyperparameters are given does not matter -/
theorem pdIntegral_perm {order : SpaceOrder ℝ} {cs : ConfigSpace ℝ} {l l' : List (SelItem ℝ)} (h : l'.Perm l) {r : BlackboxFn ℝ × ℝ}
    (hr : styblinskiTangPdIntegral order cs l = .ok r) : styblinskiTangPdIntegral order cs l' = .ok r := by
  unfold styblinskiTangPdIntegral at hr ⊢
  rw [h.length_eq]
  split at hr
  · cases hr
  · rename_i h0
    rw [if_neg h0]
    obtain ⟨sel, hsel, hr⟩ := Py.bind_eq_ok.1 hr
    obtain ⟨offs, hoffs, hr⟩ := Py.bind_eq_ok.1 hr
    obtain ⟨sel', h1, h2⟩ := mapM_perm h (f := resolveItem cs) hsel
    obtain ⟨offs', h3, h4⟩ := mapM_perm h2 hoffs
    have e1 : convertHyperparameters (.many l') cs = .ok sel' := h1
    have e2 : (cs.filter fun hp => sel'.all fun s => decide (s.name ≠ hp.name)) = cs.filter fun hp => sel.all fun s => decide (s.name ≠ hp.name) := by
      apply List.filter_congr
      intro hp _
      rw [Bool.eq_iff_iff]
      simp only [List.all_eq_true]
      exact ⟨fun q s hs => q s (h2.mem_iff.2 hs), fun q s hs => q s (h2.mem_iff.1 hs)⟩
    rw [e1, Py.ok_bind, h3, Py.ok_bind]
    dsimp only at hr ⊢
    rw [e2, h4.sum_eq]
    exact hr

/-- the names of all hyperparameters but `x1`, in the order of the space -/
theorem others_perm {d : Nat} {cs : ConfigSpace ℝ} (h : NamedAxes d cs) :
    ((cs.filter fun hp => decide (hp.name ≠ "x1")).map fun hp => SelItem.name hp.name).Perm (otherNames d) := by
  have h1 := (namedAxes_perm h).filter (fun m => decide (m ≠ "x1"))
  rw [List.filter_map] at h1
  have h2 := h1.map (SelItem.name (K := ℝ))
  rw [List.map_map] at h2
  refine h2.trans (List.Perm.of_eq ?_)
  cases d with
  | zero => rfl
  | succ d =>
    rw [List.range_succ_eq_map, List.map_cons, List.map_map, List.filter_cons_of_neg (by decide), List.filter_eq_self.2, otherNames, List.map_map]
    · rfl
    · intro m hm
      obtain ⟨j, -, rfl⟩ := List.mem_map.1 hm
      simp only [Function.comp_apply, decide_eq_true_eq]
      intro e
      have := name_inj (p := "x") (b := 1) e
      omega

/-- the function that is averaged over all axes but `x1` -/
theorem true_line {order : SpaceOrder ℝ} (hord : ∀ l, (order l).Perm l) {d : Nat} (hd : 2 ≤ d) {cs : ConfigSpace ℝ} (hs : StSpace d cs)
    (hnames : ∀ i, 1 ≤ i → i ≤ d → ∃ hp ∈ cs, hp.name = "x" ++ toString i) {hp : Hp ℝ} (hhp : hp ∈ cs) (hname : hp.name = "x1") :
    ∃ F off, styblinskiTangPdIntegral order cs ((cs.filter fun hp => decide (hp.name ≠ "x1")).map fun hp => SelItem.name hp.name) = .ok (F, off) ∧ F.cs = [hp] ∧
      ∀ inv a, -5 ≤ a → a ≤ 5 → F.call inv [(hp.name, .num a)] = .ok (stPartial d a) := by
  have hk := hs.kind hp hhp
  have hna : NamedAxes d cs := ⟨hs.len, hs.wf, hnames⟩
  obtain ⟨F, g1, g2, -⟩ := others_integral hord (fun _ _ => 0) hd hna (fun q hq => ⟨-5, 5, hs.kind q hq, by norm_num⟩) hhp hname
  rw [meanOffset_full hs hhp] at g1
  refine ⟨F, _, pdIntegral_perm (others_perm hna) g1, g2, fun inv a ha hb => ?_⟩
  obtain ⟨F', g1', -, g3⟩ := others_integral hord inv hd hna (fun q hq => ⟨-5, 5, hs.kind q hq, by norm_num⟩) hhp hname
  rw [g1] at g1'
  obtain rfl := (Prod.mk.inj (Except.ok.inj g1')).1
  rw [g3 (-5) 5 a hk ha hb, meanOffset_full hs hhp]
  congr 1
  unfold stTerm stPartial
  ring

/-! ### one sampler -/

/-- the average over the repetitions, entry by entry -/
noncomputable def averageOf (P : Nat) (rows : List (List ℝ)) : List ℝ := (List.range P).map fun p => (rows.map fun r => r.getD p 0).sum / rows.length

theorem meanRows_average {P : Nat} {rows : List (List ℝ)} (hne : rows ≠ []) (h : ∀ r ∈ rows, r.length = P) : meanRows rows = .ok (averageOf P rows) := by
  cases rows with
  | nil => exact absurd rfl hne
  | cons r rows =>
    unfold meanRows mean0
    rw [if_neg (by simp)]
    rw [List.headD_cons, h r (by simp)]
    rfl

/-- The two axes for one sampler. The upper one shows over `P` evenly spaced values of `x1` the average over the repetitions of the estimated partial dependence (blue) with
the band of the square roots of the averaged variances, and the true partial dependence (black). The lower one shows these square roots at the same abscissae. The
title has the mean and the standard deviation of the discrepancies of the repetitions. -/
def ShowsSampler (d : Nat) (cs : ConfigSpace ℝ) (hp : Hp ℝ) (nCandidates e P perPlot n : Nat) (x : BiasSampler × List (BiasInput S)) (c : BiasColumn) : Prop :=
  List.Forall₂ (BiasRunOf d cs nCandidates e P n x.1) x.2 c.runs ∧
  ∃ (means stds zs : List ℝ) (bands : List (Shape ℝ)) (mmds : List ℝ),
    means = averageOf P (c.runs.map fun r => r.curve.y) ∧ stds = (averageOf P (c.runs.map fun r => r.curve.v)).map Real.sqrt ∧
    (∀ v ∈ averageOf P (c.runs.map fun r => r.curve.v), 0 ≤ v) ∧ EvenAxis (-5) 5 false perPlot zs ∧
    AxisOne hp "Prediction" (-5) 5 false c.top ([.line "blue" (naturalGrid (-5) 5 false P) means] ++ bands ++ [.line "black" zs (zs.map (stPartial d))]) ∧
    ShowsConfidence "blue" "lightblue" 3 (naturalGrid (-5) 5 false P) means stds bands ∧
    c.bottom = ⟨"", "Std", false, false, none, none, [.line "" (naturalGrid (-5) 5 false P) stds]⟩ ∧
    List.Forall₂ (fun r m => r.mmd = .ok m) c.runs mmds ∧
    c.mmd = some (mmds.sum / mmds.length, Real.sqrt ((mmds.map fun m => (m - mmds.sum / mmds.length) ^ 2).sum / mmds.length))

theorem stds_sqrt {v s : List ℝ} (h : StdsOf v s) : s = v.map Real.sqrt := by
  unfold StdsOf at h
  induction h with
  | nil => rfl
  | cons h _ ih => rw [List.map_cons, ← ih, ← h.2, Real.sqrt_mul_self h.1]

theorem linspace_natural (P : Nat) : linspace (-5 : ℝ) 5 P = naturalGrid (-5) 5 false P := by
  refine eq_range_map (linspace_length _ _ _) fun i hi => ?_
  simp only [gridValue, interpolate, Bool.false_eq_true, if_false]
  split
  · rename_i h1
    subst h1
    obtain rfl : i = 0 := by omega
    simp [linspace_one]
  · rw [linspace_getElem? _ _ hi (by omega)]
    congr 1
    simp
    ring

section column
variable {order : SpaceOrder ℝ} (hord : ∀ l, (order l).Perm l) (inv : Hp ℝ → Val ℝ → ℝ) {d : Nat} (hd : 1 ≤ d) {cs : ConfigSpace ℝ}
  (hf : forNDimensions order (-5) 5 false styblinskiTangValue (d : ℝ) none none = .ok ⟨cs, styblinskiTangValue cs⟩) (hs : StSpace d cs)
  (hnames : ∀ i, 1 ≤ i → i ≤ d → ∃ hp ∈ cs, hp.name = "x" ++ toString i) {hp : Hp ℝ} {e : Nat} (he : cs[e]? = some hp) (hname : hp.name = "x1")
  (x : BiasSampler × List (BiasInput S)) (hi : ∀ i ∈ x.2, i.Good cs) {nCandidates : Int} (hnc : 2 ≤ nCandidates) {n : Int} (hn : 2 ≤ n) {P : Nat} (hP : 1 ≤ P)
  {perPlot : Nat} (hpp : 2 ≤ perPlot) (g : Gallery)

include hd hf hs he hname hi hnc hn hP in
theorem bias_runs : ∃ runs, x.2.mapM (biasRun order d nCandidates n P x.1) = .ok runs ∧ List.Forall₂ (BiasRunOf d cs nCandidates.toNat e P n.toNat x.1) x.2 runs ∧
    ∀ r ∈ runs, EvenPoints cs hp P r.curve.x := by
  have : ∀ l : List (BiasInput S), (∀ i ∈ l, i.Good cs) → ∃ runs, l.mapM (biasRun order d nCandidates n P x.1) = .ok runs ∧
      List.Forall₂ (BiasRunOf d cs nCandidates.toNat e P n.toNat x.1) l runs ∧ ∀ r ∈ runs, EvenPoints cs hp P r.curve.x := by
    intro l hl
    induction l with
    | nil => exact ⟨[], rfl, .nil, by simp⟩
    | cons i l ih =>
      obtain ⟨r, h1, h2, h3⟩ := bias_run hd hf hs he hname (hl i (by simp)) x.1 hnc hn hP
      obtain ⟨rs, h4, h5, h6⟩ := ih fun j hj => hl j (by simp [hj])
      refine ⟨r :: rs, ?_, .cons h2 h5, fun q hq => ?_⟩
      · rw [List.mapM_cons, h1, Py.ok_bind, h4, Py.ok_bind]
        rfl
      · rcases List.mem_cons.1 hq with rfl | hq
        exacts [h3, h6 q hq]
  exact this x.2 hi

include hd hf hs he hname hi hnc hn hP in
/-- up to the true line -/
theorem column_curve (hR : x.2 ≠ []) :
    ∃ (runs : List BiasRun) (last : BiasRun) (means stds variances : List ℝ) (bands : List (Shape ℝ)) (ax0 : Ax ℝ), x.2.mapM (biasRun order d nCandidates n P x.1) = .ok runs ∧
      List.Forall₂ (BiasRunOf d cs nCandidates.toNat e P n.toNat x.1) x.2 runs ∧ runs.getLast? = some last ∧
      means = averageOf P (runs.map fun r => r.curve.y) ∧ variances = averageOf P (runs.map fun r => r.curve.v) ∧ stds = variances.map Real.sqrt ∧ (∀ v ∈ variances, 0 ≤ v) ∧
      meanRows (runs.map fun r => r.curve.y) = .ok means ∧ meanRows (runs.map fun r => r.curve.v) = .ok variances ∧
      convertHyperparameters (.many [.name "x1"]) cs = .ok [hp] ∧
      ax0 = ⟨hp.name, "Prediction", false, false, some (-5, 5), none, []⟩ ∧
      curveValues "blue" ⟨cs, [hp], last.curve.x, means, variances⟩ Ax.new = (ax0.draw [.line "blue" (naturalGrid (-5) 5 false P) means], .ok ()) ∧
      curveConfidences "blue" "lightblue" 3 ⟨cs, [hp], last.curve.x, means, variances⟩ (ax0.draw [.line "blue" (naturalGrid (-5) 5 false P) means]) =
        (ax0.draw ([.line "blue" (naturalGrid (-5) 5 false P) means] ++ bands), .ok ()) ∧
      checkAndSetAxis [hp] true "Prediction" (ax0.draw ([.line "blue" (naturalGrid (-5) 5 false P) means] ++ bands)) =
        (ax0.draw ([.line "blue" (naturalGrid (-5) 5 false P) means] ++ bands), .ok ()) ∧
      ShowsConfidence "blue" "lightblue" 3 (naturalGrid (-5) 5 false P) means stds bands ∧ variances.length = P := by
  have hhp := List.mem_of_getElem? he
  have hk : hp.kind = .float (-5) 5 false ∨ hp.kind = .integer (-5) 5 false := .inl (hs.kind hp hhp)
  obtain ⟨runs, hr1, hr2, hr3⟩ := bias_runs hd hf hs he hname x hi hnc hn hP
  have hrne : runs ≠ [] := by
    intro h0
    rw [h0] at hr2
    exact hR (List.forall₂_nil_right_iff.1 hr2)
  obtain ⟨last, hlast⟩ : ∃ last, runs.getLast? = some last := ⟨_, List.getLast?_eq_getLast_of_ne_nil hrne⟩
  obtain ⟨x1, x2, x3⟩ := hr3 last (List.mem_of_getLast? hlast)
  have hdecl : AllDeclared cs := fun h' hm' => ⟨-5, 5, false, hs.declares hm'⟩
  have hy : ∀ y ∈ runs.map fun r => r.curve.y, y.length = P := by
    intro y hy
    obtain ⟨r, hr, rfl⟩ := List.mem_map.1 hy
    obtain ⟨i, -, hir⟩ := forall₂_mem_right hr2 hr
    obtain ⟨mu, sd, draws, -, -, q1, -⟩ := hir.2.2.2.2.2.2.2.2.1
    rw [q1]; simp [pdpMeans]
  have hv : ∀ y ∈ runs.map fun r => r.curve.v, y.length = P ∧ ∀ t ∈ y, 0 ≤ t := by
    intro y hy
    obtain ⟨r, hr, rfl⟩ := List.mem_map.1 hy
    obtain ⟨i, -, hir⟩ := forall₂_mem_right hr2 hr
    obtain ⟨mu, sd, draws, -, -, -, q2⟩ := hir.2.2.2.2.2.2.2.2.1
    rw [q2]
    refine ⟨by simp [pdpVariances], fun t ht => ?_⟩
    obtain ⟨p, -, rfl⟩ := List.mem_map.1 ht
    exact div_nonneg (List.sum_nonneg fun v hv => by obtain ⟨r, -, rfl⟩ := List.mem_map.1 hv; exact sq_nonneg _) (Nat.cast_nonneg _)
  obtain ⟨means, hmeans⟩ : ∃ m, m = averageOf P (runs.map fun r => r.curve.y) := ⟨_, rfl⟩
  obtain ⟨variances, hvars⟩ : ∃ m, m = averageOf P (runs.map fun r => r.curve.v) := ⟨_, rfl⟩
  have hml : means.length = P := by rw [hmeans]; simp [averageOf]
  have hvl : variances.length = P := by rw [hvars]; simp [averageOf]
  have hnn : ∀ v ∈ variances, 0 ≤ v := by
    intro v hv'
    rw [hvars] at hv'
    obtain ⟨p, hp', rfl⟩ := List.mem_map.1 hv'
    refine div_nonneg (List.sum_nonneg fun w hw => ?_) (Nat.cast_nonneg _)
    obtain ⟨q, hq, rfl⟩ := List.mem_map.1 hw
    obtain ⟨q1, q2⟩ := hv q hq
    rw [List.getD_eq_getElem?_getD, List.getElem?_eq_getElem (by rw [q1]; exact List.mem_range.1 hp')]
    exact q2 _ (List.getElem_mem _)
  have hvalid : ValidCurve ⟨cs, [hp], last.curve.x, means, variances⟩ :=
    ⟨hdecl, x2, by dsimp only; rw [hml, x1], by dsimp only; rw [hvl, x1], by simpa using hhp⟩
  have hnat : ∀ xs, List.Forall₂ (NaturalAt cs hp) last.curve.x xs → xs = naturalGrid (-5) 5 false P := by
    intro xs hxs
    exact eq_range_map (by rw [← hxs.length_eq, x1]) fun p hp' => natural_eq hk (x3 p hp') hxs (by rw [x1]; exact hp')
  obtain ⟨ax0, hax0⟩ : ∃ ax0 : Ax ℝ, ax0 = ⟨hp.name, "Prediction", false, false, some (-5, 5), none, []⟩ := ⟨_, rfl⟩
  have hax := newAxis_one hk "Prediction"
  rw [← hax0] at hax
  obtain ⟨xs, hxs, hval⟩ := C83_one hvalid rfl hax "blue"
  rw [hnat xs hxs] at hval
  obtain ⟨xs', stds, bands, hxs', hstd, hcon, hshow⟩ := C84_one hvalid hnn rfl (axis_again hax [.line "blue" (naturalGrid (-5) 5 false P) means]) "blue" "lightblue" (maxSigma := 3) (by norm_num)
  rw [hnat xs' hxs'] at hshow
  have hse : stds = variances.map Real.sqrt := stds_sqrt hstd
  rw [Ax.draw_draw] at hcon
  have hget : cs.get "x1" = .ok hp := by rw [← hname]; exact ConfigSpace.get_of_mem hs.wf hhp
  refine ⟨runs, last, means, stds, variances, bands, ax0, hr1, hr2, hlast, hmeans, hvars, hse, hnn, ?_, ?_, by simp [convertHyperparameters, resolveItem, hget], hax0, hval, hcon,
    axis_again hax _, hshow, hvl⟩
  · rw [hmeans]; exact meanRows_average (by simpa using hrne) hy
  · rw [hvars]; exact meanRows_average (by simpa using hrne) fun r hr => (hv r hr).1

include hord hd hf hs hnames he hname hi hnc hn hP hpp in
theorem bias_column (hd2 : 2 ≤ d) (hR : x.2 ≠ []) :
    ∃ c, biasColumn order inv d nCandidates n P perPlot false ⟨cs, styblinskiTangValue cs⟩ x g = (g, .ok c) ∧ ShowsSampler d cs hp nCandidates.toNat e P perPlot n.toNat x c := by
  have hhp := List.mem_of_getElem? he
  have hk := hs.kind hp hhp
  obtain ⟨runs, last, means, stds, variances, bands, ax0, hr1, hr2, hlast, hmeans, hvars, hse, hnn, hm, hv, hsel, hax0, hval, hcon, hax, hshow, hvl⟩ :=
    column_curve hd hf hs he hname x hi hnc hn hP hR
  obtain ⟨F, off, ht1, ht2, ht3⟩ := true_line hord hd2 hs hnames hhp hname
  obtain ⟨zs, consts, z1, ⟨z2, z2'⟩, z3, -⟩ := C73_one (cs := F.cs) (p := hp) (by rw [ht2]; simp [varying, hk]) (l := -5) (u := 5) (g := false)
    ⟨.inl hk, by norm_num, by simp⟩ hpp (F.call inv) "black" hax
  have hcn : consts = [] := by
    rw [List.eq_nil_iff_forall_not_mem]
    rintro ⟨nm, v⟩ hm
    have := (z2' nm v).1 hm
    rw [ht2, List.mem_singleton] at this
    rw [← this] at hk
    cases hk
  rw [hcn] at z3
  have htr := z3 (stPartial d) fun a ha => ht3 inv a (evenAxis_within z1 a ha).1 (evenAxis_within z1 a ha).2
  rw [Ax.draw_draw] at htr
  have hnum : hp.numerical? = some (-5, 5, false) := by simp [Hp.numerical?, hk]
  have hrange : getUniformDistributedRanges [hp] variances.length false = .ok [naturalGrid (-5) 5 false P] := by
    unfold getUniformDistributedRanges
    have : [hp].mapM (uniformRange variances.length false) = .ok [naturalGrid (-5) 5 false P] := by
      rw [Py.mapM_eq_ok, List.forall₂_cons]
      refine ⟨?_, .nil⟩
      unfold uniformRange
      rw [hnum, hvl, ← linspace_natural]
      rfl
    rw [this, Py.ok_bind]
    rfl
  have hbot : plotLine "" (naturalGrid (-5) 5 false P) (variances.map Real.sqrt) Ax.new = (Ax.new.draw [.line "" (naturalGrid (-5) 5 false P) stds], .ok ()) := by
    unfold plotLine drawLine
    rw [if_pos ⟨by norm_num, le_rfl, by simp [naturalGrid, hvl]⟩, Plot.add_eq, hse]
  obtain ⟨mmds, hmm⟩ : ∃ mmds, List.Forall₂ (fun r m => BiasRun.mmd r = .ok m) runs mmds := by
    have : ∀ r ∈ runs, ∃ m, r.mmd = .ok m := by
      intro r hr
      obtain ⟨i, -, hir⟩ := forall₂_mem_right hr2 hr
      obtain ⟨u, l, m, -, -, -, h, -⟩ := hir.2.2.2.2.2.2.2.2.2
      exact ⟨m, h⟩
    clear hr1 hr2 hlast hmeans hvars hm hv
    induction runs with
    | nil => exact ⟨[], .nil⟩
    | cons r runs ih =>
      obtain ⟨m, hm⟩ := this r (by simp)
      obtain ⟨ms, hms⟩ := ih fun q hq => this q (by simp [hq])
      exact ⟨m :: ms, .cons hm hms⟩
  have htitle : titleNumbers (runs.map BiasRun.mmd) =
      some (mmds.sum / mmds.length, Real.sqrt ((mmds.map fun m => (m - mmds.sum / mmds.length) ^ 2).sum / mmds.length)) := by
    unfold titleNumbers
    have : (runs.map BiasRun.mmd).mapM id = .ok mmds := by rw [Py.mapM_eq_ok, List.forall₂_map_left_iff]; exact hmm
    rw [this]
    simp [npMean, npStd]
  refine ⟨⟨runs, ax0.draw ([.line "blue" (naturalGrid (-5) 5 false P) means] ++ bands ++ [.line "black" zs (zs.map (stPartial d))]), { Ax.new.draw [.line "" (naturalGrid (-5) 5 false P) stds] with ylabel := "Std" }, titleNumbers (runs.map BiasRun.mmd)⟩, ?_, hr2, means, stds, zs, bands, mmds, hmeans, by rw [hse, hvars], ?_, z1, ?_, hshow, ?_, hmm, htitle⟩
  rotate_left
  · rw [← hvars]; exact hnn
  · unfold AxisOne
    show ax0.draw ([.line "blue" (naturalGrid (-5) 5 false P) means] ++ bands ++ [.line "black" zs (zs.map (stPartial d))]) = _
    rw [hax0]
    simp [Ax.draw]
  · rfl
  · unfold biasColumn
    rw [Show.lift_bind hr1, if_neg (by simp), hlast]
    dsimp only
    rw [Show.lift_bind hm, Show.lift_bind hv, Show.lift_bind hsel, Show.on_bind hval, Show.on_bind hcon, Show.lift_bind ht1]
    dsimp only
    rw [Show.on_bind htr, Show.lift_bind hrange, Show.lift_bind (show pyGet [naturalGrid (-5 : ℝ) 5 false P] 0 = .ok _ from rfl), Show.on_bind hbot]
    rfl

include hd hf hs he hname hi hnc hn hP in
/-- the only sampler has a bare axis -/
theorem column_single (perPlot : Nat) : biasColumn order inv d nCandidates n P perPlot true ⟨cs, styblinskiTangValue cs⟩ x g = (g, .error .type) := by
  obtain ⟨runs, hr1, -, -⟩ := bias_runs hd hf hs he hname x hi hnc hn hP
  unfold biasColumn
  rw [Show.lift_bind hr1, if_pos rfl]
  rfl

theorem column_empty (perPlot : Nat) (hx : x.2 = []) (f : BlackboxFn ℝ) :
    biasColumn order inv d nCandidates n P perPlot false f x g = (g, .error .attribute) := by
  unfold biasColumn
  rw [Show.lift_bind (a := []) (by rw [hx]; rfl), if_neg (by simp)]
  rfl

include hf hs he hname hi hnc hn hP in
/-- there is nothing to integrate over -/
theorem column_line (perPlot : Nat) (hd1 : d = 1) (hR : x.2 ≠ []) : biasColumn order inv d nCandidates n P perPlot false ⟨cs, styblinskiTangValue cs⟩ x g = (g, .error .value) := by
  obtain ⟨runs, last, means, stds, variances, bands, ax0, hr1, hr2, hlast, hmeans, hvars, hse, hnn, hm, hv, hsel, hax0, hval, hcon, hax, hshow, hvl⟩ :=
    column_curve (by omega) hf hs he hname x hi hnc hn hP hR
  have hcs : cs = [hp] := by
    obtain ⟨q, hq⟩ := List.length_eq_one_iff.1 (hs.len.trans hd1)
    have := List.mem_of_getElem? he
    rw [hq, List.mem_singleton] at this
    rw [hq, this]
  have ht : styblinskiTangPdIntegral order cs ((cs.filter fun hp => decide (hp.name ≠ "x1")).map fun hp => SelItem.name hp.name) = .error .value := by
    rw [hcs, List.filter_cons_of_neg (by simp [hname])]
    rfl
  unfold biasColumn
  rw [Show.lift_bind hr1, if_neg (by simp), hlast]
  dsimp only
  rw [Show.lift_bind hm, Show.lift_bind hv, Show.lift_bind hsel, Show.on_bind hval, Show.on_bind hcon, ht]
  rfl

end column

/-- **C117** `plot_sampling_bias` of examples/main_sampler_analysis.py, in any number of dimensions from two on, for any two or more samplers (Bayesian optimisation with any acquisition
function, random, grid) and any positive number of repetitions, whatever is drawn: it runs through and saves one figure, with two axes per sampler. The blue line is the average over the repetitions of
the partial dependence on `x1` that is estimated by a Gaussian process from the points of the sampler in this repetition, the black line is the true partial
dependence, the band and the line of the lower axis have the square roots of the averaged variances, at the same abscissae, and the title has the mean and the standard deviation of the discrepancies
between the sampled points and uniform ones. -/
theorem C117_figure {order : SpaceOrder ℝ} (hord : ∀ l, (order l).Perm l) (inv : Hp ℝ → Val ℝ → ℝ) (figureName : String) {d : Nat} (hd : 2 ≤ d) {cs : ConfigSpace ℝ}
    (hf : forNDimensions order (-5) 5 false styblinskiTangValue (d : ℝ) none none = .ok ⟨cs, styblinskiTangValue cs⟩) (samplers : List (BiasSampler × List (BiasInput S)))
    (hi : ∀ x ∈ samplers, x.2 ≠ [] ∧ ∀ i ∈ x.2, i.Good cs) (h2 : 2 ≤ samplers.length) (points : Nat) {nCandidates : Int} (hnc : 2 ≤ nCandidates) {P : Nat} (hP : 1 ≤ P)
    {perPlot : Nat} (hpp : 2 ≤ perPlot) (g : Gallery) :
    ∃ hp e columns, cs[e]? = some hp ∧ hp.name = "x1" ∧
      samplingBias order inv figureName d points nCandidates P perPlot samplers g =
        (⟨g.count, saveFig g.files figureName (columns.map BiasColumn.top ++ columns.map BiasColumn.bottom)⟩, .ok columns) ∧
      List.Forall₂ (ShowsSampler d cs hp nCandidates.toNat e P perPlot (points + 4 * d)) samplers columns := by
  obtain ⟨cs', hf', hs, hnames⟩ := stSpace_ok hord d
  rw [hf] at hf'
  obtain rfl : cs = cs' := congrArg BlackboxFn.cs (Except.ok.inj hf')
  obtain ⟨hp, hm, hn⟩ := hnames 1 (by norm_num) (by omega)
  have hname : hp.name = "x1" := hn
  obtain ⟨e, he⟩ := List.getElem?_of_mem hm
  have key : ∀ l : List (BiasSampler × List (BiasInput S)), (∀ x ∈ l, x.2 ≠ [] ∧ ∀ i ∈ x.2, i.Good cs) →
      ∃ columns, biasColumns order inv d nCandidates (points + 4 * d) P perPlot false ⟨cs, styblinskiTangValue cs⟩ l g = (g, .ok columns) ∧
        List.Forall₂ (ShowsSampler d cs hp nCandidates.toNat e P perPlot (points + 4 * d)) l columns := by
    intro l hl
    induction l with
    | nil => exact ⟨[], rfl, .nil⟩
    | cons x l ih =>
      obtain ⟨c, c1, c2⟩ := bias_column hord inv (by omega) hf hs hnames he hname x (hl x (by simp)).2 hnc (n := points + 4 * d) (by omega) hP hpp g hd (hl x (by simp)).1
      obtain ⟨columns, c3, c4⟩ := ih fun y hy => hl y (by simp [hy])
      refine ⟨c :: columns, ?_, .cons ?_ c4⟩
      · unfold biasColumns
        rw [Show.bind_ok c1, Show.bind_ok c3]
        rfl
      · rwa [show ((points : Int) + 4 * (d : Int)).toNat = points + 4 * d by omega] at c2
  obtain ⟨columns, k1, k2⟩ := key samplers hi
  refine ⟨hp, e, columns, he, hname, ?_, k2⟩
  unfold samplingBias
  rw [Show.lift_bind hf, if_neg (by omega), show (samplers.length == 1) = false by rw [beq_eq_false_iff_ne]; omega, Show.bind_ok k1]
  rfl

/-- **C117** when nothing is saved: no sampler is a ValueError, a single one a TypeError after all its repetitions, no repetitions an AttributeError, one
dimension a ValueError (after the first sampler's repetitions), because there is nothing to integrate over. -/
theorem C117_failures {order : SpaceOrder ℝ} (hord : ∀ l, (order l).Perm l) (inv : Hp ℝ → Val ℝ → ℝ) (figureName : String) {d : Nat} (hd : 1 ≤ d) {cs : ConfigSpace ℝ}
    (hf : forNDimensions order (-5) 5 false styblinskiTangValue (d : ℝ) none none = .ok ⟨cs, styblinskiTangValue cs⟩) (samplers : List (BiasSampler × List (BiasInput S)))
    (hi : ∀ x ∈ samplers, ∀ i ∈ x.2, i.Good cs) (points : Nat) {nCandidates : Int} (hnc : 2 ≤ nCandidates) {P : Nat} (hP : 1 ≤ P) (perPlot : Nat) (g : Gallery) :
    (samplers.length = 0 → samplingBias order inv figureName d points nCandidates P perPlot samplers g = (g, .error .value)) ∧
    (samplers.length = 1 → samplingBias order inv figureName d points nCandidates P perPlot samplers g = (g, .error .type)) ∧
    (2 ≤ samplers.length → (∀ x ∈ samplers, x.2 = []) → samplingBias order inv figureName d points nCandidates P perPlot samplers g = (g, .error .attribute)) ∧
    (2 ≤ samplers.length → (∀ x ∈ samplers, x.2 ≠ []) → d = 1 → samplingBias order inv figureName d points nCandidates P perPlot samplers g = (g, .error .value)) := by
  obtain ⟨cs', hf', hs, hnames⟩ := stSpace_ok hord d
  rw [hf] at hf'
  obtain rfl : cs = cs' := congrArg BlackboxFn.cs (Except.ok.inj hf')
  obtain ⟨hp, hm, hn⟩ := hnames 1 (by norm_num) (by omega)
  have hname : hp.name = "x1" := hn
  obtain ⟨e, he⟩ := List.getElem?_of_mem hm
  have key : ∀ x l err, samplers = x :: l → biasColumn order inv d nCandidates (points + 4 * d) P perPlot (samplers.length == 1) ⟨cs, styblinskiTangValue cs⟩ x g = (g, .error err) →
      samplingBias order inv figureName d points nCandidates P perPlot samplers g = (g, .error err) := by
    intro x l err hl h
    have h1 : biasColumns order inv d nCandidates (points + 4 * d) P perPlot (samplers.length == 1) ⟨cs, styblinskiTangValue cs⟩ samplers g = (g, .error err) := by
      generalize (samplers.length == 1) = b at h ⊢
      rw [hl]
      unfold biasColumns
      rw [Show.bind_error h]
    unfold samplingBias
    rw [Show.lift_bind hf, if_neg (by rw [hl]; simp), Show.bind_error h1]
  refine ⟨fun h => ?_, fun h => ?_, fun h hx => ?_, fun h hx hd1 => ?_⟩
  · unfold samplingBias
    rw [Show.lift_bind hf, if_pos h]
    rfl
  · obtain ⟨x, hx⟩ := List.length_eq_one_iff.1 h
    refine key x [] _ hx ?_
    rw [h]
    exact column_single inv hd hf hs he hname x (hi x (by rw [hx]; simp)) hnc (by omega) hP g perPlot
  · obtain ⟨x, l, hl⟩ := List.exists_cons_of_length_pos (show 0 < samplers.length by omega)
    refine key x l _ hl ?_
    rw [show (samplers.length == 1) = false by rw [beq_eq_false_iff_ne]; omega]
    exact column_empty inv x g perPlot (hx x (by rw [hl]; simp)) _
  · obtain ⟨x, l, hl⟩ := List.exists_cons_of_length_pos (show 0 < samplers.length by omega)
    refine key x l _ hl ?_
    rw [show (samplers.length == 1) = false by rw [beq_eq_false_iff_ne]; omega]
    exact column_line inv hf hs he hname x (hi x (by rw [hl]; simp)) hnc (by omega) hP g perPlot hd1 (hx x (by rw [hl]; simp))

/-- **C117** if the number of points is the `d`-th power of a number `k` (as by default, 64 points in two dimensions), the grid sampler evaluates in every repetition without cached
points each combination of `k` evenly spaced values exactly once. -/
theorem C117_grid {d : Nat} (hd : 1 ≤ d) {cs : ConfigSpace ℝ} (hs : StSpace d cs) {nCandidates e P k : Nat} {i : BiasInput S} (hi : i.Good cs) {r : BiasRun}
    (hr : BiasRunOf d cs nCandidates e P (k ^ d) .grid i r) (hc : loadCache i.main.ofVec i.main.file = []) :
    r.configs.Nodup ∧ r.configs.length = k ^ d ∧
    ∀ ρ : String → ℝ, (∀ hp ∈ cs, ρ hp.name ∈ naturalGrid (-5) 5 false k) → ∃ c ∈ r.configs, ∀ hp ∈ cs, c.get? hp.name = some (.num (ρ hp.name)) := by
  obtain ⟨m, h1, h2, h3⟩ := hr.2.2.2.2.2.1 rfl hc
  obtain rfl : m = k := le_antisymm (h2 k le_rfl) (by
    by_contra hlt
    have := Nat.pow_lt_pow_left (not_le.1 hlt) (show d ≠ 0 by omega)
    omega)
  obtain ⟨g1, g2⟩ := gridConfigs_size hs m
  have hp := hi.shuffle (gridConfigs cs m)
  rw [List.take_of_length_le (by rw [hp.length_eq, g1])] at h3
  rw [h3]
  refine ⟨hp.nodup_iff.2 g2, by rw [hp.length_eq, g1], fun ρ hρ => ?_⟩
  refine ⟨valuesConfig cs (cs.map fun hp => .num (ρ hp.name)), hp.mem_iff.2 (List.mem_map_of_mem ?_), fun hp hm => ?_⟩
  · rw [generateGrid, mem_cartesian, List.forall₂_map_right_iff, List.forall₂_map_left_iff, List.forall₂_same]
    intro hp hm
    rw [axisGrid, hs.kind hp hm]
    exact List.mem_map_of_mem (by rw [linspace_natural]; exact hρ hp hm)
  · refine get?_of_mem ?_ ?_ _
    · rw [List.map_fst_zip (by simp)]
      exact hs.wf
    · rw [List.zip_map']
      exact List.mem_map_of_mem hm

/-- **C117** Bayesian optimisation with `LowerConfidenceBound(tau)` and without cached points: every point after the first `4 d` has, among the candidates drawn for it, the smallest mean minus
`tau` times standard deviation, as predicted by a Gaussian process fitted to exactly the points before it and their values. -/
theorem C117_lcb {d : Nat} {cs : ConfigSpace ℝ} {nCandidates e P n : Nat} {tau : ℝ} {i : BiasInput S} {r : BiasRun} (hr : BiasRunOf d cs nCandidates e P n (.bayes (.lcb tau)) i r)
    (hc : loadCache i.main.ofVec i.main.file = []) {j : Nat} {c : Config ℝ} (hj : 4 * d ≤ j) (hcj : r.configs[j]? = some c) :
    ∃ (gp : GpSurrogate) (mu sd : List ℝ → ℝ) (rng : S),
      GpSurrogate.new.fit i.main.choose ((r.configs.take j).map Config.vector) (r.ys.take j) = (gp, .ok ()) ∧ RowWise d gp.predict mu sd ∧
      c ∈ (i.main.acqDrawer.draw rng nCandidates).1 ∧
      ∀ q ∈ (i.main.acqDrawer.draw rng nCandidates).1, mu c.vector - tau * sd c.vector ≤ mu q.vector - tau * sd q.vector := by
  obtain ⟨-, h⟩ := hr.2.2.2.2.2.2.1 _ rfl hc
  obtain ⟨gp, mu, sd, eta, rng, h1, h2, -, -, -, k, h3, h4, -⟩ := h j c hj hcj
  refine ⟨gp, mu, sd, rng, h1, h2, List.mem_of_getElem? h3, fun q hq => ?_⟩
  have := h4 q hq
  simp only [acqMeaning, if_true, not_lt] at this
  linarith

/-! ### A concrete case: the default samplers, every draw is the middle of the square -/

noncomputable def levelBias (cs : ConfigSpace ℝ) : BiasInput Unit := ⟨levelInput cs, id, .many [levelConfig cs 0, levelConfig cs 1]⟩

theorem levelBias_good {cs : ConfigSpace ℝ} (hs : StSpace 2 cs) : (levelBias cs).Good cs := by
  refine ⟨levelInput_good hs, fun l => List.Perm.refl l, _, rfl, fun c hc => ?_, levelConfig cs 0, by simp, levelConfig cs 1, by simp, fun h => ?_⟩
  · simp only [List.mem_cons, List.not_mem_nil, or_false] at hc
    rcases hc with rfl | rfl
    · exact levelConfig_drawn hs le_rfl zero_le_one
    · exact levelConfig_drawn hs zero_le_one le_rfl
  · obtain ⟨p, q, rfl⟩ := List.length_eq_two.1 hs.len
    simp [levelConfig] at h

/-- the default arguments: one figure with ten axes; the random sampler evaluates the middle 64 times, the grid sampler 64 different points -/
example : ∃ (i : BiasInput Unit) (columns : List BiasColumn) (axes : List (Ax ℝ)),
    samplingBias id (fun _ _ => 0) "bias.png" 2 56 100 50 200 (defaultBias (List.replicate 30 i) (List.replicate 30 i) (List.replicate 30 i) (List.replicate 30 i)
      (List.replicate 30 i)) ⟨0, []⟩ = (⟨0, [("bias.png", axes)]⟩, .ok columns) ∧ axes.length = 10 ∧
    (∀ c, columns[3]? = some c → c.runs.length = 30 ∧ ∀ r ∈ c.runs, ∃ m, r.configs = List.replicate 64 m) ∧
    (∀ c, columns[4]? = some c → c.runs.length = 30 ∧ ∀ r ∈ c.runs, r.configs.Nodup ∧ r.configs.length = 64) ∧
    samplingBias id (fun _ _ => 0) "bias.png" 2 56 100 50 200 [(.random, [i])] ⟨0, []⟩ = (⟨0, []⟩, .error .type) := by
  obtain ⟨cs, hf, hs, -⟩ := stSpace_ok (order := id) (fun l => List.Perm.refl l) 2
  have hg := levelBias_good hs
  obtain ⟨l, hl⟩ : ∃ l, l = List.replicate 30 (levelBias cs) := ⟨_, rfl⟩
  have hmem : ∀ i ∈ l, i = levelBias cs := fun i hi => by rw [hl] at hi; exact List.eq_of_mem_replicate hi
  have hne : l ≠ [] := by rw [hl]; simp
  obtain ⟨hp, e, columns, -, -, h1, h2⟩ := C117_figure (S := Unit) (order := id) (fun l => List.Perm.refl l) (fun _ _ => 0) "bias.png" le_rfl hf (defaultBias l l l l l) (by
    intro x hx
    simp only [defaultBias, List.mem_cons, List.not_mem_nil, or_false] at hx
    rcases hx with rfl | rfl | rfl | rfl | rfl <;> exact ⟨hne, fun i hi => by rw [hmem i hi]; exact hg⟩) (by simp [defaultBias]) 56 (nCandidates := 100) (by norm_num) (P := 50)
    (by norm_num) (perPlot := 200) (by norm_num) ⟨0, []⟩
  obtain ⟨-, h3, -, -⟩ := C117_failures (S := Unit) (order := id) (fun l => List.Perm.refl l) (fun _ _ => 0) "bias.png" (by norm_num) hf [(.random, [levelBias cs])] (by
    intro x hx i hi
    rw [List.mem_singleton.1 hx] at hi
    rw [List.mem_singleton.1 hi]
    exact hg) 56 (nCandidates := 100) (by norm_num) (P := 50) (by norm_num) 200 ⟨0, []⟩
  have hlen := h2.length_eq
  simp only [defaultBias, List.length_cons, List.length_nil] at hlen
  refine ⟨levelBias cs, columns, columns.map BiasColumn.top ++ columns.map BiasColumn.bottom, by rw [← hl]; exact h1, by simp [← hlen], fun c hc => ?_, fun c hc => ?_, h3 rfl⟩
  · have h4 := List.Forall₂.get h2 (i := 3) (by simp [defaultBias]) (by omega)
    obtain ⟨h0, rfl⟩ := List.getElem?_eq_some_iff.1 hc
    replace h4 : List.Forall₂ (BiasRunOf 2 cs _ e 50 _ .random) l (columns[3]).runs := h4.1
    refine ⟨by rw [← h4.length_eq, hl]; simp, fun r hr => ?_⟩
    obtain ⟨i, hi, hir⟩ := forall₂_mem_right h4 hr
    rw [hmem i hi] at hir
    exact ⟨levelConfig cs (1 / 2), hir.2.2.2.2.1 rfl rfl⟩
  · have h5 := List.Forall₂.get h2 (i := 4) (by simp [defaultBias]) (by omega)
    obtain ⟨h0, rfl⟩ := List.getElem?_eq_some_iff.1 hc
    replace h5 : List.Forall₂ (BiasRunOf 2 cs _ e 50 _ .grid) l (columns[4]).runs := h5.1
    refine ⟨by rw [← h5.length_eq, hl]; simp, fun r hr => ?_⟩
    obtain ⟨i, hi, hir⟩ := forall₂_mem_right h5 hr
    rw [hmem i hi] at hir
    obtain ⟨g1, g2, -⟩ := C117_grid (k := 8) (by norm_num) hs hg hir rfl
    exact ⟨g1, g2⟩

end PyPDP
