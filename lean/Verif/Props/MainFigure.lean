/-
The figure of examples/main.py: C102.
-/
import Verif.Model.MainFigure
import Verif.Props.ScriptPoints
import Verif.Props.PaperFigures

namespace PyPDP
open Spec
variable {S : Type}

/-- **C102** The figure that examples/main.py shows belongs to the numbers it prints: on one axis, from -5 to 5, every evaluated point once (its value of the selected hyperparameter and the value of
the function there), the PDP over the grid as a black line, and around it the confidence band of its standard deviations. -/
theorem C102_figure {i : MainInput S} {argsort : List ℝ → List Nat} (hsort : Argsort argsort) {d : Nat} (hd : 2 ≤ d) {f : BlackboxFn ℝ}
    (hf : forNDimensions i.order (-5) 5 false styblinskiTangValue (d : ℝ) none none = .ok f) (hi : i.Good f.cs) {k : Nat} (hk1 : 1 ≤ k) (hk2 : k ≤ d)
    (kind : AcqKind) {nCandidates : Int} (hn : 2 ≤ nCandidates) {perAxis : Nat} (hg : 1 ≤ perAxis) (numSplits : Nat) {minPoints : Nat}
    (hm : 1 ≤ minPoints) {depth : Int} (hdep : 0 < depth) (g : Gallery) :
    ∃ (res : MainResult S) (hp : Hp ℝ) (ax : Ax ℝ) (xs xo yo : List ℝ) (bands : List (Shape ℝ)),
      mainScript i d ("x" ++ toString k) kind nCandidates perAxis numSplits minPoints depth = .ok res ∧
      mainFigure i argsort d ("x" ++ toString k) kind nCandidates perAxis g = (g, .ok ax) ∧ f.cs.get ("x" ++ toString k) = .ok hp ∧
      AxisOne hp "Prediction" (-5) 5 false ax ([.points "red" xo yo, .line "black" (naturalGrid (-5) 5 false perAxis) res.pdp.y] ++ bands) ∧
      ReadsAs ("x" ++ toString k) res.sampler.configs xs ∧ (xo.zip yo).Perm (xs.zip res.sampler.ys) ∧ xo.Pairwise (· ≤ ·) ∧
      xo.length = 32 * d - 20 ∧ yo.length = 32 * d - 20 ∧
      ShowsConfidence "grey" "lightsalmon" (3 / 2) (naturalGrid (-5) 5 false perAxis) res.pdp.y (res.pdp.v.map Real.sqrt) bands := by
  obtain ⟨res, hp, part, δ, r1, r2, r3, r4, -, -, -, -, -, -, -, -, -, -, -, -, -, -, -, -, -, -, e, draws, mu, sd, he, hdraws, hfit, hrow, hy, hv, -⟩ :=
    C102_main hd hf hi hk1 hk2 kind hn hg numSplits hm hdep
  have h := r1
  unfold mainScript at h
  rw [hf, Py.ok_bind] at h
  obtain ⟨hp', hget, h⟩ := Py.bind_eq_ok.1 h
  rw [r2] at hget
  cases hget
  obtain ⟨⟨env, m⟩, henv, h⟩ := Py.bind_eq_ok.1 h
  dsimp only at h
  split at h
  · cases h
  next s hs =>
  obtain rfl : res.sampler = s := by
    repeat' first
      | (obtain ⟨_, -, h⟩ := Py.bind_eq_ok.1 h)
      | (split at h; · cases h)
    cases h
    rfl
  clear h
  obtain ⟨cs, h1, hst, hnames⟩ := stSpace_ok hi.order d
  rw [hf] at h1
  obtain rfl : f = ⟨cs, styblinskiTangValue cs⟩ := Except.ok.inj h1
  dsimp only at *
  obtain ⟨env', s', henv', hsamp', -, hdrawn, -, -⟩ := main_sampler (by omega : 1 ≤ d) hst hi kind hn (initial := d * 4) (n := 32 * d - 20) (by omega) (by omega)
  rw [henv] at henv'
  cases henv'
  rw [hs] at hsamp'
  cases hsamp'
  obtain ⟨l, hl1, hl2, hl3⟩ := hi.ice
  rw [hl1] at hdraws
  cases hdraws
  obtain ⟨samples, hsm⟩ : ∃ y, y = draws.map Config.vector := ⟨_, rfl⟩
  have hdr : UnitDraws cs i.iceDraws samples := by
    refine ⟨draws, hl1, hsm, by rw [hsm]; simpa using hl2, fun r hr => ?_⟩
    rw [hsm] at hr
    obtain ⟨c, hc, rfl⟩ := List.mem_map.1 hr
    exact ⟨(hl3 c hc).1, (hl3 c hc).2.1⟩
  have hhp := List.mem_of_getElem? he
  have hname : hp.name = "x" ++ toString k := by
    obtain ⟨q, hq, hqn⟩ := hnames k hk1 hk2
    have := ConfigSpace.get_of_mem hst.wf hq
    rw [hqn, r2] at this
    cases this
    exact hqn
  have hrow' : RowWise (List.length cs) res.surrogate.predict mu sd := by rw [hst.len]; exact hrow
  have hdecl : AllDeclared cs := fun h' hm' => ⟨-5, 5, false, hst.declares hm'⟩
  obtain ⟨c, hc⟩ : ∃ c : IceCfg ℝ, c = ⟨cs, [hp], samples, samples.length, perAxis, perAxis ^ 1, false, res.surrogate.predict⟩ := ⟨_, rfl⟩
  have hk : hp.kind = .float (-5) 5 false ∨ hp.kind = .integer (-5) 5 false := .inl (hst.kind hp hhp)
  have hplt := plottable_drawn hst.wf hdecl hrow' (by omega : perAxis ≠ 0) hdr (sel := [hp]) (by simpa using hhp) (by simp) (by simp)
  rw [List.length_singleton, ← hc] at hplt
  have hplain : plainIce c = c := by rw [hc]; rfl
  obtain ⟨-, dat, hdat⟩ := own_gives hplt
  rw [hplain] at hdat
  obtain ⟨st, hstd⟩ : ∃ st : PdpState ℝ, st = ⟨c, none, none, none, none⟩ := ⟨_, rfl⟩
  have hfr : PdpFresh st := by subst hstd; exact ⟨rfl, rfl, rfl⟩
  have hni : st.ice = none := by subst hstd; rfl
  have hcfg : st.cfg = c := by subst hstd; rfl
  have hice : pdpIce st = .ok (iceInit c) := by
    have : pdpIce st = .ok (iceInit (plainIce st.cfg)) := pdpIce_own hni
    rw [this, hcfg, hplain]
  have hsame : SameCurve st { st with ice := some (iceInit c) } := sameCurve_ice hfr hice hdat hdat
  have hinit : algorithmInit cs res.surrogate.predict (.one hp) samples perAxis = .ok c := by
    subst hc
    rfl
  have hpdp : pdpFromIce (iceInit c) = .ok { st with ice := some (iceInit c) } := by
    unfold pdpFromIce
    rw [iceInit, hc]
    dsimp only
    rw [pdpInit_drawn, Py.ok_bind, hstd, hc]
    rfl
  have hax := newAxis_one hk "Prediction"
  obtain ⟨ax0, hax0⟩ : ∃ ax0 : Ax ℝ, ax0 = ⟨hp.name, "Prediction", false, false, some (-5, 5), none, []⟩ := ⟨_, rfl⟩
  rw [← hax0] at hax
  obtain ⟨xs, hxs⟩ := readsAs_drawn hst hhp hdrawn
  obtain ⟨xo, yo, p1, p2, p3, p4, p5⟩ := C86_one hsort (cs := cs) (sel := .one hp) (hp := hp) rfl (s := res.sampler) (by rw [r3, r4]) hxs "red" hax
  obtain ⟨A, hA⟩ : ∃ A : Shape ℝ, A = .points "red" xo yo := ⟨_, rfl⟩
  have hpl' : Plottable st.cfg mu sd := by rw [hcfg]; exact hplt
  have hsel' : st.cfg.selected = [hp] := by rw [hcfg, hc]
  have hff : IsFeature st.cfg.space hp e := by rw [hcfg, hc]; exact ⟨hp, he, rfl⟩
  have hcsam : st.cfg.samples = samples := by rw [hcfg, hc]
  have hcper : st.cfg.perAxis = perAxis := by rw [hcfg, hc]
  rw [← hA] at p1
  have hv1 := values_one hfr hni hpl' hsel' hk hff hsame (axis_again hax [A]) "black"
  obtain ⟨B, hB⟩ : ∃ B : Shape ℝ, B = .line "black" (naturalGrid (-5) 5 false perAxis) res.pdp.y := ⟨_, rfl⟩
  rw [hcsam, hcper, hsm, ← hy, ← hB, Ax.draw_draw] at hv1
  obtain ⟨bands, hcf, hsh⟩ := confidences_one hfr hni hpl' hsel' hk hff hsame.read (axis_again hax ([A] ++ [B])) "grey" "lightsalmon" (ms := 3 / 2) (by norm_num)
  have hstds : pdpStds samples sd e perAxis = res.pdp.v.map Real.sqrt := by
    rw [hv, hsm, pdpStds, pdpMeans, List.map_map]
    rfl
  rw [hcsam, hcper, hstds, hsm, ← hy] at hsh
  rw [Ax.draw_draw] at hcf
  refine ⟨res, hp, ax0.draw ([A] ++ [B] ++ bands), xs, xo, yo, bands, r1, ?_, r2, ?_, by rw [← hname]; exact hxs, p5, p4, by rw [p2, r3], by rw [p3, r3], hsh⟩
  · unfold mainFigure
    rw [Show.lift_bind hf, Show.lift_bind r2, Show.lift_bind henv]
    dsimp only
    have hs' : boSample (callObjective i.inv ⟨cs, styblinskiTangValue cs⟩) env (startSampler i .new) (32 * d - 20) = (res.sampler, none) := hs
    rw [Show.sampled_bind hs', Show.on_bind p1, Show.changed_bind hfit, Show.lift_bind (samplesOf_drawn hdr), Show.lift_bind hinit, Show.lift_bind hpdp, Show.onWith_bind hv1]
    dsimp only
    rw [Show.onWith_bind hcf]
    rfl
  · unfold AxisOne
    rw [← hA, ← hB, hax0]
    simp [Ax.draw]

/-- the script: 76 points and a line of 20 grid points on one axis, here with a generator that always draws the middle of the space -/
example : ∃ (i : MainInput Unit) (ax : Ax ℝ) (xo yo ys : List ℝ) (bands : List (Shape ℝ)), mainFigure i exArgsort 3 "x1" (.lcb 1) 100 20 ⟨0, []⟩ = (⟨0, []⟩, .ok ax) ∧
    ax.shapes = [.points "red" xo yo, .line "black" (naturalGrid (-5) 5 false 20) ys] ++ bands ∧ xo.length = 76 ∧ yo.length = 76 := by
  obtain ⟨cs, hf, hs, -⟩ := stSpace_ok (order := id) (fun l => List.Perm.refl l) 3
  obtain ⟨dr, hdr⟩ : ∃ dr : Drawer (Config ℝ) Unit, dr = ⟨fun _ n => (List.replicate n (midConfig cs), ()), by simp⟩ := ⟨_, rfl⟩
  have hdrawn : ∀ s n, ∀ c ∈ (dr.draw s n).1, DrawnFrom cs c := by
    intro s n c hc
    rw [hdr] at hc
    rw [List.eq_of_mem_replicate hc]
    exact midConfig_drawn hs
  obtain ⟨res, hp, ax, xs, xo, yo, bands, -, h1, -, h2, -, -, -, h3, h4, -⟩ := C102_figure (S := Unit) exArgsort_sorts (d := 3)
    (i := ⟨id, fun _ _ => matern 1, fun _ _ => 0, dr, dr, (), fun _ => .error .value, .absent, .many (List.replicate 1000 (midConfig cs))⟩)
    (by norm_num) hf ⟨fun l => List.Perm.refl l, fun _ _ => matern_unit one_pos _, hdrawn, hdrawn, by simp [loadCache],
      ⟨_, rfl, List.ne_nil_of_length_pos (by rw [List.length_replicate]; norm_num), fun c hc => by rw [List.eq_of_mem_replicate hc]; exact midConfig_drawn hs⟩⟩ (k := 1) le_rfl (by norm_num) (.lcb 1)
    (nCandidates := 100) (by norm_num) (perAxis := 20) (by norm_num) 100 (minPoints := 10) (by norm_num) (depth := 2) (by norm_num) ⟨0, []⟩
  exact ⟨_, ax, xo, yo, _, bands, h1, by rw [h2], h3, h4⟩

end PyPDP
