/-
C107: `algorithm_walkthrough` in examples/main_presentation.py.
-/
import Verif.Model.MainPresentation
import Verif.Props.Main2D
import Verif.Props.PlotFunction
import Verif.Props.SurrogatePlots
import Verif.Props.SpacePlots
import Verif.Props.FamilyPlots

namespace PyPDP
open Spec

namespace Show
variable {α β : Type}

theorem bind_apply (p : Show α) (f : α → Show β) (g : Gallery) :
    (p >>= f) g = match p g with
      | (g', .ok a) => f a g'
      | (g', .error e) => (g', .error e) := rfl

theorem bind_ok {p : Show α} {f : α → Show β} {g g' : Gallery} {a : α} (h : p g = (g', .ok a)) : (p >>= f) g = f a g' := by
  rw [bind_apply, h]

theorem bind_error {p : Show α} {f : α → Show β} {g g' : Gallery} {e : PyErr} (h : p g = (g', .error e)) : (p >>= f) g = (g', .error e) := by
  rw [bind_apply, h]

theorem bind_eq_ok {p : Show α} {f : α → Show β} {g g' : Gallery} {b : β} (h : (p >>= f) g = (g', .ok b)) : ∃ g1 a, p g = (g1, .ok a) ∧ f a g1 = (g', .ok b) := by
  rw [bind_apply] at h
  split at h
  · exact ⟨_, _, ‹_›, h⟩
  · cases h

theorem lift_bind {a : α} {r : Py α} (h : r = .ok a) (f : α → Show β) (g : Gallery) : (lift r >>= f) g = f a g := bind_ok (by rw [h]; rfl)

theorem sampled_bind {a : α} {r : α × Option PyErr} (h : r = (a, none)) (f : α → Show β) (g : Gallery) : (sampled r >>= f) g = f a g := bind_ok (by rw [h]; rfl)

theorem changed_bind {γ : Type} {a : α} {c : γ} {r : α × Py γ} (h : r = (a, .ok c)) (f : α → Show β) (g : Gallery) : (changed r >>= f) g = f a g := bind_ok (by rw [h]; rfl)

theorem on_bind {p : Plot ℝ Unit} {ax ax' : Ax ℝ} (h : p ax = (ax', .ok ())) (f : Ax ℝ → Show β) (g : Gallery) : (on p ax >>= f) g = f ax' g :=
  changed_bind h f g

theorem onWith_bind {r : α × Ax ℝ × Py Unit} {a : α} {ax : Ax ℝ} (h : r = (a, ax, .ok ())) (f : α × Ax ℝ → Show β) (g : Gallery) :
    (onWith r >>= f) g = f (a, ax) g := by
  subst h
  exact changed_bind rfl f g

theorem figure_bind (name : String) (axes : List (Ax ℝ)) (f : Unit → Show β) (g : Gallery) :
    (figure name axes >>= f) g = f () ⟨g.count + 1, saveFig g.files (figureFile g.count name) axes⟩ := rfl

end Show

/-! ### the last figures are never shown -/

theorem annotatedLeaves_fails {cs : ConfigSpace ℝ} {palette : List String} {k : Nat} {leaves : List (Node ℝ)} (hne : leaves ≠ []) (ax ax' : Ax ℝ) (g g' : Gallery) :
    annotatedLeaves cs palette k leaves ax g ≠ (g', .ok ax') := by
  intro h
  cases leaves with
  | nil => exact hne rfl
  | cons leaf rest =>
    unfold annotatedLeaves at h
    obtain ⟨_, _, -, h⟩ := Show.bind_eq_ok h
    obtain ⟨_, _, -, h⟩ := Show.bind_eq_ok h
    obtain ⟨_, _, -, h⟩ := Show.bind_eq_ok h
    obtain ⟨_, _, -, h⟩ := Show.bind_eq_ok h
    obtain ⟨_, _, h, -⟩ := Show.bind_eq_ok h
    cases h

/-- **C107** whatever is drawn and whatever the arguments: `algorithm_walkthrough` never returns. -/
theorem C107_never {S : Type} (i : MainInput S) (argsort : List ℝ → List Nat) (randomColor : Nat → String) (palette : List String) (d : Nat)
    (name : String) (kind : AcqKind) (n nCandidates : Int) (perPlot perAxis numSplits minPoints : Nat) (depth : Int) (g : Gallery) :
    ∃ e, (walkthrough i argsort randomColor palette d name kind n nCandidates perPlot perAxis numSplits minPoints depth g).2 = .error e := by
  rcases h : walkthrough i argsort randomColor palette d name kind n nCandidates perPlot perAxis numSplits minPoints depth g with ⟨g', r⟩
  cases r with
  | error e => exact ⟨e, rfl⟩
  | ok u =>
    exfalso
    unfold walkthrough at h
    obtain ⟨_, _, -, h⟩ := Show.bind_eq_ok h
    obtain ⟨_, ⟨env, m⟩, -, h⟩ := Show.bind_eq_ok h
    dsimp only at h
    iterate 15 obtain ⟨_, _, -, h⟩ := Show.bind_eq_ok h
    obtain ⟨_, ⟨ice, ax⟩, -, h⟩ := Show.bind_eq_ok h
    dsimp only at h
    obtain ⟨_, _, -, h⟩ := Show.bind_eq_ok h
    obtain ⟨_, _, -, h⟩ := Show.bind_eq_ok h
    obtain ⟨_, ⟨pdp, ax⟩, -, h⟩ := Show.bind_eq_ok h
    dsimp only at h
    obtain ⟨_, _, -, h⟩ := Show.bind_eq_ok h
    obtain ⟨_, ⟨pdp, ax⟩, -, h⟩ := Show.bind_eq_ok h
    dsimp only at h
    obtain ⟨_, ⟨pdp, ax⟩, -, h⟩ := Show.bind_eq_ok h
    dsimp only at h
    iterate 3 obtain ⟨_, _, -, h⟩ := Show.bind_eq_ok h
    obtain ⟨_, tree, -, h⟩ := Show.bind_eq_ok h
    obtain ⟨_, _, hplot, h⟩ := Show.bind_eq_ok h
    have hne : tree.leaves ≠ [] := by
      intro h0
      unfold Show.on at hplot
      rw [C89_refused (.inl h0)] at hplot
      cases hplot
    obtain ⟨_, _, -, h⟩ := Show.bind_eq_ok h
    obtain ⟨_, _, -, h⟩ := Show.bind_eq_ok h
    obtain ⟨_, _, hann, -⟩ := Show.bind_eq_ok h
    exact annotatedLeaves_fails hne _ _ _ _ hann

/-! ### the parts of the script -/

/-- two calls of `sample` in a row, the first one with the number of initial points -/
theorem sampler_twice {S : Type} {i : MainInput S} {d : Nat} (hd : 1 ≤ d) {cs : ConfigSpace ℝ} (hs : StSpace d cs) (hi : i.Good cs) (kind : AcqKind)
    {nCandidates : Int} (hn : 2 ≤ nCandidates) {initial n m : Int} (hini : 1 ≤ initial) (hm : 1 ≤ m) (hn1 : 0 ≤ n) :
    ∃ env s t, gpSampler i.choose kind true initial (cs.map Hp.name) i.drawer i.acqDrawer nCandidates = .ok (env, .new) ∧ env.initialPoints = initial ∧
      boSample (callObjective i.inv ⟨cs, styblinskiTangValue cs⟩) env (startSampler i .new) m = (s, none) ∧
      boSample (callObjective i.inv ⟨cs, styblinskiTangValue cs⟩) env s n = (t, none) ∧
      s.configs.length = m.toNat ∧ (∃ new, t.configs = s.configs ++ new ∧ new.length = n.toNat) ∧ (∀ c ∈ t.configs, DrawnFrom cs c) ∧ t.ys.length = t.configs.length ∧
      (∀ (j : Nat) c y, t.configs[j]? = some c → t.ys[j]? = some y → styblinskiTangValue cs c = .ok y) ∧
      (initial ≤ m → loadCache i.ofVec i.file = [] → OptimisedBy d i kind initial.toNat nCandidates.toNat t.configs t.ys) := by
  have hk : ∀ Z t, Covariance d (i.choose Z t) := fun Z t => hs.len ▸ (hi.kernel Z t).1
  obtain ⟨o, ho⟩ : ∃ o, o = callObjective i.inv ⟨cs, styblinskiTangValue cs⟩ := ⟨_, rfl⟩
  have hval : ∀ c, DrawnFrom cs c → styblinskiTangValue cs c = .ok (o.value c) ∧ ∀ t, o.raises t c = none := by
    intro c hc
    obtain ⟨v, h1, h2⟩ := call_drawn hs i.inv hc
    rw [ho]
    constructor
    · rw [h1]; simp only [callObjective, h2]
    · intro t; simp only [callObjective, h2]
  have henv := gpSampler_ok i.choose (kind := kind) (minimize := true) (.inl rfl) initial (cs.map Hp.name) i.drawer i.acqDrawer nCandidates
  obtain ⟨env, he⟩ : ∃ env : BOEnv (Config ℝ) ℝ GpSurrogate S, env =
    { initialPoints := initial, minimize := true, names := cs.map Hp.name, drawer := i.drawer, acqDrawer := i.acqDrawer, nCandidates, fit := gpFitStep i.choose, acq := gpAcq kind true } := ⟨_, rfl⟩
  rw [← he] at henv
  have hruns : Runs (DrawnFrom cs) o env := by
    rw [he]
    refine ⟨fun t c hc => (hval c hc).2 t, hi.drawn, hi.candidates, fun m l ys hne hg hl => ?_, by dsimp only; omega⟩
    obtain ⟨m', h, -⟩ := gpFitStep_ok hk (configs_data hd hne (fun c hc => (hg c hc).1.trans hs.len) hl) m
    exact ⟨m', h⟩
  obtain ⟨start, hstart⟩ : ∃ st : BOState (Config ℝ) ℝ GpSurrogate S, st = startSampler i .new := ⟨_, rfl⟩
  have hg : Good (DrawnFrom cs) start := by rw [hstart]; exact ⟨by simp [startSampler, samplerInit], rfl⟩
  have hc : ∀ p ∈ start.cache, DrawnFrom cs p.1 := by rw [hstart]; exact fun p hp => (hi.cache p hp).1
  have hnc : 2 ≤ env.nCandidates := by rw [he]; exact hn
  obtain ⟨h1, h2, h3, h4⟩ := boSample_runs hruns hnc (n := m) (.inl hm) hg hc
  obtain ⟨s, hs'⟩ : ∃ s, boSample o env start m = (s, none) := ⟨_, Prod.ext rfl h1⟩
  rw [hs'] at h2 h3 h4
  obtain ⟨k1, k2, -, -⟩ := boSample_runs hruns hnc (n := n) (.inr ⟨hn1, h3⟩) h2 h4
  obtain ⟨t, ht'⟩ : ∃ t, boSample o env s n = (t, none) := ⟨_, Prod.ext rfl k1⟩
  rw [ht'] at k2
  classical
  obtain ⟨new, n1, n2, -, -⟩ := C19_sample_appends (o := o) (.bo env) hs'
  obtain ⟨new', n1', n2', -, -⟩ := C19_sample_appends (o := o) (.bo env) ht'
  obtain ⟨a1, a2⟩ := randomOrBO_aligned (o := o) (.bo env) start m (by rw [hstart]; rfl) (by
    rw [hstart]
    intro p hp
    obtain ⟨a, b⟩ := hi.cache p hp
    rw [(hval _ a).1] at b
    exact (Except.ok.inj b).symm)
  rw [hs'] at a1 a2
  obtain ⟨hal, -⟩ := randomOrBO_aligned (o := o) (.bo env) s n a1 a2
  rw [ht'] at hal
  refine ⟨env, s, t, henv, by rw [he], by rw [← hstart, ← ho, hs'], by rw [← ho, ht'], ?_, ⟨_, n2', by rw [List.length_map, n1']⟩, k2.configs, k2.len, fun j c y hj hy => ?_, fun him hcache => ?_⟩
  · rw [n2, hstart]
    simp only [startSampler, samplerInit, List.nil_append, List.length_map, n1]
  · unfold Aligned at hal
    dsimp only at hal
    rw [hal, List.getElem?_map, hj] at hy
    rw [(hval c (k2.configs c (List.mem_of_getElem? hj))).1]
    exact congrArg _ (Option.some.inj hy)
  · obtain ⟨a, rfl⟩ := Int.eq_ofNat_of_zero_le (show 0 ≤ initial by omega)
    obtain ⟨b, rfl⟩ := Int.eq_ofNat_of_zero_le (show 0 ≤ m by omega)
    obtain ⟨c, rfl⟩ := Int.eq_ofNat_of_zero_le hn1
    rw [hstart] at hs'
    exact sampler_points_twice hd (fun Z t => hs.len ▸ hi.kernel Z t) (fun r k c hc => (hi.candidates r k c hc).1.trans hs.len) (initial := a) (n := b) (k := c) (by omega) henv hs' ht' hcache hal
      fun c hc => (k2.configs c hc).1.trans hs.len

/-- the function of two arguments -/
noncomputable def stTwo (a b : ℝ) : ℝ := ((a ^ 4 - 16 * a ^ 2 + 5 * a) + (b ^ 4 - 16 * b ^ 2 + 5 * b)) / 2

/-- the plot of the function over the square -/
theorem function_figure {p q : Hp ℝ} (hs : StSpace 2 [p, q]) (inv : Hp ℝ → Val ℝ → ℝ) {perPlot : Nat} (hpp : 2 ≤ perPlot) (color : String) :
    ∃ xs ys ax, plotFunction ((BlackboxFn.mk [p, q] (styblinskiTangValue [p, q])).call inv) [p, q] perPlot color Ax.new = (ax, .ok ()) ∧
      EvenAxis (-5) 5 false perPlot xs ∧ EvenAxis (-5) 5 false perPlot ys ∧
      AxisTwo p q (-5) 5 false (-5) 5 false ax [.mesh xs ys (ys.map fun b => xs.map fun a => stTwo a b)] := by
  have hp := hs.kind p (by simp)
  have hq := hs.kind q (by simp)
  obtain ⟨xs, ys, consts, h1, h2, h3, h4, -⟩ := C73_two (cs := [p, q]) (p := p) (q := q) (by simp [varying, hp, hq]) (l := -5) (u := 5) (g := false) (l' := -5) (u' := 5) (g' := false)
    ⟨.inl hp, by norm_num, by simp⟩ ⟨.inl hq, by norm_num, by simp⟩ hpp ((BlackboxFn.mk [p, q] (styblinskiTangValue [p, q])).call inv) color
    (newAxis_two (.inl hp) (.inl hq) "Prediction")
  have hcn : consts = [] := by
    rw [List.eq_nil_iff_forall_not_mem]
    rintro ⟨nm, v⟩ hm
    have := (h3.2 nm v).1 hm
    have := hs.kind _ this
    cases this
  have hin : ∀ l, EvenAxis (-5) 5 false perPlot l → ∀ a ∈ l, -5 ≤ a ∧ a ≤ 5 := by
    intro l hl a ha
    obtain ⟨j, hj, rfl⟩ := List.getElem_of_mem ha
    have h0 := hl.head
    have h9 := hl.last
    have hlen := hl.length
    have hpw := List.pairwise_iff_getElem.1 hl.increasing
    obtain ⟨l0, e0⟩ := List.getElem?_eq_some_iff.1 h0
    obtain ⟨l9, e9⟩ := List.getElem?_eq_some_iff.1 h9
    constructor
    · rcases Nat.eq_zero_or_pos j with rfl | hj0
      · exact e0.ge
      · have := hpw 0 j l0 hj hj0
        rw [e0] at this; exact this.le
    · rcases Nat.lt_or_ge j (perPlot - 1) with hj0 | hj0
      · have := hpw j (perPlot - 1) hj l9 hj0
        rw [e9] at this; exact this.le
      · obtain rfl : j = perPlot - 1 := by omega
        exact e9.le
  have hne : p.name ≠ q.name := by
    have := hs.wf
    unfold ConfigSpace.WF at this
    simpa using this
  refine ⟨xs, ys, _, h4 stTwo fun a ha b hb => ?_, h1, h2, rfl⟩
  obtain ⟨a1, a2⟩ := hin xs h1 a ha
  obtain ⟨b1, b2⟩ := hin ys h2 b hb
  rw [hcn]
  obtain ⟨config, c1, c2, c3⟩ := C11_legal inv (BlackboxFn.mk [p, q] (styblinskiTangValue [p, q])) (kwargs := [(p.name, .num a), (q.name, .num b)]) (by simpa using hne) (by
    refine ⟨fun x hx => ?_, fun h hh => ?_⟩
    · simp only [List.mem_cons, List.not_mem_nil, or_false] at hx
      rcases hx with rfl | rfl
      · exact ⟨p, by simp, rfl⟩
      · exact ⟨q, by simp, rfl⟩
    · simp only [List.mem_cons, List.not_mem_nil, or_false] at hh
      rcases hh with rfl | rfl
      · refine ⟨.num a, by simp, ?_⟩
        simp only [Hp.legal, hp]
        exact decide_eq_true ⟨a1, a2⟩
      · refine ⟨.num b, by simp, ?_⟩
        simp only [Hp.legal, hq]
        exact decide_eq_true ⟨b1, b2⟩)
  rw [c1]
  dsimp only
  have hget : ∀ h v, (h, v) ∈ [(p.name, Val.num a), (q.name, Val.num b)] → config.get? h = some v := fun h v hm =>
    get?_of_mem (by rw [c2]; exact hs.wf) ((c3 _ _).1 hm) config.vector
  rw [C97_styblinski_tang [p, q] config ![a, b] fun i => by
    fin_cases i
    · exact hget _ _ (by simp)
    · exact hget _ _ (by simp)]
  congr 1
  rw [stTwo, show (∑ i : Fin (List.length [p, q]), (![a, b] i ^ 4 - 16 * ![a, b] i ^ 2 + 5 * ![a, b] i)) = ∑ i : Fin 2, (![a, b] i ^ 4 - 16 * ![a, b] i ^ 2 + 5 * ![a, b] i) from rfl,
    Fin.sum_univ_two]
  simp
  ring

/-- the line of a sample -/
noncomputable def sampleLine (color : String) (mu : List ℝ → ℝ) (e P : Nat) (r : List ℝ) : Shape ℝ :=
  .line color (naturalGrid (-5) 5 false P) (iceValues mu e P r)

theorem lineOf_sample {d : Nat} {cs : ConfigSpace ℝ} (hs : StSpace d cs) {hp : Hp ℝ} {e : Nat} (he : cs[e]? = some hp) {mu sd : List ℝ → ℝ} {P : Nat}
    {grid : List (List ℝ)} (hgrid : grid = (linspace 0 1 P).map fun t => [t]) {r : List ℝ} (hr : r.length = List.length cs) {color : String} {s : Shape ℝ}
    (h : LineOf cs hp color (curveOf cs [hp] mu sd grid r) s) : s = sampleLine color mu e P r := by
  obtain ⟨xs, rfl, hx⟩ := h
  have hgl : grid.length = P := by rw [hgrid, List.length_map, linspace_length]
  have hgp : ∀ p < P, grid[p]? = some [gridValue P p] := by
    intro p hp'
    rw [hgrid, List.getElem?_map, (linspace_fraction hp').1]; rfl
  have hxl : xs.length = P := by
    rw [← hx.length_eq]; simp [curveOf, hgl]
  unfold sampleLine
  congr 1
  · refine eq_range_map hxl fun j hj => natural_eq (.inl (hs.kind hp (List.mem_of_getElem? he))) (fun f hf => ?_) hx (by simp [curveOf, hgl, hj])
    obtain rfl : f = e := by
      obtain ⟨h', hf', hn⟩ := hf
      have h1 : (cs.map Hp.name)[f]? = some hp.name := by rw [List.getElem?_map, hf', ← hn]; rfl
      have h2 : (cs.map Hp.name)[e]? = some hp.name := by rw [List.getElem?_map, he]; rfl
      exact (List.getElem?_inj (List.getElem?_eq_some_iff.1 h1).1 hs.wf).1 (h1.trans h2.symm)
    simp only [curveOf, at2, List.getElem?_map, hgp j hj, Option.map_some, Option.bind_some]
    exact replaced_at he hr
  · refine eq_range_map (by simp [curveOf, hgl]) fun j hj => ?_
    simp only [curveOf, List.getElem?_map, hgp j hj, Option.map_some, replaced_one hs.wf he hr]

theorem forall₂_eq_map {α β : Type} {R : α → β → Prop} {f : α → β} {l : List α} {g : List β} (h : List.Forall₂ R l g) (hR : ∀ a ∈ l, ∀ b, R a b → b = f a) : g = l.map f := by
  induction h with
  | nil => rfl
  | cons h _ ih => rw [List.map_cons, hR _ (by simp) _ h, ih fun a ha => hR a (by simp [ha])]

theorem curve_values {cs : ConfigSpace ℝ} (hwf : cs.WF) {hp : Hp ℝ} {e : Nat} (he : cs[e]? = some hp) {mu sd : List ℝ → ℝ} {P : Nat}
    {grid : List (List ℝ)} (hgrid : grid = (linspace 0 1 P).map fun t => [t]) {r : List ℝ} (hr : r.length = List.length cs) :
    (curveOf cs [hp] mu sd grid r).2.1 = iceValues mu e P r := by
  refine eq_range_map (by simp [curveOf, hgrid, linspace_length]) fun j hj => ?_
  have : grid[j]? = some [gridValue P j] := by
    rw [hgrid, List.getElem?_map, (linspace_fraction hj).1]; rfl
  simp only [curveOf, List.getElem?_map, this, Option.map_some, replaced_one hwf he hr]

/-- the tree, its figure and its regions -/
theorem tree_figure {d : Nat} {cs : ConfigSpace ℝ} (hs : StSpace d cs) {hp : Hp ℝ} {e : Nat} (he : cs[e]? = some hp) {predict : Predict ℝ} {mu sd : List ℝ → ℝ}
    (hrow : RowWise cs.length predict mu sd) {samples : List (List ℝ)} (hrows : ∀ r ∈ samples, r.length = List.length cs ∧ ∀ e ∈ r, 0 ≤ e ∧ e ≤ 1) (hsne : samples ≠ [])
    {perAxis : Nat} (hg : 1 ≤ perAxis) (numSplits : Nat) {minPoints : Nat} (hm : 1 ≤ minPoints) {depth : Int} (hdep : 0 < depth) {i : IceState ℝ}
    (hi : i.cfg = ⟨cs, [hp], samples, samples.length, perAxis, perAxis ^ 1, false, predict⟩) (randomColor : Nat → String) :
    ∃ (tree t2 : DT ℝ) (leaves : List (Node ℝ)) (rows : List (List (List ℝ))) (ax : Ax ℝ), dtFromIce i numSplits minPoints none = .ok tree ∧
      dtPartition tree depth = (t2, .ok leaves) ∧
      t2.leaves = leaves ∧ leaves ≠ [] ∧ leaves.length ≤ 2 ^ depth.toNat ∧
      (∀ leaf ∈ leaves, ∃ box mc, regionImplied cs leaf.conds = .ok box ∧ box.map Hp.name = cs.map Hp.name ∧
        (∀ h ∈ box, ∃ l u, h.kind = .float l u false ∧ -5 ≤ l ∧ l < u ∧ u ≤ 5) ∧ meanConfidence leaf = .ok mc) ∧
      rows.length = leaves.length ∧ (∀ l ∈ rows, l.Sublist samples ∧ (minPoints ≤ l.length ∨ rows = [samples])) ∧
      (rows.flatten.map (iceValues mu e perAxis)).Perm (samples.map (iceValues mu e perAxis)) ∧
      dtPlot ((List.range leaves.length).map randomColor) (1 / 10) t2 Ax.new = (ax, .ok ()) ∧
      AxisOne hp "Prediction" (-5) 5 false ax (rows.mapIdx fun k l => l.map (sampleLine (randomColor k) mu e perAxis)).flatten := by
  have hh := List.mem_of_getElem? he
  have hrl : ∀ r ∈ samples, r.length = List.length cs := fun r hr => (hrows r hr).1
  obtain ⟨grid, dat, hgr, hgl, hfull, hcalc, hdx, hdy, hdv⟩ := ice_curves (selected := [hp]) hs.wf (by simpa using hh) (by simp) (by simp) hrl hsne hg hrow
  obtain ⟨c, hc⟩ : ∃ c : IceCfg ℝ, c = ⟨cs, [hp], samples, samples.length, perAxis, perAxis ^ [hp].length, false, predict⟩ := ⟨_, rfl⟩
  have hgrid : grid = (linspace 0 1 perAxis).map fun t => [t] := by
    rw [List.length_singleton, gridPoints_one] at hgr
    exact (Except.ok.inj hgr).symm
  have hglen : grid.length = perAxis := by rw [hgrid, List.length_map, linspace_length]
  rw [← hc] at hcalc
  have hself : algorithmInit c.space c.predict (.many (c.selected.map .hp)) c.samples c.perAxis = .ok c := by
    have := algorithmInit_self (c := c) (by rw [hc]) (by rw [hc])
    rw [this, hc]
  obtain ⟨i', hra, -, -⟩ := (readAll_fresh (fresh_init c)).1 dat hcalc
  have hnode : mkNode 0 dat.x dat.y dat.v ([] : List (Cond ℝ)) = .ok ⟨0, dat.x, dat.y, dat.v, []⟩ := by
    unfold mkNode rowsAgree
    rw [if_pos (by simp [hdx, hdy, hdv, curveOf])]
  have hown : ownIce c = .ok (iceInit c) := ownIce_eq (by rw [hc]) (by rw [hc]) (by rw [hc])
  obtain ⟨q, hq⟩ : ∃ q : DT ℝ, q = ⟨c, possibleSplits cs [hp] [], numSplits, minPoints, i', ⟨0, dat.x, dat.y, dat.v, []⟩, []⟩ := ⟨_, rfl⟩
  have hcs : c.space = cs := by rw [hc]
  have hcl : c.selected = [hp] := by rw [hc]
  have hdt : dtInit c.space c.predict (.many (c.selected.map .hp)) c.samples c.perAxis numSplits minPoints none = .ok q := by
    unfold dtInit
    rw [hself, Py.ok_bind, notSplittableHps, Py.ok_bind]
    dsimp only
    rw [hown, Py.ok_bind, hra, Py.ok_bind]
    dsimp only
    rw [hnode, Py.ok_bind, hq, hcs, hcl]
    rfl
  have hic : i.cfg = c := by rw [hi, hc, List.length_singleton]
  have hfrom : dtFromIce i numSplits minPoints none = .ok { q with ice := i } := by
    unfold dtFromIce
    rw [hic, hdt, Py.ok_bind]; rfl
  have hqc : q.cfg = c := by rw [hq]
  have hqr : curves q.root = samples.map (curveOf cs [hp] mu sd grid) := by
    rw [hq]
    unfold curves
    dsimp only
    rw [hdx, hdy, hdv, zip_map3]
  obtain ⟨hv, -, -, -⟩ := dt_valid (by rw [hcs]; exact hs.wf) (by rw [hcs, show c.samples = samples by rw [hc]]; exact hrl)
    (by rw [hc]; exact hg) hdt (by rw [hqc, hcl, hcs]; simpa using hh) (by rw [hqc, hcl]; simp) (by rw [hqc, hcl]; simp)
  rw [hqc, hcl, show c.perAxis = perAxis by rw [hc], ← hgl] at hv
  obtain ⟨tree, htree⟩ : ∃ t : DT ℝ, t = { q with ice := i } := ⟨_, rfl⟩
  have hv' : ValidDT grid.length tree := by rw [htree]; exact ⟨hv.wf, hv.possible_mem, hv.shape, hv.depth, hv.conds⟩
  have htc : tree.cfg = c := by rw [htree]; exact hqc
  have htr : tree.root = q.root := by rw [htree]
  obtain ⟨L, hL, -⟩ := partition_eq hv' hdep
  obtain ⟨L1, p1, p2, p3, p4⟩ := C50_leaves_partition hv' hdep
  obtain ⟨L2, d1, d2, d3, -⟩ := C51_depth_and_count hv' hdep
  obtain ⟨L3, b1, b2⟩ := C59_proper_box hv' (by
    rw [htc, hcs]
    exact fun h hm' => ⟨-5, 5, false, by simp [Hp.numerical?, hs.kind _ hm'], by norm_num, by simp⟩) (by rw [htree]; dsimp only; rw [hq]; exact hm) hdep
  have hL2 : (dtPartition tree depth).2 = .ok L := by rw [hL]
  rw [hL2] at p1 d1 b1
  obtain rfl := Except.ok.inj p1
  obtain rfl := Except.ok.inj d1
  obtain rfl := Except.ok.inj b1
  rw [htr, hqr] at p3 p4
  rw [htc, hcs] at b2 p4
  -- the rows of the leaves
  have hsub : ∀ leaf, ∃ l : List (List ℝ), leaf ∈ L → l.Sublist samples ∧ curves leaf = l.map (curveOf cs [hp] mu sd grid) := by
    intro leaf
    by_cases hm' : leaf ∈ L
    · obtain ⟨l, h1, h2⟩ := List.sublist_map_iff.1 (p4 leaf hm').2
      exact ⟨l, fun _ => ⟨h1, h2⟩⟩
    · exact ⟨[], fun h => absurd h hm'⟩
  choose rowsOf hrowsOf using hsub
  have hax := newAxis_one (.inl (hs.kind hp hh)) "Prediction"
  obtain ⟨t2, ht2⟩ : ∃ t, t = (dtPartition tree depth).1 := ⟨_, rfl⟩
  have ht2c : t2.cfg = c := by rw [ht2, hL]; exact htc
  have ht2l : t2.leaves = L := by rw [ht2, hL]
  have hng : c.numGrid = grid.length := by rw [hc]; exact hgl.symm
  obtain ⟨groups, g1, g2, g3⟩ := C89_leaves (p := t2) (colors := (List.range L.length).map randomColor) (by rw [ht2c, hcs]; exact fun h hm' => ⟨-5, 5, false, hs.declares hm'⟩)
    (by rw [ht2c, hcl]) (by rw [ht2c, hcs]; exact hh) (by
      rw [ht2l, ht2c, hcs, hng]
      refine fun n hn => ⟨(p4 n hn).1, fun cv hcv m hm' x hx => ?_⟩
      obtain ⟨r, hr, rfl⟩ := List.mem_map.1 ((p4 n hn).2.subset hcv)
      obtain ⟨t, ht, rfl⟩ := List.mem_map.1 (show m ∈ grid.map fun t => replaced cs [hp] t r from hm')
      rw [hgrid] at ht
      obtain ⟨w, hw, rfl⟩ := List.mem_map.1 ht
      rw [replaced_one hs.wf he (hrl r hr)] at hx
      rcases List.mem_or_eq_of_mem_set hx with hx | rfl
      · exact (hrows r hr).2 x hx
      · obtain ⟨j, hj, rfl⟩ := List.getElem_of_mem hw
        rw [linspace_length] at hj
        obtain ⟨e1, e2, e3⟩ := linspace_fraction hj
        rw [List.getElem?_eq_getElem (by rw [linspace_length]; exact hj)] at e1
        rw [Option.some.inj e1]
        exact ⟨e2, e3⟩) (by rw [ht2l]; exact List.ne_nil_of_length_pos (by omega)) (by rw [ht2l]; simp) (alpha := 1 / 10) (by norm_num) (by norm_num) hax
  rw [ht2l] at g2 g3
  rw [ht2c, hcs] at g3
  have hgroups : groups = (L.map rowsOf).mapIdx fun k l => l.map (sampleLine (randomColor k) mu e perAxis) := by
    refine List.ext_getElem? fun k => ?_
    by_cases hk : k < L.length
    · obtain ⟨gr, e1, e2⟩ := g3 k L[k] (randomColor k) (List.getElem?_eq_getElem hk) (by simp [hk])
      obtain ⟨r1, r2⟩ := hrowsOf L[k] (List.getElem_mem hk)
      rw [e1, List.getElem?_mapIdx, List.getElem?_map, List.getElem?_eq_getElem hk]
      simp only [Option.map_some, Option.some.injEq]
      rw [r2, List.forall₂_map_left_iff] at e2
      exact forall₂_eq_map e2 fun r hr b hb => lineOf_sample hs he hgrid (hrl r (r1.subset hr)) hb
    · rw [List.getElem?_eq_none (by omega), List.getElem?_eq_none (by simp; omega)]
  have hsize : ∀ leaf ∈ L, leaf = tree.root ∨ minPoints ≤ (curves leaf).length := by
    intro leaf hl
    by_cases h : leaf = tree.root
    · exact .inl h
    · have := (C52_min_points hv' hL2 hl h).1
      rw [htree] at this
      dsimp only at this
      rw [hq] at this
      exact .inr this
  have hroot : curves tree.root = samples.map (curveOf cs [hp] mu sd grid) := by rw [htr]; exact hqr
  have hpos : ∀ leaf ∈ L, 1 ≤ (curves leaf).length := by
    intro leaf hl
    rcases hsize leaf hl with rfl | h
    · rw [hroot, List.length_map]
      exact List.length_pos_iff.2 hsne
    · omega
  refine ⟨tree, t2, L, L.map rowsOf, _, by rw [htree]; exact hfrom, Prod.ext ht2.symm hL2, ht2l, List.ne_nil_of_length_pos (by omega), d3, fun leaf hl => ?_, by simp, ?_, ?_, g1, ?_⟩
  · obtain ⟨box, o1, o2, o3, o4⟩ := b2 leaf hl
    refine ⟨box, _, o1, o2, fun h hm' => ?_, C82_mean_confidence (p4 leaf hl).1 (List.ne_nil_of_length_pos (hpos leaf hl))⟩
    obtain ⟨f, hf, rfl⟩ := List.getElem_of_mem hm'
    have hf' : f < List.length cs := by omega
    obtain ⟨l', u', e1, e2, e3, e4, -⟩ := o4 f _ (-5) 5 false (List.getElem?_eq_getElem hf') (by simp [Hp.numerical?, hs.kind _ (List.getElem_mem hf')])
    rw [List.getElem?_eq_getElem hf] at e1
    rw [Option.some.inj e1]
    exact ⟨l', u', rfl, e2, e3, e4⟩
  · intro l hlm
    obtain ⟨leaf, hl, rfl⟩ := List.mem_map.1 hlm
    obtain ⟨r1, r2⟩ := hrowsOf leaf hl
    refine ⟨r1, ?_⟩
    rcases hsize leaf hl with h | h
    · right
      have hlen : (rowsOf leaf).length = samples.length := by
        have := congrArg List.length r2
        rw [h, hroot] at this
        simpa [h] using this.symm
      have hall : rowsOf leaf = samples := r1.eq_of_length hlen
      have htot := p3.length_eq
      rw [List.length_map, ← hlen] at htot
      obtain ⟨A, B, rfl⟩ := List.append_of_mem hl
      have hlc : (curves leaf).length = (rowsOf leaf).length := by rw [r2, List.length_map]
      rw [List.flatMap_append, List.flatMap_cons, List.length_append, List.length_append, hlc] at htot
      have hA : A = [] := by
        cases A with
        | nil => rfl
        | cons a A =>
          have := hpos a (by simp)
          rw [List.flatMap_cons, List.length_append] at htot
          omega
      have hB : B = [] := by
        cases B with
        | nil => rfl
        | cons b B =>
          have := hpos b (by simp)
          rw [List.flatMap_cons, List.length_append] at htot
          omega
      rw [hA, hB]
      simp [hall]
    · left
      rwa [r2, List.length_map] at h
  · have hp3 := p3.map fun cv : Curve ℝ => cv.2.1
    have hy : samples.map ((fun cv : Curve ℝ => cv.2.1) ∘ curveOf cs [hp] mu sd grid) = samples.map (iceValues mu e perAxis) :=
      List.map_congr_left fun r hr => curve_values hs.wf he hgrid (hrl r hr)
    rw [List.map_map, hy] at hp3
    have : ((L.map rowsOf).flatten.map (iceValues mu e perAxis)) = (L.flatMap curves).map fun cv => cv.2.1 := by
      rw [List.map_flatMap, List.map_flatten, List.map_map, ← List.flatMap_def]
      refine List.flatMap_congr fun leaf hl => ?_
      obtain ⟨r1, r2⟩ := hrowsOf leaf hl
      rw [r2, List.map_map]
      exact List.map_congr_left fun r hr => (curve_values hs.wf he hgrid (hrl r (r1.subset hr))).symm
    rw [this]
    exact hp3
  · rw [hgroups]; rfl

/-- the mesh of a function of the fractions of two hyperparameters over `[-5, 5]²` -/
noncomputable def squareMesh (n : Nat) (h : ℝ → ℝ → ℝ) : Shape ℝ :=
  .mesh (naturalGrid (-5) 5 false n) (naturalGrid (-5) 5 false n) ((List.range n).map fun j => (List.range n).map fun i => h (gridValue n i) (gridValue n j))

theorem squareMesh_eq {n : Nat} {h : ℝ → ℝ → ℝ} {xs ys : List ℝ} {z : List (List ℝ)} (hx : xs.length = n) (hy : ys.length = n) (hz : Shape2 n n z)
    (hc : ∀ i < n, xs[i]? = some (interpolate (-5) 5 false (gridValue n i)) ∧ ys[i]? = some (interpolate (-5) 5 false (gridValue n i)))
    (hv : ∀ i < n, ∀ j < n, at2 z j i = some (h (gridValue n i) (gridValue n j))) : Shape.mesh xs ys z = squareMesh n h := by
  unfold squareMesh
  congr 1
  · exact eq_range_map hx fun i hi => (hc i hi).1
  · exact eq_range_map hy fun i hi => (hc i hi).2
  · refine List.ext_getElem? fun j => ?_
    by_cases hj : j < n
    · have hjz : j < z.length := by rw [hz.1]; exact hj
      rw [List.getElem?_eq_getElem hjz, List.getElem?_map, List.getElem?_range hj]
      simp only [Option.map_some, Option.some.injEq]
      refine eq_range_map (hz.2 _ (List.getElem_mem hjz)) fun i hi => ?_
      have := hv i hi j hj
      rwa [at2, List.getElem?_eq_getElem hjz, Option.bind_some] at this
    · rw [List.getElem?_eq_none (by rw [hz.1]; omega), List.getElem?_eq_none (by simp; omega)]

theorem icePlot_cfg {s : IceState ℝ} {d : IceData ℝ} (h : Gives s d) (color : String) (alpha : ℝ) (ax : Ax ℝ) : (icePlot color alpha s ax).1.cfg = s.cfg := by
  have hk : ∀ i : IceState ℝ, Gives i d → (readX i).1.cfg = i.cfg ∧ (readY i).1.cfg = i.cfg := by
    intro i hi
    have := C44_read_keeps_attributes i (by
      rcases hi with h | h
      · exact .inr ⟨d, h⟩
      · exact .inl h.1)
    exact ⟨this.1, this.2.1⟩
  obtain ⟨⟨s1, hr1, hs1⟩, -, -⟩ := reads_of_gives h
  obtain ⟨-, ⟨s2, hr2, hs2⟩, -⟩ := reads_of_gives (Or.inl hs1 : Gives s1 d)
  have e1 := (hk s h).1
  have e2 := (hk s1 (.inl hs1)).2
  rw [hr1] at e1
  rw [hr2] at e2
  unfold icePlot
  split
  · rfl
  · split
    · rw [hr1]
      dsimp only
      rw [hr2]
      exact e2.trans e1
    · rfl

/-- the figures of ICE and PDP on one axis -/
theorem ice_figures {d : Nat} {cs : ConfigSpace ℝ} (hs : StSpace d cs) {hp : Hp ℝ} {e : Nat} (he : cs[e]? = some hp) {predict : Predict ℝ} {mu sd : List ℝ → ℝ}
    (hrow : RowWise cs.length predict mu sd) {draws : Draws (Config ℝ)} {samples : List (List ℝ)} (hdr : UnitDraws cs draws samples) {perAxis : Nat} (hg : 1 ≤ perAxis)
    {c : IceCfg ℝ} (hc : c = ⟨cs, [hp], samples, samples.length, perAxis, perAxis ^ 1, false, predict⟩) :
    ∃ i1 pdp pdp1 pdp2 pdp3 a5 a6 a7 a7' bands i2, icePlot "red" (1 / 10) (iceInit c) Ax.new = (i1, a5, .ok ()) ∧ pdpFromIce i1 = .ok pdp ∧
      pdpPlotValues "black" pdp a5 = (pdp1, a6, .ok ()) ∧ pdpPlotConfidences "black" "black" (3 / 2) pdp1 a6 = (pdp2, a7', .ok ()) ∧
      pdpPlotValues "black" pdp2 a7' = (pdp3, a7, .ok ()) ∧ pdpIce pdp3 = .ok i2 ∧ i2.cfg = c ∧
      AxisOne hp "Prediction" (-5) 5 false a5 (samples.map (sampleLine "red" mu e perAxis) ++ [.line "red" [] []]) ∧
      AxisOne hp "Prediction" (-5) 5 false a6 (samples.map (sampleLine "red" mu e perAxis) ++ [.line "red" [] []] ++
        [.line "black" (naturalGrid (-5) 5 false perAxis) (pdpMeans samples mu e perAxis)]) ∧
      AxisOne hp "Prediction" (-5) 5 false a7 (samples.map (sampleLine "red" mu e perAxis) ++ [.line "red" [] []] ++
        [.line "black" (naturalGrid (-5) 5 false perAxis) (pdpMeans samples mu e perAxis)] ++ bands ++
        [.line "black" (naturalGrid (-5) 5 false perAxis) (pdpMeans samples mu e perAxis)]) ∧
      ShowsConfidence "black" "black" (3 / 2) (naturalGrid (-5) 5 false perAxis) (pdpMeans samples mu e perAxis) (pdpStds samples sd e perAxis) bands := by
  have hh := List.mem_of_getElem? he
  have hk : hp.kind = .float (-5) 5 false ∨ hp.kind = .integer (-5) 5 false := .inl (hs.kind hp hh)
  have hcs : AllDeclared cs := fun h hm => ⟨-5, 5, false, hs.declares hm⟩
  have hpl := plottable_drawn hs.wf hcs hrow (by omega : perAxis ≠ 0) hdr (sel := [hp]) (by simpa using hh) (by simp) (by simp)
  rw [List.length_singleton, ← hc] at hpl
  obtain ⟨-, dat, hd⟩ := own_gives hpl
  have hplain : plainIce c = c := by rw [hc]; rfl
  rw [hplain] at hd
  obtain ⟨s, hsd⟩ : ∃ s : PdpState ℝ, s = ⟨c, none, none, none, none⟩ := ⟨_, rfl⟩
  have hfr : PdpFresh s := by subst hsd; exact ⟨rfl, rfl, rfl⟩
  have hi : s.ice = none := by subst hsd; rfl
  have hcfg : s.cfg = c := by subst hsd; rfl
  have hpl' : Plottable s.cfg mu sd := by rw [hcfg]; exact hpl
  have hsel : s.cfg.selected = [hp] := by rw [hcfg, hc]
  have hff : IsFeature s.cfg.space hp e := by rw [hcfg, hc]; exact ⟨hp, he, rfl⟩
  have hice : pdpIce s = .ok (iceInit c) := by
    have : pdpIce s = .ok (iceInit (plainIce s.cfg)) := pdpIce_own hi
    rw [this, hcfg, hplain]
  have hax := newAxis_one hk "Prediction"
  obtain ⟨ax0, hax0⟩ : ∃ ax0 : Ax ℝ, ax0 = ⟨hp.name, "Prediction", false, false, some (-5, 5), none, []⟩ := ⟨_, rfl⟩
  rw [← hax0] at hax
  have hcsam : s.cfg.samples = samples := by rw [hcfg, hc]
  have hcper : s.cfg.perAxis = perAxis := by rw [hcfg, hc]
  obtain ⟨L, hL⟩ : ∃ L, L = samples.map (sampleLine "red" mu e perAxis) ++ [.line "red" [] []] := ⟨_, rfl⟩
  have hlines := lines_one hpl (by rw [hc]) (by rw [hc]) hk (f := e) (by rw [hc]; exact ⟨hp, he, rfl⟩) "red" (alpha := 1 / 10) (by norm_num) (by norm_num) hax
  rw [show c.samples = samples by rw [hc], show c.perAxis = perAxis by rw [hc]] at hlines
  replace hlines : (icePlot "red" (1 / 10) (iceInit c) Ax.new).2 = (ax0.draw L, .ok ()) := by rw [hL]; exact hlines
  have hg1 := icePlot_gives hd "red" (1 / 10) Ax.new
  have hcfg1 : (icePlot "red" (1 / 10) (iceInit c) Ax.new).1.cfg = c := icePlot_cfg hd "red" (1 / 10) Ax.new
  rcases hp1 : icePlot "red" (1 / 10) (iceInit c) Ax.new with ⟨i1, rest⟩
  rw [hp1] at hlines hg1 hcfg1
  dsimp only at hlines hg1 hcfg1
  subst hlines
  have hs1 := sameCurve_ice hfr hice hd hg1
  have hpdp : pdpFromIce i1 = .ok { s with ice := some i1 } := by
    unfold pdpFromIce
    rw [hcfg1, hc]
    dsimp only
    rw [pdpInit_drawn, Py.ok_bind, hsd, hc]
    rfl
  have hv := values_one hfr hi hpl' hsel hk hff hs1 (axis_again hax L) "black"
  rw [hcsam, hcper] at hv
  obtain ⟨B, hB⟩ : ∃ B : Shape ℝ, B = .line "black" (naturalGrid (-5) 5 false perAxis) (pdpMeans samples mu e perAxis) := ⟨_, rfl⟩
  rw [← hB, Ax.draw_draw] at hv
  obtain ⟨bands, hcf, hsh⟩ := confidences_one hfr hi hpl' hsel hk hff hs1.read (axis_again hax (L ++ [B])) "black" "black" (ms := 3 / 2) (by norm_num)
  rw [hcsam, hcper] at hsh
  rw [Ax.draw_draw] at hcf
  have hv2 := values_one hfr hi hpl' hsel hk hff hs1.read.read (axis_again hax (L ++ [B] ++ bands)) "black"
  rw [hcsam, hcper, ← hB, Ax.draw_draw] at hv2
  obtain ⟨i2, j1, -, j2⟩ := pdpCurve_ice (pdpCurve_ice (pdpCurve_ice (s := { s with ice := some i1 }) ⟨i1, rfl, hg1, hcfg1⟩))
  refine ⟨i1, _, _, _, _, _, _, _, _, bands, i2, rfl, hpdp, hv, hcf, hv2, by simp [pdpIce, j1], j2, ?_, ?_, ?_, hsh⟩
  · unfold AxisOne; rw [hax0, hL]; simp [Ax.draw]
  · unfold AxisOne; rw [hax0, ← hB, hL]; simp [Ax.draw]
  · unfold AxisOne; rw [hax0, ← hB, hL]; simp [Ax.draw]

/-- **C107** With the Styblinski-Tang function of two arguments, for both arguments, any numbers of points, any acquisition function and whatever is drawn,
`algorithm_walkthrough` saves exactly nine figures and then raises a TypeError (`ax.annotate` without a position); the figures of the regions are
never saved. 0: the function over the square. 1: with the 8 initial points. 2: with all points as well. 3, 4: means and standard deviations predicted by the
surrogate fitted to all points. 5: the prediction of every sample over the selected hyperparameter. 6: with their means. 7: with the confidence
bands around the means as well. 8: every sample's prediction once, in the colour of its leaf, every leaf with at least `minPoints` samples or the only one. -/
theorem C107_walkthrough {S : Type} {i : MainInput S} {f : BlackboxFn ℝ}
    (hf : forNDimensions i.order (-5) 5 false styblinskiTangValue ((2 : Nat) : ℝ) none none = .ok f) (hi : i.Good f.cs) {draws : List (Config ℝ)} (hdraws : i.iceDraws = .many draws)
    (argsort : List ℝ → List Nat) (randomColor : Nat → String) {palette : List String} (hpal : palette ≠ []) {k : Nat} (hk : 1 ≤ k ∧ k ≤ 2)
    (kind : AcqKind) {n nCandidates : Int} (hn0 : 0 ≤ n) (hn : 2 ≤ nCandidates) {perPlot : Nat} (hpp : 2 ≤ perPlot) {perAxis : Nat} (hg : 1 ≤ perAxis)
    (numSplits : Nat) {minPoints : Nat} (hm : 1 ≤ minPoints) {depth : Int} (hdep : 0 < depth) :
    ∃ (p q hp : Hp ℝ) (e : Nat) (init more : List (Config ℝ)) (ys : List ℝ) (gp : GpSurrogate) (mu sd : List ℝ → ℝ) (a0 a1 a2 a3 a4 a5 a6 a7 a8 : Ax ℝ)
      (xs xs' u v u' v' : List ℝ) (mesh : Shape ℝ) (lines bands : List (Shape ℝ)) (mean : Shape ℝ) (rows : List (List (List ℝ))),
      walkthrough i argsort randomColor palette 2 ("x" ++ toString k) kind n nCandidates perPlot perAxis numSplits minPoints depth ⟨0, []⟩ =
        (⟨9, [("00_Blackboxfunction.png", [a0]), ("01_Sampler.png", [a1]), ("02_Sampler.png", [a2]), ("03_Surrogate_Means.png", [a3]),
          ("04_Surrogate_Confidences.png", [a4]), ("05_ICE.png", [a5]), ("06_PDP.png", [a6]), ("07_PDP_with_confidence.png", [a7]),
          ("08_DecisionTreePartitioner.png", [a8])]⟩, .error .type) ∧
      f.cs = [p, q] ∧ f.cs.get ("x" ++ toString k) = .ok hp ∧ f.cs[e]? = some hp ∧
      -- the evaluated points and the surrogate
      init.length = 8 ∧ more.length = n.toNat ∧ ys.length = 8 + n.toNat ∧
      (∀ (j : Nat) c y, (init ++ more)[j]? = some c → ys[j]? = some y → f.value c = .ok y) ∧
      (loadCache i.ofVec i.file = [] → OptimisedBy 2 i kind 8 nCandidates.toNat (init ++ more) ys) ∧
      GpSurrogate.new.fit i.choose ((init ++ more).map Config.vector) ys = (gp, .ok ()) ∧ RowWise 2 gp.predict mu sd ∧
      -- the figures of the function and of the points
      EvenAxis (-5) 5 false perPlot xs ∧ EvenAxis (-5) 5 false perPlot xs' ∧
      ReadsAs p.name init u ∧ ReadsAs q.name init v ∧ ReadsAs p.name (init ++ more) u' ∧ ReadsAs q.name (init ++ more) v' ∧
      mesh = .mesh xs xs' (xs'.map fun b => xs.map fun a => stTwo a b) ∧ AxisTwo p q (-5) 5 false (-5) 5 false a0 [mesh] ∧
      AxisTwo p q (-5) 5 false (-5) 5 false a1 [mesh, .points "red" u v] ∧
      AxisTwo p q (-5) 5 false (-5) 5 false a2 [mesh, .points "red" u v, .points "red" u' v'] ∧
      -- the figures of the surrogate
      AxisTwo p q (-5) 5 false (-5) 5 false a3 [squareMesh perPlot fun a b => mu [a, b]] ∧
      AxisTwo p q (-5) 5 false (-5) 5 false a4 [squareMesh perPlot fun a b => sd [a, b]] ∧
      -- the figures of ICE and PDP
      lines = draws.map (fun c => sampleLine "red" mu e perAxis c.vector) ++ [.line "red" [] []] ∧
      mean = .line "black" (naturalGrid (-5) 5 false perAxis) (pdpMeans (draws.map Config.vector) mu e perAxis) ∧
      AxisOne hp "Prediction" (-5) 5 false a5 lines ∧ AxisOne hp "Prediction" (-5) 5 false a6 (lines ++ [mean]) ∧
      AxisOne hp "Prediction" (-5) 5 false a7 (lines ++ [mean] ++ bands ++ [mean]) ∧
      ShowsConfidence "black" "black" (3 / 2) (naturalGrid (-5) 5 false perAxis) (pdpMeans (draws.map Config.vector) mu e perAxis)
        (pdpStds (draws.map Config.vector) sd e perAxis) bands ∧
      -- the figure of the tree
      1 ≤ rows.length ∧ rows.length ≤ 2 ^ depth.toNat ∧
      (∀ l ∈ rows, l.Sublist (draws.map Config.vector) ∧ (minPoints ≤ l.length ∨ rows = [draws.map Config.vector])) ∧
      (rows.flatten.map (iceValues mu e perAxis)).Perm ((draws.map Config.vector).map (iceValues mu e perAxis)) ∧
      AxisOne hp "Prediction" (-5) 5 false a8 (rows.mapIdx fun k l => l.map (sampleLine (randomColor k) mu e perAxis)).flatten := by
  obtain ⟨cs, h1, hs, hnames⟩ := stSpace_ok hi.order 2
  rw [hf] at h1
  have hfe : f = ⟨cs, styblinskiTangValue cs⟩ := Except.ok.inj h1
  subst hfe
  dsimp only at hi ⊢
  obtain ⟨p, q, hcs⟩ : ∃ p q, cs = [p, q] := List.length_eq_two.1 hs.len
  obtain ⟨hp, hh, hhn⟩ := hnames k hk.1 hk.2
  have hget : cs.get ("x" ++ toString k) = .ok hp := by rw [← hhn]; exact ConfigSpace.get_of_mem hs.wf hh
  obtain ⟨e, he⟩ := List.mem_iff_getElem?.1 hh
  have hpm : p ∈ cs := by rw [hcs]; simp
  have hqm : q ∈ cs := by rw [hcs]; simp
  obtain ⟨env, s, t, henv, hini, hsamp, hsamp2, hlen, ⟨more, hmore, hmlen⟩, hdrawn, hyl, hvals, hopt⟩ :=
    sampler_twice (by omega) hs hi kind hn (initial := 4 * (2 : Nat)) (n := n) (m := 4 * (2 : Nat)) (by norm_num) (by norm_num) hn0
  have hne1 : s.configs ≠ [] := by
    intro h; rw [h] at hlen; simp at hlen
  have hne : t.configs ≠ [] := by rw [hmore]; simp [hne1]
  have hdr1 : ∀ c ∈ s.configs, DrawnFrom cs c := fun c hc => hdrawn c (by rw [hmore]; exact List.mem_append_left _ hc)
  have hdata : TrainingData cs.length (t.configs.map Config.vector) t.ys := configs_data (by rw [hs.len]; omega) hne (fun c hc => (hdrawn c hc).1) hyl
  obtain ⟨gp, hfit, -, mu, sd, hrow, -, -⟩ := C99_unit hi.kernel hdata
  obtain ⟨l, hl, hlne, hld⟩ := hi.ice
  rw [hdraws] at hl
  obtain rfl : draws = l := by injection hl
  obtain ⟨samples, hsm⟩ : ∃ x, x = draws.map Config.vector := ⟨_, rfl⟩
  have hsne : samples ≠ [] := by rw [hsm]; simpa using hlne
  have hrows : ∀ r ∈ samples, r.length = List.length cs ∧ ∀ e ∈ r, 0 ≤ e ∧ e ≤ 1 := by
    intro r hr
    rw [hsm] at hr
    obtain ⟨c, hc, rfl⟩ := List.mem_map.1 hr
    exact ⟨(hld c hc).1, (hld c hc).2.1⟩
  have hdr : UnitDraws cs i.iceDraws samples := ⟨draws, hdraws, hsm, hsne, hrows⟩
  -- the figures
  obtain ⟨xs, xs', a0, f1, f2, f3, f4⟩ := function_figure (p := p) (q := q) (by rw [← hcs]; exact hs) i.inv hpp "black"
  rw [← hcs] at f1
  obtain ⟨mesh, hmesh⟩ : ∃ m : Shape ℝ, m = .mesh xs xs' (xs'.map fun b => xs.map fun a => stTwo a b) := ⟨_, rfl⟩
  rw [← hmesh] at f4
  obtain ⟨u, hu⟩ := readsAs_drawn hs hpm hdr1
  obtain ⟨v, hv⟩ := readsAs_drawn hs hqm hdr1
  obtain ⟨u', hu'⟩ := readsAs_drawn hs hpm hdrawn
  obtain ⟨v', hv'⟩ := readsAs_drawn hs hqm hdrawn
  have hax := newAxis_two (.inl (hs.kind p hpm)) (.inl (hs.kind q hqm)) "Prediction"
  have hplot : ∀ (st : BOState (Config ℝ) ℝ GpSurrogate S) (x y : List ℝ) (ax : Ax ℝ) (sh : List (Shape ℝ)), st.configs ≠ [] → ReadsAs p.name st.configs x → ReadsAs q.name st.configs y →
      AxisTwo p q (-5) 5 false (-5) 5 false ax sh → ∃ ax', samplerPlot argsort "red" cs .none st ax = (ax', .ok ()) ∧
      AxisTwo p q (-5) 5 false (-5) 5 false ax' (sh ++ [.points "red" x y]) := by
    intro st x y ax sh hst hx hy hsh
    have := axis_again hax sh
    have e : (⟨p.name, q.name, false, false, some (-5, 5), some (-5, 5), []⟩ : Ax ℝ).draw sh = ax := by rw [hsh]; rfl
    rw [e] at this
    refine ⟨_, C86_two argsort (by rw [hcs]; rfl) hst hx hy "red" this, ?_⟩
    rw [hsh]; rfl
  obtain ⟨a1, p1, p2⟩ := hplot s u v a0 _ hne1 hu hv f4
  obtain ⟨a2, p3, p4⟩ := hplot t u' v' a1 _ hne hu' hv' p2
  have hrow2 : RowWise 2 gp.predict mu sd := hs.len ▸ hrow
  have hvp : ValidNumerical p (-5) 5 false := ⟨.inl (hs.kind p hpm), by norm_num, by simp⟩
  have hvq : ValidNumerical q (-5) 5 false := ⟨.inl (hs.kind q hqm), by norm_num, by simp⟩
  obtain ⟨x3, y3, z3, m1, m2, m3, m4, m5, m6⟩ := C85_means_two hvp hvq hrow2 (by omega : 1 ≤ perPlot) "blue" hax
  obtain ⟨x4, y4, z4, n1, n2, n3, n4, n5, n6⟩ := C85_confidences_two hvp hvq hrow2 (by omega : 1 ≤ perPlot) "blue" "lightblue" hax
  rw [← hcs, squareMesh_eq (h := fun a b => mu [a, b]) m2 m3 m4 m5 m6] at m1
  rw [← hcs, squareMesh_eq (h := fun a b => sd [a, b]) n2 n3 n4 n5 n6] at n1
  obtain ⟨c, hc⟩ : ∃ c : IceCfg ℝ, c = ⟨cs, [hp], samples, samples.length, perAxis, perAxis ^ 1, false, gp.predict⟩ := ⟨_, rfl⟩
  have hsel : convertHyperparameters (.name ("x" ++ toString k)) cs = .ok [hp] := by
    generalize "x" ++ toString k = nm at hget
    simp [convertHyperparameters, resolveItem, hget]
  have hinit : algorithmInit cs gp.predict (.name ("x" ++ toString k)) samples perAxis = .ok c := by rw [algorithmInit, hsel, hc]; rfl
  obtain ⟨i1, pdp, pdp1, pdp2, pdp3, a5, a6, a7, a7', bands, i2, c1, c2, c3, c4, c5, c6, c7, c8, c9, c10, c11⟩ := ice_figures hs he hrow hdr hg hc
  obtain ⟨tree, t2, leaves, rows, a8, t1, t3, t4, t5, t6, t7, t8, t9, t10, t11, t12⟩ := tree_figure hs he hrow hrows hsne hg numSplits hm hdep (i := i2) (by rw [c7, hc]) randomColor
  obtain ⟨leaf, rest, hlr⟩ := List.exists_cons_of_ne_nil t5
  obtain ⟨box, mc, b1, b2, b3, b4⟩ := t7 leaf (by rw [hlr]; simp)
  obtain ⟨color, colors, hcol⟩ := List.exists_cons_of_ne_nil hpal
  -- the failing annotation
  have hbox : ∃ ax', plotConfigSpace box .none color a0 = (ax', .ok ()) := by
    rw [hcs] at b2
    obtain ⟨p', q', rfl⟩ : ∃ p' q', box = [p', q'] := List.length_eq_two.1 (by have := congrArg List.length b2; simpa using this)
    simp only [List.map_cons, List.map_nil, List.cons.injEq, and_true] at b2
    obtain ⟨lp, up, hkp, -⟩ := b3 p' (by simp)
    obtain ⟨lq, uq, hkq, -⟩ := b3 q' (by simp)
    have hax' : checkAndSetAxis [p', q'] false "Prediction" a0 = (a0, .ok ()) := by
      rw [f4]
      simp [checkAndSetAxis, Ax.boundX, Ax.boundY, b2.1, b2.2]
    exact ⟨_, (C87_two (sel := .none) rfl (.inl ⟨false, .inl hkp⟩) (.inl ⟨false, .inl hkq⟩) color hax').1⟩
  obtain ⟨ax', hbox⟩ := hbox
  have hann : ∀ g, annotatedLeaves cs palette 0 t2.leaves a0 g = (g, .error .type) := by
    intro g
    rw [t4, hlr]
    unfold annotatedLeaves
    rw [Show.lift_bind b1, Show.lift_bind (show pyGet palette 0 = .ok color by rw [hcol]; rfl), Show.on_bind hbox, Show.lift_bind b4]
    rfl
  have n0 : figureFile 0 "Blackboxfunction" = "00_Blackboxfunction.png" := by decide +kernel
  have n1' : figureFile (0 + 1) "Sampler" = "01_Sampler.png" := by decide +kernel
  have n2' : figureFile (0 + 1 + 1) "Sampler" = "02_Sampler.png" := by decide +kernel
  have n3' : figureFile (0 + 1 + 1 + 1) "Surrogate_Means" = "03_Surrogate_Means.png" := by decide +kernel
  have n4' : figureFile (0 + 1 + 1 + 1 + 1) "Surrogate_Confidences" = "04_Surrogate_Confidences.png" := by decide +kernel
  have n5' : figureFile (0 + 1 + 1 + 1 + 1 + 1) "ICE" = "05_ICE.png" := by decide +kernel
  have n6' : figureFile (0 + 1 + 1 + 1 + 1 + 1 + 1) "PDP" = "06_PDP.png" := by decide +kernel
  have n7' : figureFile (0 + 1 + 1 + 1 + 1 + 1 + 1 + 1) "PDP_with_confidence" = "07_PDP_with_confidence.png" := by decide +kernel
  have n8' : figureFile (0 + 1 + 1 + 1 + 1 + 1 + 1 + 1 + 1) "DecisionTreePartitioner" = "08_DecisionTreePartitioner.png" := by decide +kernel
  refine ⟨p, q, hp, e, s.configs, more, t.ys, gp, mu, sd, a0, a1, a2, _, _, a5, a6, a7, a8, xs, xs', u, v, u', v', mesh,
    draws.map (fun c => sampleLine "red" mu e perAxis c.vector) ++ [.line "red" [] []], bands, _, rows, ?_, hcs, hget, he, by simpa using hlen, hmlen, ?_, by rw [← hmore]; exact hvals,
    by rw [← hmore]; exact hopt le_rfl,
    by rw [← hmore]; exact hfit, hrow2, f2, f3, hu, hv, by rw [← hmore]; exact hu', by rw [← hmore]; exact hv', hmesh, f4, p2, p4, rfl, rfl, rfl, rfl, ?_, ?_, ?_, ?_, ?_, ?_, ?_, ?_, t12⟩
  · unfold walkthrough
    rw [Show.lift_bind hf, Show.lift_bind henv]
    dsimp only
    rw [hini, Show.sampled_bind hsamp, Show.on_bind f1, Show.figure_bind, Show.on_bind p1, Show.figure_bind, Show.sampled_bind hsamp2, Show.on_bind p3, Show.figure_bind,
      Show.changed_bind hfit, Show.on_bind m1, Show.figure_bind, Show.on_bind n1, Show.figure_bind, Show.lift_bind (samplesOf_drawn hdr), Show.lift_bind hinit,
      Show.onWith_bind c1]
    dsimp only
    rw [Show.figure_bind, Show.lift_bind c2, Show.onWith_bind c3]
    dsimp only
    rw [Show.figure_bind, Show.onWith_bind c4]
    dsimp only
    rw [Show.onWith_bind c5]
    dsimp only
    rw [Show.figure_bind, Show.lift_bind c6, Show.lift_bind t1, Show.changed_bind t3, Show.on_bind (by rw [t4]; exact t11), Show.figure_bind, Show.on_bind f1,
      Show.bind_error (hann _)]
    simp only [saveFig, n0, n1', n2', n3', n4', n5', n6', n7', n8']
    simp [Ax.draw]
  · rw [hyl, hmore, List.length_append, hmlen, hlen]; rfl
  · rw [hsm] at c8; simpa [List.map_map, Function.comp_def] using c8
  · rw [hsm] at c9; simpa [List.map_map, Function.comp_def] using c9
  · rw [hsm] at c10; simpa [List.map_map, Function.comp_def] using c10
  · rw [← hsm]; exact c11
  · rw [t8]; exact List.length_pos_iff.2 t5
  · rw [t8]; exact t6
  · rw [← hsm]; exact t9
  · rw [← hsm]; exact t10

/-- the values of the script, a generator that always draws the middle: 8 and 58 points in the figures, 1000 lines of samples -/
example : ∃ (i : MainInput Unit) (g : Gallery), walkthrough i (fun _ => []) (fun _ => "green") ["blue"] 2 "x1" (.lcb (1/10)) 50 100 50 20 100 10 3 ⟨0, []⟩ = (g, .error .type) ∧
    g.files.map Prod.fst = ["00_Blackboxfunction.png", "01_Sampler.png", "02_Sampler.png", "03_Surrogate_Means.png", "04_Surrogate_Confidences.png", "05_ICE.png",
      "06_PDP.png", "07_PDP_with_confidence.png", "08_DecisionTreePartitioner.png"] ∧
    (∃ a m u v u' v', g.files[2]? = some ("02_Sampler.png", [a]) ∧ a.shapes = [m, .points "red" u v, .points "red" u' v'] ∧ u.length = 8 ∧ u'.length = 58) ∧
    (∃ a, g.files[5]? = some ("05_ICE.png", [a]) ∧ a.shapes.length = 1001) := by
  obtain ⟨cs, hf, hs, -⟩ := stSpace_ok (order := id) (fun l => List.Perm.refl l) 2
  obtain ⟨dr, hdr⟩ : ∃ dr : Drawer (Config ℝ) Unit, dr = ⟨fun _ n => (List.replicate n (midConfig cs), ()), by simp⟩ := ⟨_, rfl⟩
  have hdrawn : ∀ s n, ∀ c ∈ (dr.draw s n).1, DrawnFrom cs c := by
    intro s n c hc
    rw [hdr] at hc
    rw [List.eq_of_mem_replicate hc]
    exact midConfig_drawn hs
  obtain ⟨p, q, hp, e, init, more, ys, gp, mu, sd, a0, a1, a2, a3, a4, a5, a6, a7, a8, xs, xs', u, v, u', v', mesh, lines, bands, mean, rows, h1, -, -, -, h2, h3, -, -, -, -, -, -, -,
      h4, -, h5, -, -, -, -, h6, -, -, h7, -, h8, -⟩ :=
    C107_walkthrough (S := Unit)
    (i := ⟨id, fun _ _ => matern 1, fun _ _ => 0, dr, dr, (), fun _ => .error .value, .absent, .many (List.replicate 1000 (midConfig cs))⟩)
    hf ⟨fun l => List.Perm.refl l, fun _ _ => matern_unit one_pos _, hdrawn, hdrawn, by simp [loadCache],
      ⟨_, rfl, List.ne_nil_of_length_pos (by rw [List.length_replicate]; norm_num), fun c hc => by rw [List.eq_of_mem_replicate hc]; exact midConfig_drawn hs⟩⟩ rfl (fun _ => [])
    (fun _ => "green") (palette := ["blue"]) (by simp) (k := 1) (by norm_num) (.lcb (1/10))
    (n := 50) (nCandidates := 100) (by norm_num) (by norm_num) (perPlot := 50) (by norm_num) (perAxis := 20) (by norm_num) 100 (minPoints := 10) (by norm_num) (depth := 3) (by norm_num)
  refine ⟨_, _, h1, rfl, ⟨a2, mesh, u, v, u', v', rfl, by rw [h6], by rw [← h4.length_eq, h2], ?_⟩, a5, rfl, ?_⟩
  · rw [← h5.length_eq, List.length_append, h2, h3]; rfl
  · rw [h8, h7, List.length_append, List.length_map, List.length_replicate]; rfl

end PyPDP
