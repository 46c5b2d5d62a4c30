/-
C114: `visualize_bad_nll` in examples/main_paper.py.
-/
import Verif.Model.BadNll
import Verif.Props.MainPaper
import Verif.Props.MainIntroduction
import Verif.Lemmas.Names

namespace PyPDP
open Spec

/-- the average of one coordinate's term over its interval, summed over the intervals -/
noncomputable def meanOffset (axes : List Axis) : ℝ :=
  (axes.map fun a => (styblinskiTangIntegral a.upper - styblinskiTangIntegral a.lower) / (a.upper - a.lower)).sum

/-- the names of the space are `x1, ..., xd` -/
def NamedAxes (d : Nat) (cs : ConfigSpace ℝ) : Prop :=
  cs.length = d ∧ cs.WF ∧ ∀ i, 1 ≤ i → i ≤ d → ∃ hp ∈ cs, hp.name = "x" ++ toString i

theorem namedAxes_perm {d : Nat} {cs : ConfigSpace ℝ} (h : NamedAxes d cs) :
    (cs.map Hp.name).Perm ((List.range d).map fun j => "x" ++ toString (j + 1)) := by
  obtain ⟨h1, h2, h3⟩ := h
  refine (List.Perm.symm ?_)
  refine List.Subperm.perm_of_length_le (List.subperm_of_subset ?_ ?_) (by simp [h1])
  · refine List.Nodup.map (fun a b e => ?_) List.nodup_range
    have := name_inj e
    omega
  · intro m hm
    obtain ⟨j, hj, rfl⟩ := List.mem_map.1 hm
    obtain ⟨hp, hh, e⟩ := h3 (j + 1) (by omega) (by have := List.mem_range.1 hj; omega)
    exact e ▸ List.mem_map_of_mem hh

/-- the partial dependence with respect to all axes but the first: the offset is the sum of the averages over the intervals, the function is
that of the remaining coordinate plus the offset -/
theorem others_integral {order : SpaceOrder ℝ} (hord : ∀ l, (order l).Perm l) (inv : Hp ℝ → Val ℝ → ℝ) {d : Nat} (hd : 2 ≤ d) {cs : ConfigSpace ℝ}
    (hn : NamedAxes d cs) (hk : ∀ q ∈ cs, ∃ l u, q.kind = .float l u false ∧ l < u) {hp : Hp ℝ} (hh : hp ∈ cs) (hname : hp.name = "x1") :
    ∃ F, styblinskiTangPdIntegral order cs (otherNames d) = .ok (F, meanOffset (boxAxes cs hp)) ∧ F.cs = [hp] ∧
      ∀ l u x, hp.kind = .float l u false → l ≤ x → x ≤ u → F.call inv [(hp.name, .num x)] = .ok (stTerm x + meanOffset (boxAxes cs hp)) := by
  have hperm := namedAxes_perm hn
  obtain ⟨hlen, hwf, hnames⟩ := hn
  -- the selected hyperparameters
  have hex : ∀ j : Nat, ∃ q : Hp ℝ, j < d - 1 → q ∈ cs ∧ q.name = "x" ++ toString (j + 2) := by
    intro j
    by_cases hj : j < d - 1
    · obtain ⟨q, h1, h2⟩ := hnames (j + 2) (by omega) (by omega)
      exact ⟨q, fun _ => ⟨h1, h2⟩⟩
    · exact ⟨hp, fun h => absurd h hj⟩
  choose q hq using hex
  obtain ⟨sel, hsel⟩ : ∃ sel, sel = (List.range (d - 1)).map q := ⟨_, rfl⟩
  have hden : List.Forall₂ (Denotes cs) (otherNames d) sel := by
    rw [hsel, otherNames, List.forall₂_map_left_iff, List.forall₂_map_right_iff, List.forall₂_same]
    intro j hj
    exact hq j (List.mem_range.1 hj)
  have hselp : sel.Perm (cs.filter fun h => decide (h.name ≠ hp.name)) := by
    have hcsn : (cs : List (Hp ℝ)).Nodup := List.Nodup.of_map _ hwf
    rw [List.perm_ext_iff_of_nodup ?_ (hcsn.filter _)]
    · intro a
      rw [hsel, List.mem_map, List.mem_filter]
      constructor
      · rintro ⟨j, hj, rfl⟩
        obtain ⟨h1, h2⟩ := hq j (List.mem_range.1 hj)
        refine ⟨h1, ?_⟩
        rw [h2, hname, decide_eq_true_iff]
        intro e
        have := name_inj (p := "x") (b := 1) e
        omega
      · rintro ⟨h1, h2⟩
        obtain ⟨j, hj, e⟩ := List.mem_map.1 (hperm.mem_iff.1 (List.mem_map_of_mem h1))
        have hj := List.mem_range.1 hj
        rw [decide_eq_true_iff, hname, ← e] at h2
        have hj0 : j ≠ 0 := by rintro rfl; exact h2 rfl
        refine ⟨j - 1, List.mem_range.2 (by omega), ?_⟩
        obtain ⟨g1, g2⟩ := hq (j - 1) (by omega)
        refine List.inj_on_of_nodup_map hwf g1 h1 ?_
        rw [g2, ← e, show j - 1 + 2 = j + 1 by omega]
    · rw [hsel]
      refine List.Nodup.map_on ?_ List.nodup_range
      intro a ha b hb e
      have h1 := (hq a (List.mem_range.1 ha)).2
      have h2 := (hq b (List.mem_range.1 hb)).2
      rw [e, h2] at h1
      have := name_inj h1
      omega
  have hselne : otherNames d ≠ [] := by
    intro h
    have := congrArg List.length h
    simp [otherNames] at this
    omega
  obtain ⟨axes, hax⟩ : ∃ axes, List.Forall₂ (fun (h : Hp ℝ) (a : Axis) => h.numerical?.isSome ∧ axisOf h = some a) sel axes := by
    have : ∀ h ∈ sel, ∃ a, h.numerical?.isSome ∧ axisOf h = some a := by
      intro h hm
      obtain ⟨l, u, e, -⟩ := hk h (List.mem_of_mem_filter (hselp.mem_iff.1 hm))
      exact ⟨⟨h.name, l, u⟩, by simp [Hp.numerical?, e], by simp [axisOf, Hp.numerical?, e]⟩
    clear hden hselp hsel
    induction sel with
    | nil => exact ⟨[], .nil⟩
    | cons a as ih =>
      obtain ⟨x, hx⟩ := this a (by simp)
      obtain ⟨xs, hxs⟩ := ih fun h hm => this h (by simp [hm])
      exact ⟨x :: xs, .cons hx hxs⟩
  have haxes : axes = sel.filterMap axisOf := by
    clear hden hselp hsel
    induction hax with
    | nil => rfl
    | cons h _ ih => rw [List.filterMap_cons_some h.2, ih]
  have hoff : (axes.map fun a => (styblinskiTangIntegral a.upper - styblinskiTangIntegral a.lower) / (a.upper - a.lower)).sum = meanOffset (boxAxes cs hp) := by
    rw [meanOffset, boxAxes, haxes]
    exact ((hselp.filterMap axisOf).map _).sum_eq
  have hpd := pd_ok (order := order) hwf hden hselne hax
  rw [hoff] at hpd
  have hred : order (cs.filter fun h => sel.all fun s => s.name ≠ h.name) = [hp] := by
    have h1 : (cs.filter fun h => sel.all fun s => decide (s.name ≠ h.name)) = [hp] := by
      have h1 : (cs.filter fun h => sel.all fun s => decide (s.name ≠ h.name)) = cs.filter fun h => decide (h.name = hp.name) := by
        apply List.filter_congr
        intro h hm
        rw [Bool.eq_iff_iff]
        simp only [List.all_eq_true, decide_eq_true_eq]
        constructor
        · intro e
          by_contra hc
          exact e h (hselp.mem_iff.2 (List.mem_filter.2 ⟨hm, by simpa using hc⟩)) rfl
        · intro e s hs es
          have := (List.mem_filter.1 (hselp.mem_iff.1 hs)).2
          simp only [decide_eq_true_eq] at this
          exact this (es.trans e)
      rw [h1]
      have h2 := (filter_name hwf hh).1
      rw [List.filter_map] at h2
      obtain ⟨a, ha, e⟩ := List.map_eq_singleton_iff.1 h2
      have h3 : (cs.filter fun h => decide (h.name = hp.name)) = [a] := ha
      rw [h3]
      have : hp ∈ cs.filter fun h => decide (h.name = hp.name) := List.mem_filter.2 ⟨hh, by simp⟩
      rw [h3, List.mem_singleton] at this
      rw [this]
    rw [h1]
    exact List.perm_singleton.1 (hord _)
  rw [hred] at hpd
  refine ⟨_, hpd, rfl, fun l u x hkd h1 h2 => ?_⟩
  rw [call_single (f := ⟨[hp], _⟩) rfl hkd h1 h2]
  dsimp only
  have : styblinskiTangValue [hp] ⟨[inv hp (.num x)], [(hp.name, .num x)]⟩ = .ok (stTerm x) := by
    have := C97_styblinski_tang [hp] ⟨[inv hp (.num x)], [(hp.name, .num x)]⟩ ![x] fun i => by
      fin_cases i
      simp [Config.get?]
    rw [this]
    congr 1
    rw [show (∑ i : Fin (List.length [hp]), (![x] i ^ 4 - 16 * ![x] i ^ 2 + 5 * ![x] i)) = ∑ i : Fin 1, (![x] i ^ 4 - 16 * ![x] i ^ 2 + 5 * ![x] i) from rfl,
      Fin.sum_univ_one, stTerm]
    simp
    ring
  rw [this]
  rfl

/-- the average of the function over the other axes of a box -/
theorem average_box {cs : ConfigSpace ℝ} (hwf : cs.WF) (hk : ∀ q ∈ cs, ∃ l u, q.kind = .float l u false ∧ l < u) {hp : Hp ℝ} (hh : hp ∈ cs)
    {g : Assignment → ℝ} (hg : ∀ ρ, styblinskiTangValue cs (assignConfig cs ρ) = .ok (g ρ)) (ρ : Assignment) :
    average (boxAxes cs hp) g ρ = stTerm (ρ hp.name) + meanOffset (boxAxes cs hp) := by
  have : g = fun ρ => ((cs.map Hp.name).map fun m => stTerm (ρ m)).sum := by
    funext ρ
    have := hg ρ
    rw [st_value ρ fun _ h => h] at this
    rw [← Except.ok.inj this, List.map_map]; rfl
  obtain ⟨b1, b2⟩ := boxAxes_spec (hp := hp) hk
  have hn : (boxAxes cs hp).map Axis.name = (cs.filter fun h => decide (h.name ≠ hp.name)).map Hp.name := by
    generalize (cs.filter fun h => decide (h.name ≠ hp.name)) = l at b1
    generalize boxAxes cs hp = r at b1
    clear b2
    induction b1 with
    | nil => rfl
    | cons h _ ih => rw [List.map_cons, List.map_cons, ih, h.1]
  rw [this, average_additive hwf ρ (boxAxes cs hp) (by rw [hn]; exact hwf.sublist (List.filter_sublist.map _)) (by
    intro a ha
    have := List.mem_map_of_mem (f := Axis.name) ha
    rw [hn] at this
    obtain ⟨h, h1, e⟩ := List.mem_map.1 this
    exact e ▸ List.mem_map_of_mem (List.mem_of_mem_filter h1)) b2]
  have e1 : ((cs.map Hp.name).filter fun m => decide (m ∉ (boxAxes cs hp).map Axis.name)) = [hp.name] := by
    rw [← (filter_name hwf hh).1]
    apply List.filter_congr
    intro m hm
    rw [hn, Bool.eq_iff_iff, decide_eq_true_iff, decide_eq_true_iff]
    obtain ⟨b, hb, rfl⟩ := List.mem_map.1 hm
    constructor
    · intro h
      by_contra hc
      exact h (List.mem_map_of_mem (List.mem_filter.2 ⟨hb, by simpa using hc⟩))
    · intro h hc
      obtain ⟨b', hb', e⟩ := List.mem_map.1 hc
      have := (List.mem_filter.1 hb').2
      simp only [decide_eq_true_eq] at this
      exact this (e.trans h)
  rw [e1]
  simp [meanOffset]

/-- over the whole space the offset is `-25 / 6` for every axis -/
theorem meanOffset_full {d : Nat} {cs : ConfigSpace ℝ} (hs : StSpace d cs) {hp : Hp ℝ} (hh : hp ∈ cs) :
    meanOffset (boxAxes cs hp) = -(25 / 6) * ((d : ℝ) - 1) := by
  have hk : ∀ q ∈ cs, ∃ l u, q.kind = .float l u false ∧ l < u := fun q hq => ⟨-5, 5, hs.kind q hq, by norm_num⟩
  have e : boxAxes cs hp = otherAxes cs hp := by
    unfold boxAxes otherAxes
    rw [← List.filterMap_eq_map]
    apply List.filterMap_congr
    intro q hq
    simp [axisOf, Hp.numerical?, hs.kind q (List.mem_of_mem_filter hq)]
  obtain ⟨g, hg⟩ : ∃ g : Assignment → ℝ, ∀ ρ, styblinskiTangValue cs (assignConfig cs ρ) = .ok (g ρ) := ⟨_, fun ρ => st_value ρ fun _ h => h⟩
  have h1 := average_box hs.wf hk hh hg fun _ => 0
  rw [e, average_eq hs hh hg] at h1
  rw [e]
  have h2 : meanOffset (otherAxes cs hp) = stPartial d 0 - stTerm 0 := by rw [h1]; ring
  rw [h2, stPartial, stTerm]
  ring

/-- the implied space of the region found for the incumbent -/
theorem st_region_box {d : Nat} {cs : ConfigSpace ℝ} (hs : StSpace d cs) {hp : Hp ℝ} (hh : hp ∈ cs) {predict : Predict ℝ} {samples : List (List ℝ)}
    (hrows : ∀ r ∈ samples, r.length = cs.length) {perAxis : Nat} (hg : 1 ≤ perAxis) {numSplits minPoints : Nat} (hm : 1 ≤ minPoints) {c : IceCfg ℝ}
    {sel : Selection ℝ} (hsel : convertHyperparameters sel cs = .ok [hp])
    (hinit : algorithmInit cs predict sel samples perAxis = .ok c) {tree tree' : DT ℝ} (hdt : dtFromIce (iceInit c) numSplits minPoints none = .ok tree)
    {depth : Int} (hdep : 0 < depth) {leaves : List (Node ℝ)} (hL : dtPartition tree depth = (tree', .ok leaves)) {best : Config ℝ} {region : Node ℝ}
    (hr : dtIncumbentRegion tree' best = .ok (some region)) {box : ConfigSpace ℝ} (hbox : regionImplied cs region.conds = .ok box) :
    c.selected = [hp] ∧ box.map Hp.name = cs.map Hp.name ∧ (∀ h ∈ box, ∃ l u, h.kind = .float l u false ∧ -5 ≤ l ∧ l < u ∧ u ≤ 5) ∧ hp ∈ box := by
  have hc : c = ⟨cs, [hp], samples, samples.length, perAxis, perAxis ^ [hp].length, false, predict⟩ := by
    rw [algorithmInit, hsel] at hinit
    exact (Except.ok.inj hinit).symm
  unfold dtFromIce at hdt
  obtain ⟨q, hq, hdt⟩ := Py.bind_eq_ok.1 hdt
  obtain rfl := Except.ok.inj hdt
  have hself : algorithmInit c.space c.predict (.many (c.selected.map .hp)) c.samples c.perAxis = .ok c := by
    have := algorithmInit_self (c := c) (by rw [hc]) (by rw [hc])
    rw [this, hc]
  simp only [iceInit] at hq
  have hcs : c.space = cs := by rw [hc]
  have hcl : c.selected = [hp] := by rw [hc]
  obtain ⟨c', ns, i', dat, e1, e2, -, -, -, e3⟩ := dtInit_ok hq
  rw [hself] at e1
  obtain rfl := Except.ok.inj e1
  have hqc : q.cfg = c := by rw [e3]
  have hposs : hp.name ∉ q.possible.map Hp.name := by
    rw [e3]
    intro h
    obtain ⟨h', hm', e⟩ := List.mem_map.1 h
    have := (List.mem_filter.1 hm').2
    simp only [decide_eq_true_eq] at this
    rw [hcl] at this
    exact this.1 (by rw [e]; simp)
  obtain ⟨hv, -, -, hqs⟩ := dt_valid (by rw [hcs]; exact hs.wf) (by rw [hcs, show c.samples = samples by rw [hc]]; exact hrows)
    (by rw [hc]; exact hg) hq (by rw [hqc, hcl, hcs]; simpa using hh) (by rw [hqc, hcl]; simp) (by rw [hqc, hcl]; simp)
  have hqs : q.cfg.space = cs := by rw [hqs, hcs]
  have hv0 : ValidDT (c.perAxis ^ q.cfg.selected.length) { q with ice := iceInit c } := ⟨hv.wf, hv.possible_mem, hv.shape, hv.depth, hv.conds⟩
  obtain ⟨L2, f1, f2⟩ := C59_proper_box hv0 (by
      intro h hm'
      dsimp only at hm'
      rw [hqs] at hm'
      exact ⟨-5, 5, false, by simp [Hp.numerical?, hs.kind _ hm'], by norm_num, by simp⟩) (by dsimp only; rw [e3]; exact hm) hdep
  obtain ⟨L, hL', -⟩ := partition_eq hv0 hdep
  have hLe : ({ q with ice := iceInit c } : DT ℝ) = { q with ice := ⟨c, none, none, none, none⟩ } := rfl
  simp only [iceInit] at hL' f1 hL
  rw [hL] at hL' f1
  obtain rfl := Except.ok.inj f1
  have ht' := (Prod.mk.inj hL').1
  have hl := Except.ok.inj (Prod.mk.inj hL').2
  have hreg : region ∈ leaves := by
    unfold dtIncumbentRegion at hr
    split at hr
    · cases hr
    · have := firstContaining_mem hr
      rw [ht'] at this
      rw [hl]; exact this
  obtain ⟨out, o1, o2, o3, o4⟩ := f2 region hreg
  dsimp only [iceInit] at o1 o2 o3 o4
  rw [hqs] at o1 o2 o3 o4
  rw [hbox] at o1
  obtain rfl := Except.ok.inj o1
  refine ⟨hcl, o2, fun h hh' => ?_, ?_⟩
  · obtain ⟨f, hf, rfl⟩ := List.getElem_of_mem hh'
    have hf' : f < List.length cs := by omega
    obtain ⟨l', u', e1, e2, e3, e4, -⟩ := o4 f _ (-5) 5 false (List.getElem?_eq_getElem hf') (by simp [Hp.numerical?, hs.kind _ (List.getElem_mem hf')])
    rw [List.getElem?_eq_getElem hf] at e1
    rw [Option.some.inj e1]
    exact ⟨l', u', rfl, e2, e3, e4⟩
  · obtain ⟨f, hf⟩ := List.mem_iff_getElem?.1 hh
    obtain ⟨l', u', e1, -, -, -, e2⟩ := o4 f hp (-5) 5 false hf (by simp [Hp.numerical?, hs.kind _ hh])
    obtain ⟨rfl, rfl⟩ := e2 hposs
    have := List.mem_of_getElem? e1
    have he : hp = ⟨hp.name, .float (-5) 5 false⟩ := by
      rw [← hs.kind hp hh]
    rwa [← he] at this

/-! ### one replication -/

/-- The axis of a box, its curve and its likelihood: `part` is the average of the predictions for the sample rows `rows` with the selected coordinate replaced
by the grid points, `nll` the likelihood of the function `truth` under this curve. -/
def CurveOf (cs : ConfigSpace ℝ) (hp : Hp ℝ) (mu sd : List ℝ → ℝ) (perAxis : Nat) (rows : List (List ℝ)) (truth : ℝ → ℝ) (curve : IceCurve ℝ) (nll : ℝ) : Prop :=
  curve.y.length = perAxis ∧ curve.v.length = perAxis ∧ (∀ v ∈ curve.v, 0 < v) ∧
  (∀ p < perAxis, curve.y[p]? = some (averageOver rows fun r => mu (replaced cs [hp] [gridFraction perAxis p] r)) ∧
    curve.v[p]? = some (averageOver rows fun r => sd (replaced cs [hp] [gridFraction perAxis p] r) ^ 2)) ∧
  nll = gaussLoss perAxis (fun p => curve.y.getD p 0) (fun p => curve.v.getD p 0) fun p => truth (-5 + 10 * gridFraction perAxis p)

/-- the average of the function `Σ (x⁴ - 16 x² + 5 x) / 2` over a box in all coordinates but `x1`, at `x1 = t` -/
noncomputable def regionTruth (box : ConfigSpace ℝ) (t : ℝ) : ℝ :=
  average ((box.filter fun h => decide (h.name ≠ "x1")).filterMap axisOf) (fun ρ => (box.map fun h => stTerm (ρ h.name)).sum) fun _ => t

/-- What one replication has computed. -/
def RunOf {S : Type} (i : MainInput S) (d : Nat) (n : Int) (perAxis minPoints : Nat) (r : BadRun S) : Prop :=
  ∃ (hp : Hp ℝ) (gp : GpSurrogate) (mu sd : List ℝ → ℝ) (samples : List (List ℝ)) (config : List ℝ → Config ℝ) (inside : List (List ℝ)),
    (StSpace d r.space ∧ r.space.get "x1" = .ok hp) ∧
    (r.sampler.configs.length = (n + 4 * d).toNat ∧ r.sampler.ys.length = (n + 4 * d).toNat ∧
      (∀ (j : Nat) c y, r.sampler.configs[j]? = some c → r.sampler.ys[j]? = some y → styblinskiTangValue r.space c = .ok y) ∧
      ∃ (j : Nat) (v : ℝ), r.sampler.configs[j]? = some r.incumbent ∧ r.sampler.ys[j]? = some v ∧ ∀ y ∈ r.sampler.ys, v ≤ y) ∧
    (GpSurrogate.new.fit i.choose (r.sampler.configs.map Config.vector) r.sampler.ys = (gp, .ok ()) ∧ RowWise d gp.predict mu sd) ∧
    (samplesOf i.iceDraws = .ok samples ∧ (∀ s ∈ samples, ConfigOf r.space s (config s)) ∧
      inside = samples.filter (fun s => decide (containsAll r.space r.region.conds (config s) = .ok true)) ∧ (minPoints ≤ inside.length ∨ inside = samples)) ∧
    (containsAll r.space r.region.conds r.incumbent = .ok true ∧ regionImplied r.space r.region.conds = .ok r.implied ∧ Within r.implied r.incumbent ∧
      r.implied.map Hp.name = r.space.map Hp.name ∧ (∀ h ∈ r.implied, ∃ l u, h.kind = .float l u false ∧ -5 ≤ l ∧ l < u ∧ u ≤ 5) ∧ hp ∈ r.implied) ∧
    CurveOf r.space hp mu sd perAxis samples (stPartial d) r.pdp r.nllBase ∧
    CurveOf r.space hp mu sd perAxis inside (regionTruth r.implied) r.part r.nllRegion ∧
    (∀ x, regionTruth r.implied x = stTerm x + r.offset) ∧
    r.grid = (linspace 0 1 perAxis).map fun t => [t]

theorem bad_replication {S : Type} {i : MainInput S} {d : Nat} (hd : 2 ≤ d) {f : BlackboxFn ℝ}
    (hf : forNDimensions i.order (-5) 5 false styblinskiTangValue (d : ℝ) none none = .ok f) (hi : i.Good f.cs)
    (kind : AcqKind) {n nCandidates : Int} (hn0 : 0 ≤ n) (hn : 2 ≤ nCandidates) {perAxis : Nat} (hg : 1 ≤ perAxis) (numSplits : Nat) {minPoints : Nat}
    (hm : 1 ≤ minPoints) {depth : Int} (hdep : 0 < depth) :
    ∃ r, badReplication d kind n nCandidates perAxis numSplits minPoints depth i = .ok r ∧ RunOf i d n perAxis minPoints r := by
  obtain ⟨cs, h1, hs, hnames⟩ := stSpace_ok hi.order d
  rw [hf] at h1
  have hfe : f = ⟨cs, styblinskiTangValue cs⟩ := Except.ok.inj h1
  subst hfe
  dsimp only at hi
  obtain ⟨hp, hh, hname⟩ := hnames 1 le_rfl (by omega)
  replace hname : hp.name = "x1" := hname
  have hget : cs.get "x1" = .ok hp := by rw [← hname]; exact ConfigSpace.get_of_mem hs.wf hh
  obtain ⟨env, s, henv, hsamp, hlen, hdrawn, hyl, hvals⟩ := main_sampler (by omega) hs hi kind hn (initial := d * 4) (n := n + (d * 4 : Nat)) (by omega) (by omega)
  have hne : s.configs ≠ [] := by
    intro h; rw [h] at hlen; simp at hlen; omega
  have hdata : TrainingData cs.length (s.configs.map Config.vector) s.ys := configs_data (by rw [hs.len]; omega) hne (fun c hc => (hdrawn c hc).1) hyl
  obtain ⟨gp, hfit, -, mu, sd, hrow, hsd0, hsd⟩ := C99_unit hi.kernel hdata
  obtain ⟨l, hl, hlne, hld⟩ := hi.ice
  obtain ⟨samples, hsm⟩ : ∃ x, x = l.map Config.vector := ⟨_, rfl⟩
  have hsne : samples ≠ [] := by rw [hsm]; simpa using hlne
  have hrows : ∀ r ∈ samples, r.length = cs.length := by
    intro r hr
    rw [hsm] at hr
    obtain ⟨c, hc, rfl⟩ := List.mem_map.1 hr
    exact (hld c hc).1
  have hconf : ∀ r, ∃ c : Config ℝ, r ∈ samples → ConfigOf cs r c := by
    intro r
    by_cases hr : r ∈ samples
    · have hr' := hr
      rw [hsm] at hr'
      obtain ⟨c, hc, rfl⟩ := List.mem_map.1 hr'
      exact ⟨c, fun _ => (hld c hc).2.2.2⟩
    · exact ⟨⟨[], []⟩, fun h => absurd h hr⟩
  choose config hconfig using hconf
  obtain ⟨j, best, v, hinc, hj, hjv, hbest⟩ := incumbent_best hyl hne
  have hsel : convertHyperparameters (.name "x1") cs = .ok [hp] := by
    simp [convertHyperparameters, resolveItem, hget]
  obtain ⟨c, pdp, curve, tree, tree', leaves, region, k1, k2, k3, k4, k5, k6, grid, box, part, inside, ⟨g1, g2, g3, g4, g5, g6⟩, -, gl, q1, q2, q3, q4, q5,
    q6, q7, -, q8, q9, q10, q11, q12, q13, q14, q15⟩ :=
    workflow_curves hs.wf hs.float hrow hsel (by simpa using hh) (by simp) (by simp) hrows hsne hg numSplits hm hdep
      ((hdrawn best (List.mem_of_getElem? hj)).within hs) (config := config) (fun r hr => hconfig r hr)
  have hgrid : grid = (linspace 0 1 perAxis).map fun t => [t] := by
    rw [List.length_singleton, gridPoints_one] at g1
    exact (Except.ok.inj g1).symm
  have hglen : grid.length = perAxis := by rw [gl, List.length_singleton, pow_one]
  have hgp : ∀ p < perAxis, grid[p]? = some [gridFraction perAxis p] := by
    intro p hp'
    rw [hgrid, List.getElem?_map, (linspace_fraction hp').1]; rfl
  have hsub : ∀ r ∈ inside, r ∈ samples := by
    intro r hr; rw [q9] at hr; exact List.mem_of_mem_filter hr
  obtain ⟨b1, b2, b3, b4⟩ := st_region_box hs hh hrows hg hm hsel k1 k4 hdep k5 k6 q7
  have hbl : List.length box = d := by
    have := congrArg List.length b2
    rwa [List.length_map, List.length_map, hs.len] at this
  have hbwf : box.WF := by
    have := hs.wf
    unfold ConfigSpace.WF at this ⊢
    rw [b2]; exact this
  have hbk : ∀ q ∈ box, ∃ l u, q.kind = .float l u false ∧ l < u := fun h hm => by
    obtain ⟨l, u, y1, -, y2, -⟩ := b3 h hm
    exact ⟨l, u, y1, y2⟩
  have hbn : NamedAxes d box := ⟨hbl, hbwf, fun i h1 h2 => by
    obtain ⟨h, hm, e⟩ := hnames i h1 h2
    have := List.mem_map_of_mem (f := Hp.name) hm
    rw [← b2] at this
    obtain ⟨h', hm', e'⟩ := List.mem_map.1 this
    exact ⟨h', hm', by rw [e', e]⟩⟩
  obtain ⟨F0, i0, -⟩ := others_integral hi.order i.inv hd (cs := cs) ⟨hs.len, hs.wf, hnames⟩ (fun q hq => ⟨-5, 5, hs.kind q hq, by norm_num⟩) hh hname
  obtain ⟨F1, i1, -⟩ := others_integral hi.order i.inv hd hbn hbk b4 hname
  obtain ⟨x1, x2⟩ := boxAxes_spec (hp := hp) hbk
  have hane : boxAxes box hp ≠ [] := by
    intro h0
    rw [h0] at x1
    have h0 := x1.length_eq
    have := (filter_name hbwf b4).2
    rw [h0, hbl] at this
    simp at this
    omega
  have hsd1 : ∀ r, r.length = cs.length → 0 < sd r := fun r hr => (hsd r hr).1
  obtain ⟨g, hgv⟩ : ∃ g : Assignment → ℝ, ∀ ρ, styblinskiTangValue cs (assignConfig cs ρ) = .ok (g ρ) := ⟨_, fun ρ => st_value ρ fun _ h => h⟩
  have hgb : ∀ ρ, styblinskiTangValue box (assignConfig box ρ) = .ok (g ρ) := by
    intro ρ
    have : ∀ l : ConfigSpace ℝ, (l.map fun hp => stTerm (ρ hp.name)) = (l.map Hp.name).map fun m => stTerm (ρ m) := by
      intro l; rw [List.map_map]; rfl
    rw [← hgv ρ, st_value ρ fun _ h => h, st_value ρ fun _ h => h, this, this, b2]
  obtain ⟨n1, p1⟩ := region_nll hi.order i.inv hd hs hh hgrid g2 hsne hrows hsd1 g5
  obtain ⟨⟨g', y1, n2⟩, p2⟩ := region_nll_box hi.order i.inv hs hh hgrid g3 q10 (fun r hr => hrows r (hsub r hr)) hsd1 g6 hbwf b4 rfl
      (hs.kind hp hh) hane x1 x2
  have hgg : g' = g := by
    funext ρ
    have := y1 ρ
    rw [hgb] at this
    exact (Except.ok.inj this).symm
  rw [hgg] at n2
  have hcurve : ∀ (curve : IceCurve ℝ) (rows : List (List ℝ)) (truth : ℝ → ℝ), curve.y.length = grid.length → curve.v.length = grid.length →
      (∀ p < perAxis, 0 < averageOver rows fun r => sd (replaced cs [hp] [gridFraction perAxis p] r) ^ 2) →
      (∀ (p : Nat) t, grid[p]? = some t → curve.y[p]? = some (averageOver rows fun r => mu (replaced cs [hp] t r)) ∧
          curve.v[p]? = some (averageOver rows fun r => sd (replaced cs [hp] t r) ^ 2)) →
      CurveOf cs hp mu sd perAxis rows truth curve (gaussLoss perAxis (fun p => averageOver rows fun r => mu (replaced cs [hp] [gridFraction perAxis p] r))
        (fun p => averageOver rows fun r => sd (replaced cs [hp] [gridFraction perAxis p] r) ^ 2) fun p => truth (-5 + 10 * gridFraction perAxis p)) := by
    intro curve rows truth l1 l2 hpos hat
    refine ⟨by omega, by omega, fun v hv => ?_, fun p hp' => hat p _ (hgp p hp'), ?_⟩
    · obtain ⟨p, hp', rfl⟩ := List.getElem_of_mem hv
      have hpl : p < perAxis := by omega
      have := (hat p _ (hgp p hpl)).2
      rw [List.getElem?_eq_getElem hp'] at this
      rw [Option.some.inj this]
      exact hpos p hpl
    · unfold gaussLoss
      congr 2
      refine Finset.sum_congr rfl fun p hp' => ?_
      obtain ⟨e1, e2⟩ := hat p _ (hgp p (Finset.mem_range.1 hp'))
      simp only [List.getD_eq_getElem?_getD, e1, e2, Option.getD_some]
  have hcl : (iceInit c).cfg.perAxis = perAxis := by
    rw [algorithmInit, hsel] at k1
    rw [← Except.ok.inj k1]; rfl
  have hpg : (pdpGrid pdp).2 = .ok grid := by
    obtain ⟨w1, w2, -⟩ := C46_grid_points k2
    rw [w1, w2 rfl, show (iceInit c).cfg.selected = [hp] from b1, hcl, g1]
  have hsl : s.configs.length = (n + 4 * d).toNat := by rw [hlen]; congr 1; push_cast; ring
  have hrow' : RowWise d gp.predict mu sd := by rw [← hs.len]; exact hrow
  have c1 := hcurve curve samples (stPartial d) q1 q2 p1 q5
  have c2 := hcurve part inside (fun x => average (boxAxes box hp) g fun _ => x) q3 q4 p2 q13
  obtain ⟨N1, hN1⟩ : ∃ N, negativeLogLikelihood i.inv cs [hp] tree.root (trueStyblinskiTang i.order cs) = .ok N ∧ CurveOf cs hp mu sd perAxis samples (stPartial d) curve N :=
    ⟨_, n1, c1⟩
  have htr : (fun x => average (boxAxes box hp) g fun _ => x) = regionTruth box := by
    funext x
    have : g = fun ρ => (box.map fun h => stTerm (ρ h.name)).sum := by
      funext ρ
      have := hgb ρ
      rw [st_value ρ fun _ h => h] at this
      rw [← Except.ok.inj this]
    rw [regionTruth, ← this, boxAxes, hname]
  obtain ⟨N2, hN2⟩ : ∃ N, negativeLogLikelihood i.inv cs [hp] region (trueStyblinskiTang i.order box) = .ok N ∧
      CurveOf cs hp mu sd perAxis inside (regionTruth box) part N := ⟨_, n2, by rw [← htr]; exact c2⟩
  refine ⟨⟨cs, s, best, tree'.root, region, box, meanOffset (boxAxes box hp), N1, N2, curve, grid, part⟩, ?_, ?_⟩
  rotate_left
  · refine ⟨hp, gp, mu, sd, samples, config, inside, ⟨hs, hget⟩, ⟨hsl, hyl.trans hsl, hvals, j, v, hj, hjv, hbest⟩, ⟨hfit, hrow'⟩,
      ⟨by rw [hl, hsm]; rfl, fun r hr => hconfig r hr, q9, q11⟩, ⟨q6, q7, q8, b2, b3, b4⟩, hN1.2, hN2.2,
      fun x => by rw [← htr]; exact average_box hbwf hbk b4 hgb fun _ => x, hgrid⟩
  · unfold badReplication
    rw [hf, Py.ok_bind]
    dsimp only
    rw [henv, Py.ok_bind]
    dsimp only
    rw [hsamp]
    dsimp only
    rw [hfit]
    dsimp only
    rw [hl, samplesOf, Py.ok_bind, ← hsm, k1, Py.ok_bind, k4, Py.ok_bind, k5]
    dsimp only
    rw [hinc, Py.ok_bind]
    dsimp only
    rw [k6, Py.ok_bind]
    dsimp only
    rw [i0, Py.ok_bind, q7, Py.ok_bind, i1, Py.ok_bind]
    dsimp only
    rw [g4, b1, hN1.1, Py.ok_bind, hN2.1, Py.ok_bind, k2, Py.ok_bind, k3, Py.ok_bind, hpg, Py.ok_bind, q12, Py.ok_bind]
    rfl

/-! ### the sums -/

/-- the entry of an array that may still be the number 0 -/
noncomputable def entryOf (a : Option (List ℝ)) (p : Nat) : ℝ := match a with
  | none => 0
  | some a => a.getD p 0

theorem addArray_ok {P : Nat} {a : Option (List ℝ)} (ha : ∀ l, a = some l → l.length = P) {b : List ℝ} (hb : b.length = P) :
    ∃ c, addArray a b = .ok (some c) ∧ c.length = P ∧ ∀ p < P, c.getD p 0 = entryOf a p + b.getD p 0 := by
  cases a with
  | none => exact ⟨b, rfl, hb, fun p _ => by simp [entryOf]⟩
  | some a =>
    have := ha a rfl
    refine ⟨_, if_pos (by omega), by simp [this, hb], fun p hp => ?_⟩
    rw [List.getD_eq_getElem?_getD, List.getElem?_zipWith, List.getElem?_eq_getElem (by omega), List.getElem?_eq_getElem (by omega)]
    simp [entryOf, List.getD_eq_getElem?_getD, List.getElem?_eq_getElem (show p < a.length by omega), List.getElem?_eq_getElem (show p < b.length by omega)]

/-- the sums after the loop; `P` is the length of the arrays -/
theorem badLoop_ok {S : Type} {one : MainInput S → Py (BadRun S)} {P : Nat} {reps : List (MainInput S)} {R : MainInput S → BadRun S → Prop}
    (hone : ∀ i ∈ reps, ∃ r, one i = .ok r ∧ R i r ∧ r.pdp.y.length = P ∧ r.pdp.v.length = P ∧ r.part.y.length = P ∧ r.part.v.length = P) (s : BadSums)
    (h1 : ∀ l, s.y = some l → l.length = P) (h2 : ∀ l, s.var = some l → l.length = P) (h3 : ∀ l, s.yRegion = some l → l.length = P)
    (h4 : ∀ l, s.varRegion = some l → l.length = P) :
    ∃ t rs, badLoop one s reps = .ok (t, rs) ∧ List.Forall₂ R reps rs ∧ t.base = s.base + (rs.map BadRun.nllBase).sum ∧
      t.region = s.region + (rs.map BadRun.nllRegion).sum ∧ t.offset = s.offset + (rs.map BadRun.offset).sum ∧
      ((∀ l, t.y = some l → l.length = P) ∧ (∀ l, t.var = some l → l.length = P) ∧ (∀ l, t.yRegion = some l → l.length = P) ∧
        (∀ l, t.varRegion = some l → l.length = P)) ∧
      (∀ p < P, entryOf t.y p = entryOf s.y p + (rs.map fun r => r.pdp.y.getD p 0).sum ∧ entryOf t.var p = entryOf s.var p + (rs.map fun r => r.pdp.v.getD p 0).sum ∧
        entryOf t.yRegion p = entryOf s.yRegion p + (rs.map fun r => r.part.y.getD p 0).sum ∧
        entryOf t.varRegion p = entryOf s.varRegion p + (rs.map fun r => r.part.v.getD p 0).sum) ∧
      (reps ≠ [] → t.y.isSome ∧ t.var.isSome ∧ t.yRegion.isSome ∧ t.varRegion.isSome ∧ ∃ r ∈ rs, t.grid = some r.grid) ∧
      (∀ δ, s.delta = .ok δ → (∀ k < rs.length, s.base + ((rs.take (k + 1)).map BadRun.nllBase).sum ≠ 0) →
        t.delta = .ok (δ + ∑ k ∈ Finset.range rs.length,
          ((s.base + ((rs.take (k + 1)).map BadRun.nllBase).sum) - (s.region + ((rs.take (k + 1)).map BadRun.nllRegion).sum)) /
            |s.base + ((rs.take (k + 1)).map BadRun.nllBase).sum|)) := by
  induction reps generalizing s with
  | nil =>
    exact ⟨s, [], rfl, .nil, by simp, by simp, by simp, ⟨h1, h2, h3, h4⟩, by simp, by simp, fun δ hδ _ => by simp [hδ]⟩
  | cons i is ih =>
    obtain ⟨r, r1, r2, l1, l2, l3, l4⟩ := hone i (by simp)
    obtain ⟨c1, a1, b1, d1⟩ := addArray_ok h1 l1
    obtain ⟨c2, a2, b2, d2⟩ := addArray_ok h2 l2
    obtain ⟨c3, a3, b3, d3⟩ := addArray_ok h3 l3
    obtain ⟨c4, a4, b4, d4⟩ := addArray_ok h4 l4
    have hsome : ∀ {c : List ℝ}, c.length = P → ∀ l, some c = some l → l.length = P := fun h l e => Option.some.inj e ▸ h
    have hadd : s.add r = .ok ⟨s.base + r.nllBase, s.region + r.nllRegion, (do return (← s.delta) + (← calculateLogDelta (s.region + r.nllRegion) (s.base + r.nllBase))),
        s.offset + r.offset, some c1, some c2, some c3, some c4, some r.grid⟩ := by
      unfold BadSums.add
      dsimp only
      rw [a1, Py.ok_bind, a2, Py.ok_bind, a3, Py.ok_bind, a4, Py.ok_bind]
      rfl
    obtain ⟨s', hs'⟩ : ∃ s' : BadSums, s' = ⟨s.base + r.nllBase, s.region + r.nllRegion, (do return (← s.delta) + (← calculateLogDelta (s.region + r.nllRegion) (s.base + r.nllBase))),
        s.offset + r.offset, some c1, some c2, some c3, some c4, some r.grid⟩ := ⟨_, rfl⟩
    rw [← hs'] at hadd
    obtain ⟨t, rs, e1, e2, e3, e4, e5, e6, e7, e8, e9⟩ := ih (fun i hi => hone i (by simp [hi])) s' (by rw [hs']; exact hsome b1) (by rw [hs']; exact hsome b2)
      (by rw [hs']; exact hsome b3) (by rw [hs']; exact hsome b4)
    refine ⟨t, r :: rs, ?_, .cons r2 e2, ?_, ?_, ?_, e6, fun p hp => ?_, fun _ => ?_, fun δ hδ hne => ?_⟩
    · unfold badLoop
      rw [r1, Py.ok_bind, hadd, Py.ok_bind, e1]
      rfl
    · rw [e3, hs', List.map_cons, List.sum_cons]; ring
    · rw [e4, hs', List.map_cons, List.sum_cons]; ring
    · rw [e5, hs', List.map_cons, List.sum_cons]; ring
    · obtain ⟨f1, f2, f3, f4⟩ := e7 p hp
      simp only [List.map_cons, List.sum_cons]
      rw [f1, f2, f3, f4, hs']
      simp only [entryOf] at d1 d2 d3 d4 ⊢
      rw [d1 p hp, d2 p hp, d3 p hp, d4 p hp]
      refine ⟨?_, ?_, ?_, ?_⟩ <;> ring
    · cases is with
      | nil =>
        cases e2
        unfold badLoop at e1
        obtain ⟨rfl, -⟩ := Prod.mk.inj (Except.ok.inj e1)
        rw [hs']
        simp
      | cons j js =>
        obtain ⟨g1, g2, g3, g4, r', g5, g6⟩ := e8 (by simp)
        exact ⟨g1, g2, g3, g4, r', by simp [g5], g6⟩
    · have h0 := hne 0 (by simp)
      simp only [zero_add, List.take_succ_cons, List.take_zero, List.map_cons, List.map_nil, List.sum_cons, List.sum_nil, add_zero] at h0
      have hδ' : s'.delta = .ok (δ + (s.base + r.nllBase - (s.region + r.nllRegion)) / |s.base + r.nllBase|) := by
        rw [hs']
        dsimp only
        rw [hδ, Py.ok_bind, calculateLogDelta, if_neg h0, Py.ok_bind]
        rfl
      have hb : s'.base = s.base + r.nllBase := by rw [hs']
      have hr : s'.region = s.region + r.nllRegion := by rw [hs']
      rw [e9 _ hδ' (fun k hk => by
        have := hne (k + 1) (by simpa using hk)
        rw [List.take_succ_cons, List.map_cons, List.sum_cons, ← add_assoc] at this
        rwa [hb])]
      rw [List.length_cons, Finset.sum_range_succ', hb, hr]
      simp only [List.take_succ_cons, List.map_cons, List.sum_cons, List.take_zero, List.map_nil, List.sum_nil, add_zero, add_assoc]
      congr 2
      exact add_comm _ _

/-! ### the figure -/

theorem unscale_column {hp : Hp ℝ} (hk : hp.kind = .float (-5) 5 false) (ts : List ℝ) :
    unscale DType.float (.d2 (ts.map fun t => [t])) [hp] = .ok (.d2 (ts.map fun t => [.num (-5 + 10 * t)])) := by
  have h : ∀ ts : List ℝ, zipWithPy (updRow 0 (unscaleEntry (K := ℝ) DType.float true hp false)) (ts.map fun t => [t]) ((ts.map fun t => [t]).map (·.map fun e => Val.num e)) =
      .ok (ts.map fun t => [.num (-5 + 10 * t)]) := by
    intro ts
    induction ts with
    | nil => rfl
    | cons t ts ih =>
      rw [List.map_cons, List.map_cons, zipWithPy, ih]
      simp only [updRow, unscaleEntry, hk, DType.float, unscaleNum]
      simp [Except.map]
      ring
  unfold unscale unscaleLoop
  simp only [hk, NdArr.map, updArr, DType.float, id]
  have := h ts
  simp only [DType.float] at this
  rw [this]
  rfl

/-- An axis of the figure: 100 nested bands of less than 1.5 standard deviations `s` around the values `y` at the coordinates `x`, the values themselves, the lines one
and two standard deviations off, the values in red, and a black line with the values of `truth` at `perPlot` evenly spaced points. -/
def ShowsAverage (x y s : List ℝ) (truth : ℝ → ℝ) (perPlot : Nat) (ax : Ax ℝ) : Prop :=
  ∃ fs bands one two xs, ax = ⟨"x1", "Prediction", false, false, some (-5, 5), none,
      bands ++ ([.line "lightblue" x y] ++ (one ++ two)) ++ [.line "red" x y] ++ [.line "black" xs (xs.map truth)]⟩ ∧
    List.Forall₂ (BandOf "lightblue" x y s) fs bands ∧ fs.length = 100 ∧ fs.Pairwise (· < ·) ∧ (∀ f ∈ fs, 0 ≤ f ∧ f < 3 / 2) ∧
    LinesOf "lightblue" x y s 1 one ∧ LinesOf "lightblue" x y s 2 two ∧ EvenAxis (-5) 5 false perPlot xs

theorem evenAxis_bounds {n : Nat} {xs : List ℝ} (h1 : EvenAxis (-5) 5 false n xs) : ∀ a ∈ xs, -5 ≤ a ∧ a ≤ 5 := by
  intro a ha
  obtain ⟨j, hj, rfl⟩ := List.getElem_of_mem ha
  have h0 := h1.head
  have h9 := h1.last
  have hlen := h1.length
  have hpw := List.pairwise_iff_getElem.1 h1.increasing
  obtain ⟨l0, e0⟩ := List.getElem?_eq_some_iff.1 h0
  obtain ⟨l9, e9⟩ := List.getElem?_eq_some_iff.1 h9
  constructor
  · rcases Nat.eq_zero_or_pos j with rfl | hj0
    · exact e0.ge
    · have := hpw 0 j l0 hj hj0
      rw [e0] at this; exact this.le
  · rcases Nat.lt_or_ge j (n - 1) with hj0 | hj0
    · have := hpw j (n - 1) hj l9 hj0
      rw [e9] at this; exact this.le
    · obtain rfl : j = n - 1 := by omega
      exact e9.le

theorem badAxis_ok {hp : Hp ℝ} (hk : hp.kind = .float (-5) 5 false) (hname : hp.name = "x1") {x y var : List ℝ} (hy : y.length = x.length) (hv : var.length = x.length)
    {perPlot : Nat} (hn : 2 ≤ perPlot) {f : List (String × Val ℝ) → Py ℝ} {truth : ℝ → ℝ}
    (hf : ∀ a, -5 ≤ a → a ≤ 5 → f [(hp.name, .num a)] = .ok (truth a)) :
    ∃ ax, badAxis x y var f [hp] perPlot Ax.new = (ax, .ok ()) ∧ ShowsAverage x y (var.map Real.sqrt) truth perPlot ax := by
  have hg : GivenStds none (some var) (var.map Real.sqrt) := .inr ⟨rfl, var, rfl, by rw [List.forall₂_map_right_iff, List.forall₂_same]; simp⟩
  have hs : (var.map Real.sqrt).length = x.length := by simpa using hv
  obtain ⟨fs, bands, g1, g2, g3, -, g5⟩ := C72_bands hy hs hg "lightblue" 100 (3 / 2) Ax.new
  obtain ⟨g5, g6⟩ := g5 (by norm_num)
  obtain ⟨sorted, pairs, k1, k2, k3, k4⟩ := C72_lines_partial hy hs hg "lightblue" (ks := [0, 1, 2]) (by
    intro k hk
    simp only [List.mem_cons, List.not_mem_nil, or_false] at hk
    rcases hk with rfl | rfl | rfl <;> norm_num) (Ax.new.draw bands)
  have hfil : ([0, 1, 2] : List ℝ).filter (fun k => decide (k ≠ 0)) = [1, 2] := by
    rw [List.filter_cons_of_neg (by simp), List.filter_cons_of_pos (by simp), List.filter_cons_of_pos (by simp), List.filter_nil]
  rw [hfil] at k2
  have hsort : sorted = [1, 2] := List.Perm.eq_of_pairwise' k3 (by simp) k2
  rw [hsort] at k4
  obtain ⟨one, two, hpairs, m1, m2⟩ : ∃ one two, pairs = [one, two] ∧ LinesOf "lightblue" x y (var.map Real.sqrt) 1 one ∧ LinesOf "lightblue" x y (var.map Real.sqrt) 2 two := by
    cases k4 with
    | cons a b => cases b with
      | cons b c => cases c; exact ⟨_, _, rfl, a, b⟩
  rw [if_pos (by simp), hpairs] at k1
  have hax : ∀ shapes, checkAndSetAxis [hp] true "Prediction" (Ax.new.draw shapes) = ((⟨"x1", "Prediction", false, false, some (-5, 5), none, shapes⟩ : Ax ℝ), .ok ()) := by
    intro shapes
    simp [checkAndSetAxis, Ax.new, Ax.draw, Ax.boundX, Hp.numerical?, hk, hname]
  obtain ⟨xs, consts, h1, h3, h4, -⟩ := C73_one (cs := [hp]) (p := hp) (by simp [varying, hk]) (l := -5) (u := 5) (g := false)
    ⟨.inl hk, by norm_num, by simp⟩ hn f "black" (hax (bands ++ ([.line "lightblue" x y] ++ (one ++ two)) ++ [.line "red" x y]))
  have hcn : consts = [] := by
    rw [List.eq_nil_iff_forall_not_mem]
    rintro ⟨nm, v⟩ hm
    have := (h3.2 nm v).1 hm
    rw [List.mem_singleton] at this
    rw [← this] at hk
    cases hk
  have hline := h4 truth fun a ha => by rw [hcn]; exact hf a (evenAxis_bounds h1 a ha).1 (evenAxis_bounds h1 a ha).2
  refine ⟨_, ?_, fs, bands, one, two, xs, rfl, g2, g3, g5, g6, m1, m2, h1⟩
  unfold badAxis
  have hred : ∀ ax, plotLine "red" x y ax = (ax.draw [.line "red" x y], .ok ()) := by
    intro ax
    unfold plotLine drawLine
    rw [if_pos ⟨by norm_num, le_rfl, hy.symm⟩, Plot.add_eq]
  have g1' : confidenceGradients x y none (some var) "lightblue" 100 (3 / 2) Ax.new = (Ax.new.draw bands, .ok ()) := g1
  rw [Plot.bind_ok g1', Plot.bind_ok k1, Plot.bind_ok (hred _), Ax.draw_draw, Ax.draw_draw]
  have e : [one, two].flatten = one ++ two := by simp
  rw [e, ← List.append_assoc bands, hline]
  rfl

/-- the average over the replications -/
noncomputable def meanRun {S : Type} (runs : List (BadRun S)) (φ : BadRun S → ℝ) : ℝ := (runs.map φ).sum / runs.length

/-- `y` and `s` are the average over the replications of the values of the curves and the square root of the average of their variances -/
def AverageCurve {S : Type} (runs : List (BadRun S)) (curve : BadRun S → IceCurve ℝ) (perAxis : Nat) (y s : List ℝ) : Prop :=
  y.length = perAxis ∧ s.length = perAxis ∧ ∀ p < perAxis, y.getD p 0 = meanRun runs (fun r => (curve r).y.getD p 0) ∧
    0 < s.getD p 0 ∧ s.getD p 0 ^ 2 = meanRun runs fun r => (curve r).v.getD p 0

theorem divideArray_ok {P : Nat} {a : Option (List ℝ)} (hs : a.isSome) (hl : ∀ l, a = some l → l.length = P) {n : Nat} :
    ∃ c, divideArray a n = .ok c ∧ c.length = P ∧ ∀ p < P, c.getD p 0 = entryOf a p / n := by
  obtain ⟨l, rfl⟩ := Option.isSome_iff_exists.1 hs
  have := hl l rfl
  refine ⟨_, rfl, by simpa using this, fun p hp => ?_⟩
  simp [entryOf, List.getD_eq_getElem?_getD, List.getElem?_map, List.getElem?_eq_getElem (show p < l.length by omega)]

theorem averageCurve {S : Type} {runs : List (BadRun S)} (hne : runs ≠ []) {curve : BadRun S → IceCurve ℝ} {P : Nat} {y v : List ℝ} (hy : y.length = P) (hv : v.length = P)
    (h : ∀ p < P, y.getD p 0 = meanRun runs (fun r => (curve r).y.getD p 0) ∧ v.getD p 0 = meanRun runs (fun r => (curve r).v.getD p 0))
    (hpos : ∀ r ∈ runs, (curve r).v.length = P ∧ ∀ e ∈ (curve r).v, 0 < e) : AverageCurve runs curve P y (v.map Real.sqrt) := by
  refine ⟨hy, by simpa using hv, fun p hp => ⟨(h p hp).1, ?_⟩⟩
  have e : (v.map Real.sqrt).getD p 0 = Real.sqrt (v.getD p 0) := by
    simp [List.getD_eq_getElem?_getD, List.getElem?_map, List.getElem?_eq_getElem (show p < v.length by omega)]
  have h0 : 0 < v.getD p 0 := by
    rw [(h p hp).2]
    refine div_pos (List.sum_pos _ (fun w hw => ?_) (by simpa using hne)) (by exact_mod_cast List.length_pos_iff.2 hne)
    obtain ⟨r, hr, rfl⟩ := List.mem_map.1 hw
    obtain ⟨h1, h2⟩ := hpos r hr
    rw [List.getD_eq_getElem?_getD, List.getElem?_eq_getElem (by omega)]
    exact h2 _ (List.getElem_mem _)
  rw [e]
  exact ⟨Real.sqrt_pos.2 h0, by rw [Real.sq_sqrt h0.le, (h p hp).2]⟩

/-- the data of every replication is what the libraries are assumed to deliver for its space -/
def GoodReplications {S : Type} (d : Nat) (reps : List (MainInput S)) : Prop :=
  ∀ i ∈ reps, ∃ f, forNDimensions i.order (-5) 5 false styblinskiTangValue (d : ℝ) none none = .ok f ∧ i.Good f.cs

/-- **C114**: The script comes to its end for every positive number of replications. Both titles show the averages of the two likelihoods, both axes the averages of
the curves. On the left the black line is the partial dependence of the function. On the right it is the average of the true partial dependences
of the regions *minus* 25 (d - 1) / 6 (see `C114_ground_truth_counterexample`). The delta adds up the relative improvements of the sums so far (see
`C114_delta_counterexample`). -/
theorem C114_figure_partial {S : Type} {order : SpaceOrder ℝ} (hord : ∀ l, (order l).Perm l) (inv : Hp ℝ → Val ℝ → ℝ) {d : Nat} (hd : 2 ≤ d)
    {reps : List (MainInput S)} (hne : reps ≠ []) (hgood : GoodReplications d reps) (kind : AcqKind) {n nCandidates : Int} (hn0 : 0 ≤ n) (hn : 2 ≤ nCandidates)
    {perAxis : Nat} (hg : 1 ≤ perAxis) (numSplits : Nat) {minPoints : Nat} (hm : 1 ≤ minPoints) {depth : Int} (hdep : 0 < depth) {perPlot : Nat} (hpp : 2 ≤ perPlot) :
    ∃ (fig : BadFigure S) (x y s y' s' : List ℝ), badNll order inv d kind n nCandidates perAxis numSplits minPoints depth perPlot reps = .ok fig ∧
      List.Forall₂ (fun i r => RunOf i d n perAxis minPoints r) reps fig.runs ∧
      (x.length = perAxis ∧ ∀ p < perAxis, x.getD p 0 = -5 + 10 * gridFraction perAxis p) ∧
      AverageCurve fig.runs BadRun.pdp perAxis y s ∧ AverageCurve fig.runs BadRun.part perAxis y' s' ∧
      ShowsAverage x y s (stPartial d) perPlot fig.left ∧
      ShowsAverage x y' s' (fun t => meanRun fig.runs (fun r => regionTruth r.implied t) - 25 / 6 * ((d : ℝ) - 1)) perPlot fig.right ∧
      fig.base = meanRun fig.runs BadRun.nllBase ∧ fig.region = meanRun fig.runs BadRun.nllRegion ∧
      ((∀ k < fig.runs.length, ((fig.runs.take (k + 1)).map BadRun.nllBase).sum ≠ 0) →
        fig.delta = .ok (100 * (∑ k ∈ Finset.range fig.runs.length,
          (((fig.runs.take (k + 1)).map BadRun.nllBase).sum - ((fig.runs.take (k + 1)).map BadRun.nllRegion).sum) /
            |((fig.runs.take (k + 1)).map BadRun.nllBase).sum|) / fig.runs.length)) := by
  obtain ⟨t, runs, h1, h2, h3, h4, h5, ⟨a1, a2, a3, a4⟩, h6, h7, h8⟩ := badLoop_ok (P := perAxis)
    (one := badReplication d kind n nCandidates perAxis numSplits minPoints depth) (reps := reps) (R := fun i r => RunOf i d n perAxis minPoints r) (by
      intro i hi
      obtain ⟨f, hf, hif⟩ := hgood i hi
      obtain ⟨r, hr, hrun⟩ := bad_replication hd hf hif kind hn0 hn hg numSplits hm hdep
      refine ⟨r, hr, hrun, ?_⟩
      obtain ⟨_, _, _, _, _, _, _, -, -, -, -, -, c1, c2, -, -⟩ := hrun
      exact ⟨c1.1, c1.2.1, c2.1, c2.2.1⟩) BadSums.zero (by simp [BadSums.zero]) (by simp [BadSums.zero]) (by simp [BadSums.zero]) (by simp [BadSums.zero])
  obtain ⟨b1, b2, b3, b4, r0, hr0, b5⟩ := h7 hne
  have hlen : reps.length = runs.length := h2.length_eq
  have hrne : runs ≠ [] := by
    intro h; rw [h] at hlen; exact hne (List.length_eq_zero_iff.1 hlen)
  have hall : ∀ r ∈ runs, ∃ i, RunOf i d n perAxis minPoints r := by
    intro r hr
    obtain ⟨j, hj, rfl⟩ := List.getElem_of_mem hr
    exact ⟨_, (List.forall₂_iff_get.1 h2).2 j (hlen ▸ hj) hj⟩
  have hgrid : r0.grid = (linspace 0 1 perAxis).map fun t => [t] := by
    obtain ⟨i, _, _, _, _, _, _, _, -, -, -, -, -, -, -, -, h⟩ := hall r0 hr0
    exact h
  obtain ⟨y, e1, l1, v1⟩ := divideArray_ok b1 a1 (n := reps.length)
  obtain ⟨var, e2, l2, v2⟩ := divideArray_ok b2 a2 (n := reps.length)
  obtain ⟨y', e3, l3, v3⟩ := divideArray_ok b3 a3 (n := reps.length)
  obtain ⟨var', e4, l4, v4⟩ := divideArray_ok b4 a4 (n := reps.length)
  have c1 : AverageCurve runs BadRun.pdp perAxis y (var.map Real.sqrt) := averageCurve hrne l1 l2
    (fun p hp => ⟨by rw [v1 p hp, (h6 p hp).1, hlen]; simp [BadSums.zero, entryOf, meanRun], by rw [v2 p hp, (h6 p hp).2.1, hlen]; simp [BadSums.zero, entryOf, meanRun]⟩)
    (fun r hr => by
      obtain ⟨i, _, _, _, _, _, _, _, -, -, -, -, -, c, -⟩ := hall r hr
      exact ⟨c.2.1, c.2.2.1⟩)
  have c2 : AverageCurve runs BadRun.part perAxis y' (var'.map Real.sqrt) := averageCurve hrne l3 l4
    (fun p hp => ⟨by rw [v3 p hp, (h6 p hp).2.2.1, hlen]; simp [BadSums.zero, entryOf, meanRun],
      by rw [v4 p hp, (h6 p hp).2.2.2, hlen]; simp [BadSums.zero, entryOf, meanRun]⟩)
    (fun r hr => by
      obtain ⟨i, _, _, _, _, _, _, _, -, -, -, -, -, -, c, -⟩ := hall r hr
      exact ⟨c.2.1, c.2.2.1⟩)
  obtain ⟨cs, hf, hs, hnames⟩ := stSpace_ok hord d
  obtain ⟨hp, hh, hname⟩ := hnames 1 le_rfl (by omega)
  replace hname : hp.name = "x1" := hname
  have hk := hs.kind hp hh
  obtain ⟨F, g1, g2, g3⟩ := others_integral hord inv hd (cs := cs) ⟨hs.len, hs.wf, hnames⟩ (fun q hq => ⟨-5, 5, hs.kind q hq, by norm_num⟩) hh hname
  rw [meanOffset_full hs hh] at g1 g3
  obtain ⟨x, hx⟩ : ∃ x, x = (linspace 0 1 perAxis).map fun t : ℝ => -5 + 10 * t := ⟨_, rfl⟩
  have hxl : x.length = perAxis := by rw [hx, List.length_map, linspace_length]
  have hF : ∀ a, -5 ≤ a → a ≤ 5 → F.call inv [(hp.name, .num a)] = .ok (stPartial d a) := by
    intro a ha hb
    rw [g3 (-5) 5 a hk ha hb]
    congr 1
    unfold stTerm stPartial
    ring
  obtain ⟨left, m1, m2⟩ := badAxis_ok hk hname (l1.trans hxl.symm) (l2.trans hxl.symm) hpp hF
  have hN : (runs.length : ℝ) ≠ 0 := by exact_mod_cast fun h => hrne (List.length_eq_zero_iff.1 h)
  obtain ⟨right, q1, q2⟩ := badAxis_ok hk hname (l3.trans hxl.symm) (l4.trans hxl.symm) hpp
    (f := fun args => (do return (← F.call inv args) + t.offset / reps.length : Py ℝ))
    (truth := fun a => meanRun runs (fun r => regionTruth r.implied a) - 25 / 6 * ((d : ℝ) - 1)) (by
      intro a ha hb
      show (F.call inv [(hp.name, .num a)] >>= fun v => Except.ok (v + t.offset / reps.length)) = _
      rw [g3 (-5) 5 a hk ha hb, Py.ok_bind]
      congr 1
      have : runs.map (fun r => regionTruth r.implied a) = runs.map fun r => stTerm a + r.offset := List.map_congr_left fun r hr => by
        obtain ⟨i, _, _, _, _, _, _, _, -, -, -, -, -, -, -, h, -⟩ := hall r hr
        exact h a
      unfold meanRun
      rw [this, List.sum_map_add, List.map_const', List.sum_replicate, h5, hlen, nsmul_eq_mul]
      simp only [BadSums.zero]
      field_simp
      ring)
  refine ⟨⟨runs, t.base / reps.length, t.region / reps.length, (do return 100 * (← t.delta) / reps.length : Py ℝ), left, right⟩, x, y, var.map Real.sqrt, y', var'.map Real.sqrt,
    ?_, h2, ⟨hxl, fun p hp => ?_⟩, c1, c2, m2, q2, ?_, ?_, fun hb => ?_⟩
  · unfold badNll
    rw [h1, Py.ok_bind]
    dsimp only
    rw [e1, Py.ok_bind, e2, Py.ok_bind, e3, Py.ok_bind, e4, Py.ok_bind, hf, Py.ok_bind]
    dsimp only
    rw [g1, Py.ok_bind]
    dsimp only
    rw [b5]
    dsimp only
    rw [Py.ok_bind, hgrid, g2, unscale_column hk, Py.ok_bind]
    simp only [NdArr.asRows]
    rw [Py.ok_bind]
    have hcol : numberColumn 0 ((linspace 0 1 perAxis).map fun t : ℝ => [Val.num (-5 + 10 * t)]) = .ok x := by
      rw [hx]
      generalize linspace (0 : ℝ) 1 perAxis = ts
      unfold numberColumn
      induction ts with
      | nil => rfl
      | cons a l ih => rw [List.map_cons, List.mapM_cons, ih]; rfl
    rw [hcol, Py.ok_bind, m1]
    dsimp only
    rw [q1]
    rfl
  · have := (linspace_fraction hp).1
    rw [hx, List.getD_eq_getElem?_getD, List.getElem?_map, this]
    rfl
  · show t.base / reps.length = _
    rw [h3, hlen]; simp [BadSums.zero, meanRun]
  · show t.region / reps.length = _
    rw [h4, hlen]; simp [BadSums.zero, meanRun]
  · show (t.delta >>= fun v => Except.ok (100 * v / reps.length)) = _
    rw [h8 0 rfl (by simpa [BadSums.zero] using hb), Py.ok_bind, hlen]
    simp [BadSums.zero]

/-- The black line on the right, labelled as the ground truth, is at every point at least 25/6 below the average of the regions' true partial dependences, in every run
of the script with at least two dimensions: the offset of the whole space is added to the offset of the region. -/
theorem C114_ground_truth_counterexample {S : Type} {order : SpaceOrder ℝ} (hord : ∀ l, (order l).Perm l) (inv : Hp ℝ → Val ℝ → ℝ) {d : Nat} (hd : 2 ≤ d)
    {reps : List (MainInput S)} (hne : reps ≠ []) (hgood : GoodReplications d reps) (kind : AcqKind) {n nCandidates : Int} (hn0 : 0 ≤ n) (hn : 2 ≤ nCandidates)
    {perAxis : Nat} (hg : 1 ≤ perAxis) (numSplits : Nat) {minPoints : Nat} (hm : 1 ≤ minPoints) {depth : Int} (hdep : 0 < depth) {perPlot : Nat} (hpp : 2 ≤ perPlot) :
    ∃ (fig : BadFigure S) (xs ys : List ℝ), badNll order inv d kind n nCandidates perAxis numSplits minPoints depth perPlot reps = .ok fig ∧
      .line "black" xs ys ∈ fig.right.shapes ∧ xs.length = perPlot ∧ ys.length = perPlot ∧
      ∀ (j : Nat) a b, xs[j]? = some a → ys[j]? = some b → b ≤ meanRun fig.runs (fun r => regionTruth r.implied a) - 25 / 6 := by
  obtain ⟨fig, x, y, s, y', s', h1, -, -, -, -, -, ⟨fs, bands, one, two, xs, h2, -, -, -, -, -, -, h3⟩, -⟩ :=
    C114_figure_partial hord inv hd hne hgood kind hn0 hn hg numSplits hm hdep hpp
  refine ⟨fig, xs, xs.map fun t => meanRun fig.runs (fun r => regionTruth r.implied t) - 25 / 6 * ((d : ℝ) - 1), h1, by rw [h2]; simp, h3.length, by rw [List.length_map]; exact h3.length, fun j a b ha hb => ?_⟩
  rw [List.getElem?_map, ha] at hb
  obtain rfl : _ = b := Option.some.inj hb
  have : (2 : ℝ) ≤ d := by exact_mod_cast hd
  linarith

/-- Two replications with positive base likelihoods: the reported delta is the average of their deltas exactly when the two deltas are equal. -/
theorem C114_delta_counterexample {S : Type} {order : SpaceOrder ℝ} (hord : ∀ l, (order l).Perm l) (inv : Hp ℝ → Val ℝ → ℝ) {d : Nat} (hd : 2 ≤ d)
    {i₁ i₂ : MainInput S} (hgood : GoodReplications d [i₁, i₂]) (kind : AcqKind) {n nCandidates : Int} (hn0 : 0 ≤ n) (hn : 2 ≤ nCandidates)
    {perAxis : Nat} (hg : 1 ≤ perAxis) (numSplits : Nat) {minPoints : Nat} (hm : 1 ≤ minPoints) {depth : Int} (hdep : 0 < depth) {perPlot : Nat} (hpp : 2 ≤ perPlot) :
    ∃ (fig : BadFigure S) (r₁ r₂ : BadRun S), badNll order inv d kind n nCandidates perAxis numSplits minPoints depth perPlot [i₁, i₂] = .ok fig ∧ fig.runs = [r₁, r₂] ∧
      RunOf i₁ d n perAxis minPoints r₁ ∧ RunOf i₂ d n perAxis minPoints r₂ ∧
      (0 < r₁.nllBase → 0 < r₂.nllBase → ∃ v, fig.delta = .ok v ∧
        (v = (100 * ((r₁.nllBase - r₁.nllRegion) / |r₁.nllBase|) + 100 * ((r₂.nllBase - r₂.nllRegion) / |r₂.nllBase|)) / 2 ↔
          (r₁.nllBase - r₁.nllRegion) / |r₁.nllBase| = (r₂.nllBase - r₂.nllRegion) / |r₂.nllBase|)) := by
  obtain ⟨fig, x, y, s, y', s', h1, h2, -, -, -, -, -, -, -, h3⟩ :=
    C114_figure_partial hord inv hd (reps := [i₁, i₂]) (by simp) hgood kind hn0 hn hg numSplits hm hdep hpp
  obtain ⟨r₁, r₂, hr, m1, m2⟩ : ∃ r₁ r₂, fig.runs = [r₁, r₂] ∧ RunOf i₁ d n perAxis minPoints r₁ ∧ RunOf i₂ d n perAxis minPoints r₂ := by
    rcases hq : fig.runs with _ | ⟨r₁, _ | ⟨r₂, _ | ⟨_, _⟩⟩⟩
    all_goals rw [hq] at h2
    · cases h2
    · cases h2 with | cons a b => cases b
    · cases h2 with | cons a b => cases b with | cons b c => exact ⟨_, _, rfl, a, b⟩
    · cases h2 with | cons a b => cases b with | cons b c => cases c
  refine ⟨fig, r₁, r₂, h1, hr, m1, m2, fun ha hb => ?_⟩
  rw [hr] at h3
  obtain ⟨a, b, c, e, rfl, rfl, rfl, rfl⟩ : ∃ a b c e, a = r₁.nllBase ∧ b = r₂.nllBase ∧ c = r₁.nllRegion ∧ e = r₂.nllRegion := ⟨_, _, _, _, rfl, rfl, rfl, rfl⟩
  refine ⟨_, h3 (by
    intro k hk
    have : k = 0 ∨ k = 1 := by simp at hk; omega
    rcases this with rfl | rfl
    · simpa using ha.ne'
    · simpa using (add_pos ha hb).ne'), ?_⟩
  simp only [List.length_cons, List.length_nil, Finset.sum_range_succ, Finset.sum_range_zero, List.take_succ_cons, List.take_zero, List.map_cons, List.map_nil, List.sum_cons,
    List.sum_nil, add_zero, zero_add]
  generalize r₁.nllBase = a at ha ⊢
  generalize r₂.nllBase = b at hb ⊢
  generalize r₁.nllRegion = c
  generalize r₂.nllRegion = e
  rw [abs_of_pos ha, abs_of_pos hb, abs_of_pos (add_pos ha hb)]
  have : a + b ≠ 0 := (add_pos ha hb).ne'
  rw [div_eq_div_iff ha.ne' hb.ne']
  push_cast
  constructor
  · intro h
    field_simp at h
    nlinarith
  · intro h
    have : (a + b - (c + e)) / (a + b) = (b - e) / b := by
      rw [div_eq_div_iff (add_pos ha hb).ne' hb.ne']
      nlinarith
    rw [this]; ring

/-- base likelihoods 1 and 3, likelihoods 0 and 3 in the region: 62.5 percent are reported, the average is 50 -/
example : (100 * ((1 - 0) / |1| + (1 + 3 - (0 + 3)) / |1 + 3|) / 2 : ℝ) = 62.5 ∧ ((100 * ((1 - 0) / |1|) + 100 * ((3 - 3) / |3|)) / 2 : ℝ) = 50 := by
  constructor <;> norm_num

/-- Without a replication the script raises a ZeroDivisionError. -/
theorem C114_no_replications {S : Type} (order : SpaceOrder ℝ) (inv : Hp ℝ → Val ℝ → ℝ) (d : Nat) (kind : AcqKind) (n nCandidates : Int) (perAxis numSplits minPoints : Nat)
    (depth : Int) (perPlot : Nat) : badNll (S := S) order inv d kind n nCandidates perAxis numSplits minPoints depth perPlot [] = .error .zeroDivision := rfl

/-- The parameters of the script with three replications whose samplers, candidates and samples are all the middle of the space, and length scale 1: on the right the black line
is 25/3 too low. -/
example : ∃ (i : MainInput Unit) (fig : BadFigure Unit) (x y s : List ℝ), badNll id (fun _ _ => 0) 3 (.lcb (1 / 10)) 80 100 20 100 10 3 200 [i, i, i] = .ok fig ∧
    fig.runs.length = 3 ∧ ShowsAverage x y s (fun t => meanRun fig.runs (fun r => regionTruth r.implied t) - 25 / 3) 200 fig.right := by
  obtain ⟨cs, hf, hs, -⟩ := stSpace_ok (order := id) (fun l => List.Perm.refl l) 3
  obtain ⟨dr, hdr⟩ : ∃ dr : Drawer (Config ℝ) Unit, dr = ⟨fun _ n => (List.replicate n (midConfig cs), ()), by simp⟩ := ⟨_, rfl⟩
  have hdrawn : ∀ s n, ∀ c ∈ (dr.draw s n).1, DrawnFrom cs c := by
    intro s n c hc
    rw [hdr] at hc
    rw [List.eq_of_mem_replicate hc]
    exact midConfig_drawn hs
  obtain ⟨i, hi⟩ : ∃ i : MainInput Unit, i = ⟨id, fun _ _ => matern 1, fun _ _ => 0, dr, dr, (), fun _ => .error .value, .absent, .many (List.replicate 1000 (midConfig cs))⟩ :=
    ⟨_, rfl⟩
  have hgood : GoodReplications 3 [i, i, i] := by
    intro j hj
    obtain rfl : j = i := by simpa using hj
    rw [hi]
    exact ⟨_, hf, fun l => List.Perm.refl l, fun _ _ => matern_unit one_pos _, hdrawn, hdrawn, by simp [loadCache],
      ⟨_, rfl, List.ne_nil_of_length_pos (by rw [List.length_replicate]; norm_num), fun c hc => by rw [List.eq_of_mem_replicate hc]; exact midConfig_drawn hs⟩⟩
  obtain ⟨fig, x, y, s, y', s', h1, h2, -, -, -, -, h3, -⟩ := C114_figure_partial (S := Unit) (order := id) (fun l => List.Perm.refl l) (fun _ _ => 0) (d := 3) (by norm_num)
    (by simp) hgood (.lcb (1 / 10)) (n := 80) (nCandidates := 100) (by norm_num) (by norm_num) (perAxis := 20) (by norm_num) 100 (minPoints := 10) (by norm_num)
    (depth := 3) (by norm_num) (perPlot := 200) (by norm_num)
  refine ⟨i, fig, x, y', s', h1, h2.length_eq.symm, ?_⟩
  have e : (25 / 6 * (((3 : Nat) : ℝ) - 1)) = 25 / 3 := by norm_num
  rw [e] at h3
  exact h3

end PyPDP
