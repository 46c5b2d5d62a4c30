/-
C58, C59, C62, C65: leaves and the configurations, the implied space, from_ICE, region PDPs.
-/
import Verif.Props.Conditions
import Verif.Props.Pdp

namespace PyPDP
open Spec

/-! ### C58 -/

section paths
variable {K : Type} [Field K] [LinearOrder K]

/-- whether a curve is on the side of a condition -/
def onSide (cs : ConfigSpace K) (c : Cond K) (cv : Curve K) : Bool :=
  match cs.idx c.hp.name, c.nval, c.lessEqual with
  | .ok f, .flt t, some le => passes f t le cv
  | _, _, _ => false

theorem Spec.Greedy.leaf_curves {cs possible : List (Hp K)} {N minPoints P : Nat} {d : Int} {n : Node K} {L : List (Node K)}
    (h : Greedy cs possible N minPoints P d n L) (hwf : ConfigSpace.WF cs) :
    ∀ m ∈ L, ∃ more, m.conds = n.conds ++ more ∧ (∀ c ∈ more, CondOf possible N c) ∧
      curves m = (curves n).filter fun cv => more.all fun c => onSide cs c cv := by
  induction h with
  | leaf hn _ =>
    intro m hm
    rw [List.mem_singleton.1 hm]
    exact ⟨[], by simp, by simp, by simp⟩
  | @branch n l r Ll Lr i j hp f hn hdep h2 hb hsp _ _ ih1 ih2 =>
    have hf := (isFeature_idx hwf).1 hb.1.feature
    have key : ∀ (ch : Node K) (b : Bool) (Lc : List (Node K)), ch.conds = n.conds ++ [⟨hp, .flt (threshold N j), some b⟩] →
        curves ch = (curves n).filter (passes f (threshold N j) b) →
        (∀ m ∈ Lc, ∃ more, m.conds = ch.conds ++ more ∧ (∀ c ∈ more, CondOf possible N c) ∧
          curves m = (curves ch).filter fun cv => more.all fun c => onSide cs c cv) →
        ∀ m ∈ Lc, ∃ more, m.conds = n.conds ++ more ∧ (∀ c ∈ more, CondOf possible N c) ∧
          curves m = (curves n).filter fun cv => more.all fun c => onSide cs c cv := by
      intro ch b Lc hcd hcv ih m hm
      obtain ⟨more, h1, h2, h3⟩ := ih m hm
      refine ⟨⟨hp, .flt (threshold N j), some b⟩ :: more, by rw [h1, hcd]; simp, ?_, ?_⟩
      · intro c hc
        rcases List.mem_cons.1 hc with rfl | hc
        · exact ⟨List.mem_of_getElem? hb.1.hp_at, ⟨j, hb.1.one_le, hb.1.le, rfl⟩, b, rfl⟩
        · exact h2 c hc
      · rw [h3, hcv, List.filter_filter]
        refine List.filter_congr fun cv _ => ?_
        have : onSide cs (⟨hp, .flt (threshold N j), some b⟩ : Cond K) cv = passes f (threshold N j) b cv := by
          unfold onSide
          dsimp only
          rw [hf]
        rw [List.all_cons, this, Bool.and_comm]
    intro m hm
    rcases List.mem_append.1 hm with hm | hm
    · exact key r false Lr hsp.right_conds hsp.right_curves ih2 m hm
    · exact key l true Ll hsp.left_conds hsp.left_curves ih1 m hm

end paths

/-- `cfg` is the configuration with the normalised vector `r`, for the float hyperparameters of the space. -/
def ConfigOf (space : ConfigSpace ℝ) (r : List ℝ) (cfg : Config ℝ) : Prop :=
  ∀ (f : Nat) hp l u g e, space[f]? = some hp → hp.kind = .float l u g → r[f]? = some e → cfg.get? hp.name = some (.num (interpolate l u g e))

theorem containsAll_all {K : Type} [Field K] [LinearOrder K] [Transc K] {cs : ConfigSpace K} {cfg : Config K} {conds : List (Cond K)} {t : Cond K → Bool}
    (h : ∀ c ∈ conds, isSatisfied cs c cfg = .ok (t c)) : containsAll cs conds cfg = .ok (conds.all t) := by
  induction conds with
  | nil => rfl
  | cons c cs' ih =>
    simp only [containsAll, h c (by simp), Py.ok_bind, List.all_cons]
    cases t c
    · rfl
    · rw [if_pos rfl, ih fun c hc => h c (by simp [hc])]; rfl

theorem threshold_unit {N j : Nat} (hj : j ≤ N) : (0 : ℝ) ≤ threshold N j ∧ threshold N j ≤ (1 : ℝ) := by
  have hN : (0 : ℝ) < (N : ℝ) + 1 := by positivity
  refine ⟨div_nonneg (by positivity) hN.le, ?_⟩
  rw [threshold, div_le_one hN]
  have : (j : ℝ) ≤ N := by exact_mod_cast hj
  linarith

theorem feature_of_idx {K : Type} {space : ConfigSpace K} (hwf : space.WF) {hp : Hp K} (hms : hp ∈ space) {f : Nat} (hf : space.idx hp.name = .ok f) :
    space[f]? = some hp := by
  obtain ⟨q, hq1, hq2⟩ := (isFeature_idx hwf).2 hf
  have a1 := ConfigSpace.get_of_mem hwf hms
  have a2 := ConfigSpace.get_of_mem hwf (List.mem_of_getElem? hq1)
  rw [hq2, a1] at a2
  rw [hq1, Except.ok.inj a2]

/-- In a tree, a curve of the root belongs to exactly those leaves that contain a configuration, if curve and configuration are on the
same side of every threshold. -/
theorem Spec.Greedy.config_curve_of {space possible : List (Hp ℝ)} {N minPoints P : Nat} {d : Int} {n : Node ℝ} {L : List (Node ℝ)}
    (h : Greedy space possible N minPoints P d n L) (hwf : ConfigSpace.WF space) (hpm : ∀ hp ∈ possible, hp ∈ space) (hroot : n.conds = [])
    {cfg : Config ℝ} {curve : Curve ℝ} (hcv : curve ∈ curves n)
    (hagree : ∀ hp ∈ possible, ∀ f, ConfigSpace.idx space hp.name = .ok f → ∀ j, 1 ≤ j → j ≤ N →
      ∃ v w, cfg.get? hp.name = some (.num v) ∧ unscaleFloat (threshold N j) space hp.name = .ok w ∧ (v ≤ w ↔ featureOf f curve ≤ threshold N j)) :
    ∀ m ∈ L, ∃ b, containsAll space m.conds cfg = .ok b ∧ (b = true ↔ curve ∈ curves m) := by
  have hcond : ∀ c : Cond ℝ, CondOf possible N c → isSatisfied space c cfg = .ok (onSide space c curve) := by
    rintro ⟨hp, nv, le⟩ ⟨hm, ⟨j, hj1, hj2, hnv⟩, b, hle⟩
    dsimp only at hm hnv hle
    subst hnv hle
    obtain ⟨f, hf, hfl⟩ := idx_of_mem (hpm hp hm)
    obtain ⟨v, w, hx, hw, hvw⟩ := hagree hp hm f hf j hj1 hj2
    rw [isSatisfied_float hx hw]
    unfold onSide
    dsimp only
    rw [hf]
    dsimp only
    unfold passes
    cases b
    · simp [← not_le, hvw]
    · simp [hvw]
  intro m hm
  obtain ⟨more, e1, e2, e3⟩ := h.leaf_curves hwf m hm
  rw [hroot, List.nil_append] at e1
  refine ⟨_, by rw [e1]; exact containsAll_all fun c hc => hcond c (e2 c hc), ?_⟩
  rw [e3, List.mem_filter]
  exact ⟨fun hb => ⟨hcv, hb⟩, fun hb => hb.2⟩

/-- In a tree over a float space, a curve of the root that starts in the values of the row `r` belongs to exactly those leaves that contain the
configuration of `r`. -/
theorem Spec.Greedy.config_curve {space possible : List (Hp ℝ)} {N minPoints P : Nat} {d : Int} {n : Node ℝ} {L : List (Node ℝ)}
    (h : Greedy space possible N minPoints P d n L) (hwf : ConfigSpace.WF space)
    (hfloat : ∀ hp ∈ space, ∃ l u g, hp.kind = .float l u g ∧ l < u ∧ (g = true → 0 < l)) (hpm : ∀ hp ∈ possible, hp ∈ space) (hroot : n.conds = [])
    {r : List ℝ} (hrl : r.length = space.length) {cfg : Config ℝ} (hcfg : ConfigOf space r cfg) {curve : Curve ℝ} (hcv : curve ∈ curves n)
    (hfeat : ∀ hp ∈ possible, ∀ f e, ConfigSpace.idx space hp.name = .ok f → r[f]? = some e → featureOf f curve = e) :
    ∀ m ∈ L, ∃ b, containsAll space m.conds cfg = .ok b ∧ (b = true ↔ curve ∈ curves m) := by
  refine h.config_curve_of hwf hpm hroot hcv fun hp hm f hf j hj1 hj2 => ?_
  have hms : hp ∈ space := hpm hp hm
  obtain ⟨l, u, g, hk, hlt, hpos⟩ := hfloat hp hms
  have hD : Declares space hp.name l u g := ⟨hwf, ⟨hp, hms, rfl, .inl hk⟩, hlt, hpos⟩
  have hq1 := feature_of_idx hwf hms hf
  have hfl := (List.getElem?_eq_some_iff.1 hq1).1
  have her : r[f]? = some r[f] := List.getElem?_eq_getElem (by omega)
  have ht := threshold_unit hj2
  refine ⟨_, _, hcfg f hp l u g _ hq1 hk her, C01_unscale_is_interpolation hD ht.1 ht.2, ?_⟩
  rw [hfeat hp hm f _ hf her, (interpolate_strictMono hD).le_iff_le]

/-- the numbers of the sample at the hyperparameters that may be split are those of its curve -/
theorem dt_feature {space : ConfigSpace ℝ} (hwf : space.WF) {predict : Predict ℝ} {sel : Selection ℝ}
    {samples : List (List ℝ)} (hrows : ∀ r ∈ samples, r.length = space.length)
    {perAxis numSplits minPoints : Nat} (hg : 1 ≤ perAxis) {notSplittable : Option (Selection ℝ)} {p : DT ℝ}
    (h : dtInit space predict sel samples perAxis numSplits minPoints notSplittable = .ok p)
    (hmem : ∀ hp ∈ p.cfg.selected, hp ∈ space) (hdist : (p.cfg.selected.map Hp.name).Nodup) (hne : p.cfg.selected ≠ [])
    {s : Nat} {r : List ℝ} (hs : samples[s]? = some r) {curve : Curve ℝ} (hcurve : (curves p.root)[s]? = some curve) :
    ∀ hp ∈ p.possible, ∀ f e, space.idx hp.name = .ok f → r[f]? = some e → featureOf f curve = e := by
  obtain ⟨hv, hvc, hlen, hsp⟩ := dt_valid hwf hrows hg h hmem hdist hne
  intro hp hm f e hf he
  obtain ⟨c, ns, i, dd, hc, hns, hcalc, hst, hcfg', rfl⟩ := dtInit_ok h
  dsimp only at *
  obtain ⟨hvc', e2, e3, e4, e5⟩ := algorithmInit_valid hwf hrows hc hne hmem hdist
  obtain ⟨grid, hgr, hgl, hfull⟩ := C40_grid (K := ℝ) (List.length_pos_iff.2 hne) c.perAxis
  have hgl' : grid.length = c.numGrid := by rw [hgl, hvc'.num_grid]
  rw [calcNow_init c hgr] at hcalc
  obtain ⟨hx, hat⟩ := C41_x_ice hvc' hgl' (fun t ht => ((hfull.2 t).1 ht).1) hcalc
  have hg0 : 0 < grid.length := by rw [hgl, e4]; exact Nat.one_le_pow _ _ hg
  have hnf : ∀ hp' ∈ c.selected, ¬ IsFeature c.space hp' f := by
    rintro hp' hp'm ⟨q, hq1, hq2⟩
    unfold possibleSplits at hm
    rw [List.mem_filter] at hm
    simp only [decide_eq_true_eq] at hm
    obtain ⟨q', hq1', hq2'⟩ := (isFeature_idx hwf).2 hf
    rw [e2, hq1'] at hq1
    obtain rfl := Option.some.inj hq1
    exact hm.2.1 (List.mem_map.2 ⟨hp', hp'm, by rw [← hq2, hq2']⟩)
  have h1 := (hat s r 0 grid[0] (by rw [e3]; exact hs) (List.getElem?_eq_getElem hg0)).2 f hnf
  rw [he] at h1
  have hx1 : dd.x[s]? = some curve.1 := by
    have : ((curves (⟨0, dd.x, dd.y, dd.v, []⟩ : Node ℝ)).map Prod.fst)[s]? = some curve.1 := by rw [List.getElem?_map, hcurve]; rfl
    rw [hv.shape.map_x] at this
    exact this
  rw [at3, hx1, Option.bind_some] at h1
  unfold featureOf
  rw [Option.bind_eq_some_iff] at h1
  obtain ⟨row, hrow, hfr⟩ := h1
  simp only [List.getD_eq_getElem?_getD, hrow, hfr, Option.getD_some]

/-- **C58** For a space of float hyperparameters: the configuration of sample number `s` is contained in a leaf exactly if its curve
is one of the leaf's curves; and this is so for exactly one leaf. -/
theorem C58_curve_in_its_leaf {space : ConfigSpace ℝ} (hwf : space.WF)
    (hfloat : ∀ hp ∈ space, ∃ l u g, hp.kind = .float l u g ∧ l < u ∧ (g = true → 0 < l)) {predict : Predict ℝ} {sel : Selection ℝ}
    {samples : List (List ℝ)} (hrows : ∀ r ∈ samples, r.length = space.length)
    {perAxis numSplits minPoints : Nat} (hg : 1 ≤ perAxis) {notSplittable : Option (Selection ℝ)} {p : DT ℝ}
    (h : dtInit space predict sel samples perAxis numSplits minPoints notSplittable = .ok p)
    (hmem : ∀ hp ∈ p.cfg.selected, hp ∈ space) (hdist : (p.cfg.selected.map Hp.name).Nodup) (hne : p.cfg.selected ≠ [])
    {d : Int} (hd : 0 < d) {s : Nat} {r : List ℝ} (hs : samples[s]? = some r) {cfg : Config ℝ} (hcfg : ConfigOf space r cfg) :
    ∃ leaves curve i, (dtPartition p d).2 = .ok leaves ∧ (curves p.root)[s]? = some curve ∧ i < leaves.length ∧
      ∀ (j : Nat) m, leaves[j]? = some m →
        (curve ∈ curves m ↔ j = i) ∧ containsAll space m.conds cfg = .ok (decide (j = i)) := by
  obtain ⟨hv, hvc, hlen, hsp⟩ := dt_valid hwf hrows hg h hmem hdist hne
  have hdec : ∀ hp ∈ space, ∃ l u g, hp.kind = .float l u g ∧ Declares space hp.name l u g := by
    intro hp hm
    obtain ⟨l, u, g, hk, hlt, hpos⟩ := hfloat hp hm
    exact ⟨l, u, g, hk, hwf, ⟨hp, hm, rfl, .inl hk⟩, hlt, hpos⟩
  have hrl := hrows r (List.mem_of_getElem? hs)
  -- the first row of curve `s`
  obtain ⟨curve, hcurve⟩ : ∃ c, (curves p.root)[s]? = some c :=
    ⟨_, List.getElem?_eq_getElem (by rw [hlen]; exact (List.getElem?_eq_some_iff.1 hs).1)⟩
  have hfeat : ∀ hp ∈ p.possible, ∀ f e, space.idx hp.name = .ok f → r[f]? = some e → featureOf f curve = e :=
    dt_feature hwf hrows hg h hmem hdist hne hs hcurve
  obtain ⟨L, h1, -, h3, -⟩ := partition_eq hv hd
  have hnum : ∀ hp ∈ p.possible, hp.isNumerical = true := by
    intro hp hm
    obtain ⟨l, u, g, hk, _⟩ := hdec hp (hsp ▸ hv.possible_mem hp hm)
    simp [Hp.isNumerical, Hp.numerical?, hk]
  have hnums : ∀ hp ∈ p.possible, ∃ x, cfg.get? hp.name = some (.num x) := by
    intro hp hm
    have hms : hp ∈ space := hsp ▸ hv.possible_mem hp hm
    obtain ⟨l, u, g, hk, _⟩ := hdec hp hms
    obtain ⟨f, hf⟩ := List.mem_iff_getElem?.1 hms
    have hfl := (List.getElem?_eq_some_iff.1 hf).1
    exact ⟨_, hcfg f hp l u g _ hf hk (List.getElem?_eq_getElem (by omega))⟩
  obtain ⟨L', i, leaf, h1', hleaf, hcont, -⟩ := C57_exactly_one_leaf hv hnum hd hnums
  rw [h1] at h1'
  obtain rfl := Except.ok.inj h1'
  refine ⟨L, curve, i, by rw [h1], hcurve, (List.getElem?_eq_some_iff.1 hleaf).1, fun j m hm => ?_⟩
  have hc := hcont j m hm
  rw [hsp] at hc
  refine ⟨?_, hc⟩
  obtain ⟨b, hb1, hb2⟩ := h3.config_curve (hsp ▸ hwf) (hsp ▸ hfloat) hv.possible_mem hv.conds (r := r) (hsp ▸ hrl) (cfg := cfg) (hsp ▸ hcfg)
    (List.mem_of_getElem? hcurve) (hsp ▸ hfeat) m (List.mem_of_getElem? hm)
  rw [hsp, hc] at hb1
  rw [← hb2, ← Except.ok.inj hb1]
  simp

end PyPDP
