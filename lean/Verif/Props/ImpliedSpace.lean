/-
C59: the config space implied by the conditions of a region.
-/
import Verif.Props.Regions
import Mathlib.Order.Bounds.Basic

namespace PyPDP
open Spec

/-- All hyperparameters are numerical, with bounds that ConfigSpace accepts. -/
def NumericalSpace (space : ConfigSpace ℝ) : Prop :=
  ∀ hp ∈ space, ∃ l u g, hp.numerical? = some (l, u, g) ∧ l < u ∧ (g = true → 0 < l)

/-- The condition `c` cuts the axis `hp` at the natural value `w` (`le`: it keeps what is `≤ w`; otherwise what is `> w`). -/
def CutAt (space : ConfigSpace ℝ) (c : Cond ℝ) (hp : Hp ℝ) (le : Bool) (w : ℝ) : Prop :=
  c.hp.name = hp.name ∧ c.lessEqual = some le ∧ hp ∈ space ∧
    ∃ t l u g, c.nval = .flt t ∧ hp.numerical? = some (l, u, g) ∧ w = interpolate l u g t

/-- conditions as a tree makes them: a normalised float threshold on a hyperparameter of the space -/
def FloatConds (space : ConfigSpace ℝ) (conds : List (Cond ℝ)) : Prop :=
  ∀ c ∈ conds, c.hp ∈ space ∧ (∃ t, c.nval = .flt t ∧ 0 ≤ t ∧ t ≤ 1) ∧ ∃ b, c.lessEqual = some b

theorem declares_of_numerical {space : ConfigSpace ℝ} (hwf : space.WF) {hp : Hp ℝ} (hm : hp ∈ space) {l u : ℝ} {g : Bool}
    (h : hp.numerical? = some (l, u, g)) (hlt : l < u) (hpos : g = true → 0 < l) : Declares space hp.name l u g := by
  refine ⟨hwf, ⟨hp, hm, rfl, ?_⟩, hlt, hpos⟩
  unfold Hp.numerical? at h
  split at h
  · obtain ⟨rfl, rfl, rfl⟩ : _ ∧ _ ∧ _ := by simpa using h
    left; assumption
  · obtain ⟨rfl, rfl, rfl⟩ : _ ∧ _ ∧ _ := by simpa using h
    right; assumption
  · cases h

theorem floatCopies_ok {K : Type} {space : ConfigSpace K} (h : ∀ hp ∈ space, ∃ l u g, hp.numerical? = some (l, u, g)) :
    ∃ out, floatCopies space = .ok out ∧ out.length = List.length space ∧
      ∀ (f : Nat) hp l u g, space[f]? = some hp → hp.numerical? = some (l, u, g) → out[f]? = some ⟨hp.name, .float l u g⟩ := by
  induction space with
  | nil => exact ⟨[], rfl, rfl, by simp⟩
  | cons hp rest ih =>
    obtain ⟨out, h1, h2, h3⟩ := ih fun q hq => h q (by simp [hq])
    obtain ⟨l, u, g, hb⟩ := h hp (by simp)
    refine ⟨⟨hp.name, .float l u g⟩ :: out, ?_, by simp [h2], ?_⟩
    · simp only [floatCopies, hb, h1, Py.ok_bind, Py.pure_eq]
    · intro f q l' u' g' hf hq
      cases f with
      | zero =>
        obtain rfl : hp = q := by simpa using hf
        rw [hb] at hq
        obtain ⟨rfl, rfl, rfl⟩ : l = l' ∧ u = u' ∧ g = g' := by simpa using hq
        rfl
      | succ f => exact h3 f q l' u' g' (by simpa using hf) hq

/-- **C59** `implied_config_space` keeps names, order and log flags; the upper bound is the least of the old upper bound and the `<=`
thresholds, the lower bound the greatest of the old lower bound and the `>` thresholds. -/
theorem C59_box {space : ConfigSpace ℝ} (hwf : space.WF) (hnum : NumericalSpace space) {conds : List (Cond ℝ)} (hc : FloatConds space conds) :
    ∃ out, regionImplied space conds = .ok out ∧ out.length = List.length space ∧
      ∀ (f : Nat) hp l u g, space[f]? = some hp → hp.numerical? = some (l, u, g) →
        ∃ l' u', out[f]? = some ⟨hp.name, .float l' u' g⟩ ∧
          IsLeast (insert u {w | ∃ c ∈ conds, CutAt space c hp true w}) u' ∧
          IsGreatest (insert l {w | ∃ c ∈ conds, CutAt space c hp false w}) l' := by
  obtain ⟨dic, hd1, hd2, hd3⟩ := floatCopies_ok (space := space) fun hp hm => by
    obtain ⟨l, u, g, h, _⟩ := hnum hp hm; exact ⟨l, u, g, h⟩
  unfold regionImplied
  rw [hd1, Py.ok_bind]
  induction conds using List.reverseRecOn with
  | nil =>
    refine ⟨dic, rfl, hd2, fun f hp l u g hf hb => ⟨l, u, hd3 f hp l u g hf hb, ?_, ?_⟩⟩ <;> simp
  | append_singleton cs c ih =>
    obtain ⟨out, h1, h2, h3⟩ := ih fun c' hc' => hc c' (by simp [hc'])
    obtain ⟨hcm, ⟨t, hnv, ht0, ht1⟩, b, hle⟩ := hc c (by simp)
    obtain ⟨lc, uc, gc, hbc, hltc, hposc⟩ := hnum c.hp hcm
    have hval : condValue space c = .ok (.flt (interpolate lc uc gc t)) := by
      simp only [condValue, hnv, C01_unscale_is_interpolation (declares_of_numerical hwf hcm hbc hltc hposc) ht0 ht1]; rfl
    have hget : ∃ q, out.get c.hp.name = .ok q := by
      obtain ⟨f, hf⟩ := List.mem_iff_getElem?.1 hcm
      obtain ⟨l', u', ho, -⟩ := h3 f c.hp lc uc gc hf hbc
      have hm := List.mem_of_getElem? ho
      unfold ConfigSpace.get
      cases hfind : out.find? (fun hp => hp.name == c.hp.name) with
      | some q => exact ⟨q, rfl⟩
      | none =>
        have := List.find?_eq_none.1 hfind _ hm
        simp at this
    obtain ⟨q, hq⟩ := hget
    refine ⟨modifyHp (tighten c.lessEqual (interpolate lc uc gc t)) c.hp.name out, ?_, by simp [modifyHp, h2], ?_⟩
    · rw [List.foldlM_append, h1, Py.ok_bind]
      simp only [List.foldlM_cons, List.foldlM_nil, applyCond, hq, hval, Py.ok_bind]
      rfl
    · intro f hp l u g hf hb
      obtain ⟨l', u', ho, hu, hl⟩ := h3 f hp l u g hf hb
      have hm := List.mem_of_getElem? hf
      have hcut : ∀ le w, CutAt space c hp le w ↔ (hp = c.hp ∧ le = b ∧ w = interpolate lc uc gc t) := by
        intro le w
        constructor
        · rintro ⟨e1, e2, -, t', l1, u1, g1, e3, e4, e5⟩
          have a1 := ConfigSpace.get_of_mem hwf hm
          rw [← e1, ConfigSpace.get_of_mem hwf hcm] at a1
          obtain rfl := Except.ok.inj a1
          rw [hbc] at e4
          rw [hnv] at e3
          rw [hle] at e2
          simp only [Option.some.injEq, Prod.mk.injEq, NVal.flt.injEq] at e2 e3 e4
          obtain ⟨rfl, rfl, rfl⟩ := e4
          exact ⟨rfl, e2.symm, by rw [e5, e3]⟩
        · rintro ⟨rfl, rfl, rfl⟩
          exact ⟨rfl, hle, hcm, t, lc, uc, gc, hnv, hbc, rfl⟩
      have hset : ∀ le, {w | ∃ c' ∈ cs ++ [c], CutAt space c' hp le w} =
          {w | ∃ c' ∈ cs, CutAt space c' hp le w} ∪ {w | hp = c.hp ∧ le = b ∧ w = interpolate lc uc gc t} := by
        intro le
        ext w
        simp only [Set.mem_ofPred_eq, Set.mem_union, List.mem_append, List.mem_singleton, ← hcut]
        constructor
        · rintro ⟨c', h | rfl, hw⟩
          · exact .inl ⟨c', h, hw⟩
          · exact .inr hw
        · rintro (⟨c', h, hw⟩ | hw)
          · exact ⟨c', .inl h, hw⟩
          · exact ⟨c, .inr rfl, hw⟩
      have hout : (modifyHp (tighten c.lessEqual (interpolate lc uc gc t)) c.hp.name out)[f]? =
          some (if hp.name = c.hp.name then tighten (some b) (interpolate lc uc gc t) ⟨hp.name, .float l' u' g⟩ else ⟨hp.name, .float l' u' g⟩) := by
        unfold modifyHp
        rw [List.getElem?_map, ho, hle]; rfl
      rw [hout, hset, hset]
      by_cases hn : hp.name = c.hp.name
      · have hpe : hp = c.hp := by
          have a1 := ConfigSpace.get_of_mem hwf hm
          rw [hn, ConfigSpace.get_of_mem hwf hcm] at a1
          exact (Except.ok.inj a1).symm
        rw [if_pos hn]
        generalize interpolate lc uc gc t = w at *
        have e : ∀ (S : Set ℝ) (a : ℝ), insert a (S ∪ {w' | hp = c.hp ∧ b = b ∧ w' = w}) = insert w (insert a S) := by
          intro S a; ext z; simp [hpe]; tauto
        have e' : ∀ (S : Set ℝ) (a : ℝ) (le : Bool), le ≠ b → insert a (S ∪ {w' | hp = c.hp ∧ le = b ∧ w' = w}) = insert a S := by
          intro S a le h; ext z; simp [h]
        cases b with
        | true =>
          rw [e, e' _ _ _ (by simp)]
          refine ⟨l', min w u', ?_, hu.insert w, hl⟩
          simp only [tighten, if_pos]
          split
          · rename_i h; rw [min_eq_left h.le]
          · rename_i h; rw [min_eq_right (not_lt.1 h)]
        | false =>
          rw [e, e' _ _ _ (by simp)]
          refine ⟨max w l', u', ?_, hu, hl.insert w⟩
          simp only [tighten]
          rw [if_neg (by simp)]
          split
          · rename_i h; rw [max_eq_left h.le]
          · rename_i h; rw [max_eq_right (not_lt.1 h)]
      · rw [if_neg hn]
        have e' : ∀ (S : Set ℝ) (a : ℝ) (le : Bool), insert a (S ∪ {w' | hp = c.hp ∧ le = b ∧ w' = interpolate lc uc gc t}) = insert a S := by
          intro S a le; ext z; simp [show hp ≠ c.hp from fun h => hn (by rw [h])]
        rw [e', e']
        exact ⟨l', u', rfl, hu, hl⟩

/-- **C59** a configuration of the space is in the region exactly if it lies in the implied box and strictly above every `>` threshold. -/
theorem C59_contains_iff {space : ConfigSpace ℝ} (hwf : space.WF) (hnum : NumericalSpace space) {conds : List (Cond ℝ)}
    (hc : FloatConds space conds) {cfg : Config ℝ}
    (hcfg : ∀ hp ∈ space, ∃ x l u g, cfg.get? hp.name = some (.num x) ∧ hp.numerical? = some (l, u, g) ∧ l ≤ x ∧ x ≤ u) :
    ∃ out b, regionImplied space conds = .ok out ∧ containsAll space conds cfg = .ok b ∧
      (b = true ↔
        (∀ hp' ∈ out, ∃ x l' u' g, hp'.kind = .float l' u' g ∧ cfg.get? hp'.name = some (.num x) ∧ l' ≤ x ∧ x ≤ u') ∧
        ∀ c ∈ conds, ∀ hp w x, CutAt space c hp false w → cfg.get? hp.name = some (.num x) → w < x) := by
  obtain ⟨out, h1, h2, h3⟩ := C59_box hwf hnum hc
  -- each condition, by its cut
  have hsat : ∀ c ∈ conds, ∃ b w x, CutAt space c c.hp b w ∧ cfg.get? c.hp.name = some (.num x) ∧
      isSatisfied space c cfg = .ok (if b then decide (x ≤ w) else decide (w < x)) := by
    intro c hcm
    obtain ⟨hm, ⟨t, hnv, ht0, ht1⟩, b, hle⟩ := hc c hcm
    obtain ⟨l, u, g, hb, hlt, hpos⟩ := hnum c.hp hm
    obtain ⟨x, -, -, -, hx, -⟩ := hcfg c.hp hm
    refine ⟨b, _, x, ⟨rfl, hle, hm, t, l, u, g, hnv, hb, rfl⟩, hx, ?_⟩
    obtain ⟨hp, nv, le⟩ := c
    dsimp only at *
    subst hnv hle
    rw [isSatisfied_float hx (C01_unscale_is_interpolation (declares_of_numerical hwf hm hb hlt hpos) ht0 ht1)]
    cases b <;> simp
  classical
  have hall := containsAll_all (cs := space) (cfg := cfg) (conds := conds) (t := fun c => decide (isSatisfied space c cfg = .ok true)) (by
    intro c hcm
    obtain ⟨b, w, x, -, -, h⟩ := hsat c hcm
    rw [h]
    generalize (if b = true then decide (x ≤ w) else decide (w < x)) = z
    cases z <;> simp)
  refine ⟨out, _, h1, hall, ?_⟩
  rw [List.all_eq_true]
  simp only [decide_eq_true_eq]
  -- cuts of the same condition on hyperparameters of one name agree
  have hcut : ∀ c hp b b' w w' x x', CutAt space c c.hp b w → CutAt space c hp b' w' → cfg.get? c.hp.name = some (.num x) →
      cfg.get? hp.name = some (.num x') → b = b' ∧ w = w' ∧ x = x' := by
    rintro c hp b b' w w' x x' ⟨-, e2, hm, t, l, u, g, e3, e4, rfl⟩ ⟨n1, n2, hm', t', l', u', g', n3, n4, rfl⟩ hx hx'
    have a1 := ConfigSpace.get_of_mem hwf hm
    rw [n1, ConfigSpace.get_of_mem hwf hm'] at a1
    obtain rfl := Except.ok.inj a1
    rw [e2] at n2; rw [e3] at n3; rw [e4] at n4; rw [hx] at hx'
    simp only [Option.some.injEq, Prod.mk.injEq, NVal.flt.injEq, Val.num.injEq] at n2 n3 n4 hx'
    obtain ⟨rfl, rfl, rfl⟩ := n4
    exact ⟨n2, by rw [n3], hx'⟩
  constructor
  · intro h
    constructor
    · intro hp' hm'
      obtain ⟨f, hf⟩ := List.mem_iff_getElem?.1 hm'
      have hfl : f < List.length space := by rw [← h2]; exact (List.getElem?_eq_some_iff.1 hf).1
      have hsf : space[f]? = some (space[f]'hfl) := List.getElem?_eq_getElem hfl
      have hms := List.mem_of_getElem? hsf
      obtain ⟨x, l, u, g, hx, hb, hlx, hxu⟩ := hcfg _ hms
      obtain ⟨l', u', ho, hu, hl⟩ := h3 f _ l u g hsf hb
      rw [hf] at ho
      obtain rfl := Option.some.inj ho
      refine ⟨x, l', u', g, rfl, hx, ?_, ?_⟩
      · rcases hl.1 with rfl | ⟨c, hcm, hcu⟩
        · exact hlx
        · obtain ⟨b, w, x', hcc, hx', hs⟩ := hsat c hcm
          obtain ⟨rfl, rfl, rfl⟩ := hcut c _ b false w l' x' x hcc hcu hx' hx
          rw [h c hcm] at hs
          simpa using (le_of_lt (by simpa using Except.ok.inj hs))
      · rcases hu.1 with rfl | ⟨c, hcm, hcu⟩
        · exact hxu
        · obtain ⟨b, w, x', hcc, hx', hs⟩ := hsat c hcm
          obtain ⟨rfl, rfl, rfl⟩ := hcut c _ b true w u' x' x hcc hcu hx' hx
          rw [h c hcm] at hs
          simpa using Except.ok.inj hs
    · intro c hcm hp w x hcu hx
      obtain ⟨b, w', x', hcc, hx', hs⟩ := hsat c hcm
      obtain ⟨rfl, rfl, rfl⟩ := hcut c _ b false w' w x' x hcc hcu hx' hx
      rw [h c hcm] at hs
      simpa using Except.ok.inj hs
  · rintro ⟨hbox, hgt⟩ c hcm
    obtain ⟨b, w, x, hcc, hx, hs⟩ := hsat c hcm
    rw [hs]
    cases b with
    | false => simp [hgt c hcm c.hp w x hcc hx]
    | true =>
      have hms := (hc c hcm).1
      obtain ⟨f, hf⟩ := List.mem_iff_getElem?.1 hms
      obtain ⟨l, u, g, hb, -⟩ := hnum c.hp hms
      obtain ⟨l', u', ho, hu, hl⟩ := h3 f c.hp l u g hf hb
      obtain ⟨x', l1, u1, g1, hk, hx', -, hxu⟩ := hbox _ (List.mem_of_getElem? ho)
      dsimp only at hk hx'
      rw [hx] at hx'
      simp only [HpKind.float.injEq, Option.some.injEq, Val.num.injEq] at hk hx'
      obtain ⟨rfl, rfl, rfl⟩ := hk
      subst hx'
      have : u' ≤ w := hu.2 (.inr ⟨c, hcm, hcc⟩)
      simp [hxu.trans this]

/-- the leaves of a tree have such conditions, so `C59_box` and `C59_contains_iff` apply to them -/
theorem C59_leaves {P : Nat} {p : DT ℝ} (hv : ValidDT P p) {d : Int} (hd : 0 < d) :
    ∃ leaves, (dtPartition p d).2 = .ok leaves ∧ ∀ m ∈ leaves, FloatConds p.cfg.space m.conds := by
  obtain ⟨L, h1, -, h3, -⟩ := partition_eq hv hd
  refine ⟨L, by rw [h1], fun m hm c hc => ?_⟩
  obtain ⟨more, e1, e2, -⟩ := h3.leaf_curves hv.wf m hm
  rw [hv.conds, List.nil_append] at e1
  obtain ⟨hpm, ⟨j, -, hj2, hnv⟩, hb⟩ := e2 c (e1 ▸ hc)
  have hN : (0 : ℝ) < (p.numSplits : ℝ) + 1 := by positivity
  refine ⟨hv.possible_mem _ hpm, ⟨_, hnv, div_nonneg (by positivity) hN.le, ?_⟩, hb⟩
  rw [threshold, div_le_one hN]
  have : (j : ℝ) ≤ p.numSplits := by exact_mod_cast hj2
  linarith

/-- the bounds of a hyperparameter belong to its name -/
theorem cut_unique {space : ConfigSpace ℝ} {hp : Hp ℝ} {l u : ℝ} {g : Bool} (hb : hp.numerical? = some (l, u, g))
    {c : Cond ℝ} {le : Bool} {w : ℝ} (h : CutAt space c hp le w) {t : ℝ} (ht : c.nval = .flt t) :
    c.hp.name = hp.name ∧ c.lessEqual = some le ∧ w = interpolate l u g t := by
  obtain ⟨h1, h2, -, t', l', u', g', e1, e2, e3⟩ := h
  rw [ht] at e1
  cases e1
  rw [hb] at e2
  cases e2
  exact ⟨h1, h2, e3⟩

/-- **C59** With `min_points_per_node >= 1` the implied space of every leaf is a proper box inside the space: on every axis `lower < upper`, and
axes that are not split keep their bounds. -/
theorem C59_proper_box {P : Nat} {p : DT ℝ} (hv : ValidDT P p) (hnum : NumericalSpace p.cfg.space) (hmin : 1 ≤ p.minPoints) {d : Int} (hd : 0 < d) :
    ∃ leaves, (dtPartition p d).2 = .ok leaves ∧ ∀ m ∈ leaves, ∃ out, regionImplied p.cfg.space m.conds = .ok out ∧
      out.map Hp.name = p.cfg.space.map Hp.name ∧ out.length = p.cfg.space.length ∧
      ∀ (f : Nat) hp l u g, p.cfg.space[f]? = some hp → hp.numerical? = some (l, u, g) →
        ∃ l' u', out[f]? = some ⟨hp.name, .float l' u' g⟩ ∧ l ≤ l' ∧ l' < u' ∧ u' ≤ u ∧ (hp.name ∉ p.possible.map Hp.name → l' = l ∧ u' = u) := by
  obtain ⟨L, h1, -, h3, -⟩ := partition_eq hv hd
  obtain ⟨L', f1, f2⟩ := C59_leaves hv hd
  have hL : (dtPartition p d).2 = .ok L := by rw [h1]
  rw [hL] at f1
  obtain rfl := Except.ok.inj f1
  refine ⟨L, hL, fun m hm => ?_⟩
  obtain ⟨out, k1, k2, k3⟩ := C59_box hv.wf hnum (f2 m hm)
  refine ⟨out, k1, ?_, k2, ?_⟩
  · refine List.ext_getElem (by simpa using k2) fun f h1 h2 => ?_
    have hf : f < List.length p.cfg.space := by simpa using h2
    obtain ⟨l, u, g, hk, -⟩ := hnum _ (List.getElem_mem hf)
    obtain ⟨l', u', ho, -⟩ := k3 f _ l u g (List.getElem?_eq_getElem hf) hk
    rw [List.getElem_map, List.getElem_map]
    rw [List.getElem?_eq_getElem (by simpa using h1)] at ho
    rw [Option.some.inj ho]
  · intro f hp l u g hf hb
    have hmem := List.mem_of_getElem? hf
    obtain ⟨l', u', ho, hu, hl⟩ := k3 f hp l u g hf hb
    obtain ⟨l0, u0, g0, hb0, hlt, hpos⟩ := hnum hp hmem
    rw [hb] at hb0
    cases hb0
    have hdec := declares_of_numerical hv.wf hmem hb hlt hpos
    have hmono := interpolate_strictMono hdec
    obtain ⟨more, e1, e2, e3⟩ := h3.leaf_curves hv.wf m hm
    rw [hv.conds, List.nil_append] at e1
    -- every cut is at a threshold strictly between 0 and 1
    have hcut : ∀ c ∈ m.conds, ∀ le w, CutAt p.cfg.space c hp le w →
        ∃ t, 0 < t ∧ t < 1 ∧ w = interpolate l u g t ∧ hp.name ∈ p.possible.map Hp.name ∧ ∀ cv ∈ curves m, passes f t le cv = true := by
      intro c hc le w hw
      obtain ⟨hpm, ⟨j, hj1, hj2, hnv⟩, -⟩ := e2 c (e1 ▸ hc)
      obtain ⟨a1, a2, a3⟩ := cut_unique hb hw hnv
      have hN : (0 : ℝ) < (p.numSplits : ℝ) + 1 := by positivity
      have j1 : (1 : ℝ) ≤ j := by exact_mod_cast hj1
      have j2 : (j : ℝ) ≤ p.numSplits := by exact_mod_cast hj2
      refine ⟨threshold p.numSplits j, div_pos (by linarith) hN, (div_lt_one hN).2 (by linarith), a3, a1 ▸ List.mem_map_of_mem hpm, fun cv hcv => ?_⟩
      rw [e3] at hcv
      have := List.all_eq_true.1 (List.mem_filter.1 hcv).2 c (e1 ▸ hc)
      unfold onSide at this
      rw [(isFeature_idx hv.wf).1 ⟨hp, hf, a1.symm⟩, hnv, a2] at this
      exact this
    refine ⟨l', u', ho, hl.2 (Set.mem_insert _ _), ?_, hu.2 (Set.mem_insert _ _), fun hns => ⟨?_, ?_⟩⟩
    · rcases hl.1 with rfl | ⟨c, hc, hw⟩
      · rcases hu.1 with rfl | ⟨c', hc', hw'⟩
        · exact hlt
        · obtain ⟨t, ht, -, rfl, -⟩ := hcut c' hc' true u' hw'
          have := hmono ht
          rwa [interpolate_zero hdec] at this
      · obtain ⟨t, -, ht, rfl, -, hs⟩ := hcut c hc false l' hw
        rcases hu.1 with rfl | ⟨c', hc', hw'⟩
        · have := hmono ht
          rwa [interpolate_one hdec] at this
        · obtain ⟨t', -, -, rfl, -, hs'⟩ := hcut c' hc' true u' hw'
          apply hmono
          have hne : curves m ≠ [] := by
            have hr : m ≠ p.root := by
              rintro rfl
              rw [hv.conds] at hc
              cases hc
            have := (C52_min_points hv hL hm hr).1
            intro h
            rw [h] at this
            simp at this
            omega
          obtain ⟨cv, hcv⟩ := List.exists_mem_of_ne_nil _ hne
          have a := hs cv hcv
          have b := hs' cv hcv
          simp only [passes, Bool.false_eq_true, if_false, if_true, decide_eq_true_eq] at a b
          exact a.trans_le b
    · rcases hl.1 with h | ⟨c, hc, hw⟩
      · exact h
      · obtain ⟨-, -, -, -, h, -⟩ := hcut c hc _ _ hw
        exact absurd h hns
    · rcases hu.1 with h | ⟨c, hc, hw⟩
      · exact h
      · obtain ⟨-, -, -, -, h, -⟩ := hcut c hc _ _ hw
        exact absurd h hns

/-- **C59** (float hyperparameters only) without conditions the implied space is the original one. Missing: integer hyperparameters, see
`C59_integer_counterexample`. -/
theorem C59_no_conditions_partial {K : Type} [Field K] [LinearOrder K] [Transc K] {space : ConfigSpace K}
    (h : ∀ hp ∈ space, ∃ l u g, hp.kind = .float l u g) : regionImplied space [] = .ok space := by
  have : floatCopies space = .ok space := by
    induction space with
    | nil => rfl
    | cons hp rest ih =>
      obtain ⟨l, u, g, hk⟩ := h hp (by simp)
      simp only [floatCopies, Hp.numerical?, hk, ih fun q hq => h q (by simp [hq]), Py.ok_bind, Py.pure_eq]
      rw [← hk]
  unfold regionImplied
  rw [this]; rfl

/-- The full statement is false: every integer hyperparameter becomes a float range, so with one in the space the implied space of a
region without conditions is never the original one. -/
theorem C59_integer_counterexample {K : Type} [Field K] [LinearOrder K] [Transc K] {space : ConfigSpace K} {hp : Hp K} (hm : hp ∈ space) {l u : K} {g : Bool}
    (hk : hp.kind = .integer l u g) : regionImplied space [] ≠ .ok space := by
  intro h
  have h : floatCopies space = .ok space := by
    unfold regionImplied at h
    obtain ⟨d, hd, h⟩ := Py.bind_eq_ok.1 h
    obtain rfl := Except.ok.inj h
    exact hd
  have key : ∀ (s out : ConfigSpace K), floatCopies s = .ok out → ∀ q ∈ out, ∃ l u g, q.kind = .float l u g := by
    intro s
    induction s with
    | nil => intro out ho; obtain rfl := Except.ok.inj ho; simp
    | cons a rest ih =>
      intro out ho
      unfold floatCopies at ho
      split at ho
      · cases ho
      · obtain ⟨r, hr, ho⟩ := Py.bind_eq_ok.1 ho
        obtain rfl := Except.ok.inj ho
        intro q hq
        rcases List.mem_cons.1 hq with rfl | hq
        · exact ⟨_, _, _, rfl⟩
        · exact ih r hr q hq
  obtain ⟨l', u', g', hq⟩ := key _ _ h hp hm
  rw [hk] at hq
  cases hq

/-- **C59** `implied_config_space` raises for every space with a hyperparameter that is not numerical. -/
theorem C59_not_numerical {K : Type} [Field K] [LinearOrder K] [Transc K] {space : ConfigSpace K} {hp : Hp K} (hm : hp ∈ space)
    (hn : hp.isNumerical = false) (conds : List (Cond K)) : regionImplied space conds = .error .notImplemented := by
  have : floatCopies space = .error .notImplemented := by
    induction space with
    | nil => cases hm
    | cons a rest ih =>
      unfold floatCopies
      split
      · rfl
      · rename_i b hb
        rcases List.mem_cons.1 hm with rfl | hm
        · simp [Hp.isNumerical, hb] at hn
        · rw [ih hm]; rfl
  unfold regionImplied
  rw [this]; rfl

section concrete
local instance : Transc ℚ := ⟨id, id⟩

/-- x1 in [-5, 5], `> 1/4`, then `<= 3/4`, then the weaker `<= 7/8`: the box is [-5/2, 5/2] -/
example : regionImplied [⟨"x1", .float (-5 : ℚ) 5 false⟩, ⟨"x2", .float 0 1 false⟩]
    [⟨⟨"x1", .float (-5) 5 false⟩, .flt (1/4), some false⟩, ⟨⟨"x1", .float (-5) 5 false⟩, .flt (3/4), some true⟩,
     ⟨⟨"x1", .float (-5) 5 false⟩, .flt (7/8), some true⟩] =
    .ok [⟨"x1", .float (-5/2) (5/2) false⟩, ⟨"x2", .float 0 1 false⟩] := by decide +kernel

/-- an integer hyperparameter becomes a float range -/
example : regionImplied [⟨"n", .integer (1 : ℚ) 9 false⟩] [] = .ok [⟨"n", .float 1 9 false⟩] := by decide +kernel

/-- curve 0 of `exDt` (x1 = 1/10 normalised, -4 natural) lies in the second leaf, which contains its configuration -/
example : (exDt.bind fun p => (dtPartition p 1).2).bind
    (fun L => L.mapM fun m => containsAll [⟨"x1", .float (-5) 5 false⟩, ⟨"x2", .float 0 1 false⟩] m.conds
      ⟨[1/10, 0], [("x1", .num (-4)), ("x2", .num 0)]⟩) = .ok [false, true] := by decide +kernel

end concrete

end PyPDP
