/-
C90: plot_incumbent_cs of the tree partitioner. C91: plot_incumbent_regions of the forest partitioner.
-/
import Verif.Props.ImpliedSpace
import Verif.Props.ForestRegion
import Verif.Props.SpacePlots
import Verif.Props.FamilyPlots
import Mathlib.Data.String.Basic

namespace PyPDP
open Spec

/-- `[lo, hi]` is what the conditions leave of the range of the hyperparameter. -/
def SideOf (space : ConfigSpace ℝ) (conds : List (Cond ℝ)) (hp : Hp ℝ) (lo hi : ℝ) : Prop :=
  ∃ l u g, hp.numerical? = some (l, u, g) ∧ IsLeast (insert u {w | ∃ c ∈ conds, CutAt space c hp true w}) hi ∧
    IsGreatest (insert l {w | ∃ c ∈ conds, CutAt space c hp false w}) lo

/-- A tree partitioner after `partition`: numerical hyperparameters with valid bounds, only hyperparameters that are not selected are split,
the leaves are those of the greedily grown tree. -/
structure GrownTree (p : DT ℝ) : Prop where
  wf : p.cfg.space.WF
  numerical : NumericalSpace p.cfg.space
  selected : ∀ hp ∈ p.cfg.selected, hp ∈ p.cfg.space
  possible : ∀ hp ∈ p.possible, hp ∈ p.cfg.space ∧ hp ∉ p.cfg.selected
  root : p.root.conds = []
  leaves : ∃ N minPoints P d, Greedy p.cfg.space p.possible N minPoints P d p.root p.leaves

/-- `hps` are the hyperparameters of the space with the property, in the order of their names. -/
structure ByName (space : ConfigSpace ℝ) (keep : Hp ℝ → Prop) (hps : List (Hp ℝ)) : Prop where
  mem : ∀ hp, hp ∈ hps ↔ hp ∈ space ∧ keep hp
  sorted : hps.Pairwise fun a b => a.name < b.name

/-- the configuration has a number within the bounds for every hyperparameter of the space -/
def InBounds (space : ConfigSpace ℝ) (cfg : Config ℝ) : Prop :=
  ∀ hp ∈ space, ∃ x l u g, cfg.get? hp.name = some (.num x) ∧ hp.numerical? = some (l, u, g) ∧ l ≤ x ∧ x ≤ u

/-! ### sorting by name -/

section sorting
variable {K : Type}

theorem forall₂_orderedInsert {R : Hp K → Hp K → Prop} (hR : ∀ a b, R a b → b.name = a.name) {a b : Hp K} (hab : R a b) {l m : List (Hp K)}
    (h : List.Forall₂ R l m) :
    List.Forall₂ R (l.orderedInsert (fun a b => a.name ≤ b.name) a) (m.orderedInsert (fun a b => a.name ≤ b.name) b) := by
  induction h with
  | nil => exact .cons hab .nil
  | @cons c d l m hcd h ih =>
    simp only [List.orderedInsert]
    by_cases hle : a.name ≤ c.name
    · rw [if_pos hle, if_pos (by rw [hR a b hab, hR c d hcd]; exact hle)]
      exact .cons hab (.cons hcd h)
    · rw [if_neg hle, if_neg (by rw [hR a b hab, hR c d hcd]; exact hle)]
      exact .cons hcd ih

theorem forall₂_insertionSort {R : Hp K → Hp K → Prop} (hR : ∀ a b, R a b → b.name = a.name) {l m : List (Hp K)} (h : List.Forall₂ R l m) :
    List.Forall₂ R (l.insertionSort fun a b => a.name ≤ b.name) (m.insertionSort fun a b => a.name ≤ b.name) := by
  induction h with
  | nil => exact .nil
  | cons hab _ ih => exact forall₂_orderedInsert hR hab ih

theorem forall₂_filter {α β : Type} {R : α → β → Prop} {f : α → Bool} {g : β → Bool} {l : List α} {m : List β} (h : List.Forall₂ R l m)
    (hfg : List.Forall₂ (fun a b => f a = g b) l m) : List.Forall₂ R (l.filter f) (m.filter g) := by
  induction h with
  | nil => exact .nil
  | @cons a b l m hab _ ih =>
    obtain ⟨e, es⟩ := List.forall₂_cons.1 hfg
    rw [List.filter_cons, List.filter_cons, e]
    split
    · exact .cons hab (ih es)
    · exact ih es

end sorting

theorem byName_unique {space : ConfigSpace ℝ} (hwf : space.WF) {keep : Hp ℝ → Prop} [DecidablePred keep] {hps : List (Hp ℝ)} (h : ByName space keep hps) :
    (List.filter (fun hp => decide (keep hp)) space).insertionSort (fun a b => a.name ≤ b.name) = hps := by
  have hnd : List.Nodup space := hwf.of_map
  have hp1 := List.perm_insertionSort (fun a b : Hp ℝ => a.name ≤ b.name) (List.filter (fun hp => decide (keep hp)) space)
  have hnd2 : hps.Nodup := h.sorted.imp fun {a b} hab => by rintro rfl; exact lt_irrefl _ hab
  have hp2 : (List.filter (fun hp => decide (keep hp)) space).Perm hps := by
    rw [List.perm_ext_iff_of_nodup (hnd.filter _) hnd2]
    intro a
    rw [h.mem, List.mem_filter, decide_eq_true_eq]
  have : Std.Total (fun a b : Hp ℝ => a.name ≤ b.name) := ⟨fun a b => le_total _ _⟩
  have : IsTrans (Hp ℝ) (fun a b : Hp ℝ => a.name ≤ b.name) := ⟨fun a b c => le_trans⟩
  refine (hp1.trans hp2).eq_of_pairwise (le := fun a b : Hp ℝ => a.name ≤ b.name) ?_ (List.pairwise_insertionSort _ _) (h.sorted.imp le_of_lt)
  intro a b ha hb hab hba
  have ha := (List.mem_filter.1 (hp1.mem_iff.1 ha)).1
  have hb := ((h.mem b).1 hb).1
  have a1 := ConfigSpace.get_of_mem hwf ha
  rw [le_antisymm hab hba, ConfigSpace.get_of_mem hwf hb] at a1
  exact (Except.ok.inj a1).symm

/-- only the names matter if the bounds are left alone -/
theorem checkAndSetAxis_names {K : Type} {a b : List (Hp K)} (h : a.map Hp.name = b.map Hp.name) (label : String) (ax : Ax K) :
    checkAndSetAxis a false label ax = checkAndSetAxis b false label ax := by
  rcases a with _ | ⟨p, _ | ⟨p', _ | ⟨_, _⟩⟩⟩ <;> rcases b with _ | ⟨q, _ | ⟨q', _ | ⟨_, _⟩⟩⟩ <;>
    simp only [List.map_cons, List.map_nil, List.cons.injEq, reduceCtorEq, and_false, and_true] at h
  · rfl
  · simp [checkAndSetAxis, Ax.boundX, h]
  · simp [checkAndSetAxis, Ax.boundX, Ax.boundY, h.1, h.2]
  · rfl

/-! ### the hyperparameters that are shown -/

/-- `q` is the copy of the hyperparameter in the implied space -/
structure CopyOf (space : ConfigSpace ℝ) (conds : List (Cond ℝ)) (hp q : Hp ℝ) : Prop where
  name : q.name = hp.name
  side : ∃ lo hi g, q.kind = .float lo hi g ∧ SideOf space conds hp lo hi
  free : (∀ c ∈ conds, c.hp.name ≠ hp.name) → (∃ l u g, hp.kind = .float l u g) → q = hp

theorem implied_copies {space : ConfigSpace ℝ} (hwf : space.WF) (hnum : NumericalSpace space) {conds : List (Cond ℝ)} (hc : FloatConds space conds) :
    ∃ out, regionImplied space conds = .ok out ∧ List.Forall₂ (CopyOf space conds) space out := by
  obtain ⟨out, h1, h2, h3⟩ := C59_box hwf hnum hc
  refine ⟨out, h1, List.forall₂_iff_get.2 ⟨h2.symm, fun i hi hi' => ?_⟩⟩
  simp only [List.get_eq_getElem]
  have hs : space[i]? = some space[i] := List.getElem?_eq_getElem hi
  have hm := List.mem_of_getElem? hs
  obtain ⟨l, u, g, hb, -⟩ := hnum _ hm
  obtain ⟨l', u', ho, hu, hl⟩ := h3 i _ l u g hs hb
  obtain ⟨_, ho⟩ := List.getElem?_eq_some_iff.1 ho
  rw [ho]
  refine ⟨rfl, ⟨l', u', g, rfl, l, u, g, hb, hu, hl⟩, fun hfree hfl => ?_⟩
  have he : ∀ le, {w | ∃ c ∈ conds, CutAt space c space[i] le w} = ∅ := by
    intro le
    ext w
    simp only [Set.mem_ofPred_eq, Set.mem_empty_iff_false, iff_false, not_exists, not_and]
    intro c hcm hcut
    exact hfree c hcm hcut.1
  rw [he] at hu hl
  simp only [insert_empty_eq] at hu hl
  obtain rfl : u' = u := hu.1
  obtain rfl : l' = l := hl.1
  obtain ⟨l1, u1, g1, hk⟩ := hfl
  rw [Hp.numerical?, hk] at hb
  obtain ⟨rfl, rfl, rfl⟩ : l1 = l' ∧ u1 = u' ∧ g1 = g := by simpa using hb
  rcases hs' : space[i] with ⟨n, k⟩
  rw [hs'] at hk
  dsimp only at hk ⊢
  rw [hk]

/-- Everything the plot needs: the leaf of the incumbent, and the copies of the shown hyperparameters. -/
theorem incumbent_core {p : DT ℝ} (hp : GrownTree p) {inc : Config ℝ} (hinc : InBounds p.cfg.space inc) {others : List (Hp ℝ)}
    (ho : ByName p.cfg.space (fun hp => hp ∉ p.cfg.selected ∨ ∀ l u g, hp.kind ≠ .float l u g) others) :
    ∃ leaf ∈ p.leaves, ∃ out shown, containsAll p.cfg.space leaf.conds inc = .ok true ∧ List.Forall₂ (CopyOf p.cfg.space leaf.conds) others shown ∧
      (∀ hp ∈ others, ∀ lo hi, SideOf p.cfg.space leaf.conds hp lo hi → ∃ x, inc.get? hp.name = some (.num x) ∧ lo ≤ x ∧ x ≤ hi) ∧
      ∀ color, dtPlotIncumbent color inc p = plotConfigSpace out (.many (shown.map .hp)) color := by
  classical
  obtain ⟨N, minPoints, P, d, hg⟩ := hp.leaves
  have hpos : ∀ q ∈ p.possible, q ∈ p.cfg.space ∧ q.isNumerical = true := by
    intro q hq
    have hm := (hp.possible q hq).1
    obtain ⟨l, u, g, hb, -⟩ := hp.numerical q hm
    exact ⟨hm, by simp [Hp.isNumerical, hb]⟩
  have hn : HasNumbers p.possible inc := by
    intro q hq
    obtain ⟨x, _, _, _, hx, -⟩ := hinc q (hpos q hq).1
    exact ⟨x, hx⟩
  obtain ⟨i, leaf, hi, hone⟩ := hg.one_leaf hp.wf hp.root hpos hn
  have hcond : ∀ c ∈ leaf.conds, c.hp ∈ p.possible ∧ (∃ t, c.nval = .flt t ∧ 0 ≤ t ∧ t ≤ 1) ∧ ∃ b, c.lessEqual = some b := by
    intro c hc
    obtain ⟨more, e1, e2, -⟩ := hg.leaf_curves hp.wf leaf (List.mem_of_getElem? hi)
    rw [hp.root, List.nil_append] at e1
    obtain ⟨hpm, ⟨j, -, hj2, hnv⟩, hb⟩ := e2 c (e1 ▸ hc)
    have hN : (0 : ℝ) < (N : ℝ) + 1 := by positivity
    refine ⟨hpm, ⟨_, hnv, div_nonneg (by positivity) hN.le, ?_⟩, hb⟩
    rw [threshold, div_le_one hN]
    have : (j : ℝ) ≤ N := by exact_mod_cast hj2
    linarith
  have hfc : FloatConds p.cfg.space leaf.conds := fun c hc => ⟨(hpos _ (hcond c hc).1).1, (hcond c hc).2⟩
  obtain ⟨out, h1, h2⟩ := implied_copies hp.wf hp.numerical hfc
  have hleaf : containsAll p.cfg.space leaf.conds inc = .ok true := by simpa using hone i leaf hi
  refine ⟨leaf, List.mem_of_getElem? hi, out, otherHps out p.cfg.selected, hleaf, ?_, ?_, ?_⟩
  · rw [← byName_unique hp.wf ho]
    unfold otherHps
    refine forall₂_insertionSort (fun a b h => h.name) (forall₂_filter h2 ?_)
    have huniq : ∀ a ∈ p.cfg.space, ∀ b ∈ p.cfg.space, a.name = b.name → a = b := by
      intro a ha b hb hab
      have a1 := ConfigSpace.get_of_mem hp.wf ha
      rw [hab, ConfigSpace.get_of_mem hp.wf hb] at a1
      exact (Except.ok.inj a1).symm
    have hmem : List.Forall₂ (fun a b => a ∈ p.cfg.space ∧ CopyOf p.cfg.space leaf.conds a b) p.cfg.space out := by
      rw [List.forall₂_iff_get] at h2 ⊢
      exact ⟨h2.1, fun i h h' => ⟨List.get_mem _ _, h2.2 i h h'⟩⟩
    refine hmem.imp fun a b ⟨ha, hb⟩ => decide_eq_decide.2 ?_
    constructor
    · rintro hk hs
      have := huniq a ha b (hp.selected b hs) hb.name.symm
      subst this
      rcases hk with hk | hk
      · exact hk hs
      · obtain ⟨lo, hi, g, e, -⟩ := hb.side
        exact hk _ _ _ e
    · intro hs
      by_contra hk
      push Not at hk
      obtain ⟨hk1, hk2⟩ := hk
      refine hs ?_
      rw [hb.free (fun c hc hcn => ?_) hk2]
      · exact hk1
      · have := (hcond c hc).1
        exact (hp.possible _ this).2 (by rw [huniq c.hp (hpos _ this).1 a ha hcn]; exact hk1)
  · intro q hq lo hi hside
    have hqm := ((ho.mem q).1 hq).1
    obtain ⟨out', b, e1, e2, e3⟩ := C59_contains_iff hp.wf hp.numerical hfc hinc
    rw [h1] at e1
    obtain rfl := Except.ok.inj e1
    rw [hleaf] at e2
    obtain rfl := Except.ok.inj e2
    obtain ⟨hbox, -⟩ := e3.1 rfl
    obtain ⟨f, hf, rfl⟩ := List.getElem_of_mem hqm
    have hf' : f < out.length := by rw [← h2.length_eq]; exact hf
    have hcp := h2.get hf hf'
    simp only [List.get_eq_getElem] at hcp
    obtain ⟨x, l', u', g, hk, hx, hl, hu⟩ := hbox _ (List.getElem_mem hf')
    obtain ⟨lo', hi', g', hk', l1, u1, g1, s1, s2, s3⟩ := hcp.side
    obtain ⟨l2, u2, g2, t1, t2, t3⟩ := hside
    rw [s1] at t1
    rw [hk] at hk'
    simp only [Option.some.injEq, Prod.mk.injEq, HpKind.float.injEq] at t1 hk'
    obtain ⟨rfl, rfl, rfl⟩ := t1
    obtain ⟨rfl, rfl, rfl⟩ := hk'
    rw [hcp.name] at hx
    exact ⟨x, hx, by rw [t3.unique s3]; exact hl, by rw [t2.unique s2]; exact hu⟩
  · intro color
    unfold dtPlotIncumbent dtIncumbentRegion
    rw [if_neg (List.ne_nil_of_mem (List.mem_of_getElem? hi)), firstContaining_eq hi hone]
    funext ax
    rw [Plot.lift_bind_ok, Plot.lift_bind_ok, h1, Plot.lift_bind_ok]

theorem copies_names {space : ConfigSpace ℝ} {conds : List (Cond ℝ)} {a b : List (Hp ℝ)} (h : List.Forall₂ (CopyOf space conds) a b) :
    a.map Hp.name = b.map Hp.name := by
  induction h with
  | nil => rfl
  | cons hab _ ih => rw [List.map_cons, List.map_cons, hab.name, ih]

theorem getHyperparameters_many {K : Type} (cs : ConfigSpace K) (hps : List (Hp K)) : getHyperparameters (.many (hps.map .hp)) cs = .ok hps := by
  unfold getHyperparameters
  exact resolve_hps cs hps

/-- **C90** what is shown in every case are the hyperparameters that are not both selected and real-valued (the others are compared with
their real-valued copies and found different). One such hyperparameter: the range that the leaf of the incumbent leaves of it. -/
theorem C90_exact_one {p : DT ℝ} (hp : GrownTree p) {inc : Config ℝ} (hinc : InBounds p.cfg.space inc) {q : Hp ℝ}
    (ho : ByName p.cfg.space (fun hp => hp ∉ p.cfg.selected ∨ ∀ l u g, hp.kind ≠ .float l u g) [q]) (color : String) {ax ax' : Ax ℝ}
    (hax : checkAndSetAxis [q] false "Prediction" ax = (ax', .ok ())) :
    ∃ leaf ∈ p.leaves, ∃ lo hi x, containsAll p.cfg.space leaf.conds inc = .ok true ∧ SideOf p.cfg.space leaf.conds q lo hi ∧
      inc.get? q.name = some (.num x) ∧ lo ≤ x ∧ x ≤ hi ∧
      dtPlotIncumbent color inc p ax = (ax'.draw [.vline color lo, .vline color hi, .vspan color lo hi], .ok ()) := by
  obtain ⟨leaf, hm, out, shown, h1, h2, h3, h4⟩ := incumbent_core hp hinc ho
  obtain ⟨q', l, hq, hl, rfl⟩ := List.forall₂_cons_left_iff.1 h2
  obtain rfl := List.forall₂_nil_left_iff.1 hl
  obtain ⟨lo, hi, g, hk, hs⟩ := hq.side
  obtain ⟨x, hx, hlo, hhi⟩ := h3 q (by simp) lo hi hs
  refine ⟨leaf, hm, lo, hi, x, h1, hs, hx, hlo, hhi, ?_⟩
  rw [h4]
  exact (C87_one (getHyperparameters_many out [q']) (.inl hk) color (by rw [checkAndSetAxis_names (copies_names h2).symm]; exact hax)).1

/-- **C90** in every case: two hyperparameters that are not both selected and real-valued: the box, the first name on the x axis. -/
theorem C90_exact_two {p : DT ℝ} (hp : GrownTree p) {inc : Config ℝ} (hinc : InBounds p.cfg.space inc) {q r : Hp ℝ}
    (ho : ByName p.cfg.space (fun hp => hp ∉ p.cfg.selected ∨ ∀ l u g, hp.kind ≠ .float l u g) [q, r]) (color : String) {ax ax' : Ax ℝ}
    (hax : checkAndSetAxis [q, r] false "Prediction" ax = (ax', .ok ())) :
    ∃ leaf ∈ p.leaves, ∃ x0 x1 y0 y1 x y, containsAll p.cfg.space leaf.conds inc = .ok true ∧ SideOf p.cfg.space leaf.conds q x0 x1 ∧
      SideOf p.cfg.space leaf.conds r y0 y1 ∧ inc.get? q.name = some (.num x) ∧ inc.get? r.name = some (.num y) ∧
      x0 ≤ x ∧ x ≤ x1 ∧ y0 ≤ y ∧ y ≤ y1 ∧ dtPlotIncumbent color inc p ax = (ax'.draw [.box color x0 x1 y0 y1], .ok ()) := by
  obtain ⟨leaf, hm, out, shown, h1, h2, h3, h4⟩ := incumbent_core hp hinc ho
  obtain ⟨q', l, hq, hl, rfl⟩ := List.forall₂_cons_left_iff.1 h2
  obtain ⟨r', l', hr, hl', rfl⟩ := List.forall₂_cons_left_iff.1 hl
  obtain rfl := List.forall₂_nil_left_iff.1 hl'
  obtain ⟨x0, x1, g, hk, hs⟩ := hq.side
  obtain ⟨y0, y1, g', hk', hs'⟩ := hr.side
  obtain ⟨x, hx, hx0, hx1⟩ := h3 q (by simp) x0 x1 hs
  obtain ⟨y, hy, hy0, hy1⟩ := h3 r (by simp) y0 y1 hs'
  refine ⟨leaf, hm, x0, x1, y0, y1, x, y, h1, hs, hs', hx, hy, hx0, hx1, hy0, hy1, ?_⟩
  rw [h4]
  exact (C87_two (getHyperparameters_many out [q', r']) (.inl ⟨g, .inl hk⟩) (.inl ⟨g', .inl hk'⟩) color
    (by rw [checkAndSetAxis_names (copies_names h2).symm]; exact hax)).1

/-- **C90** in every case: any other number of hyperparameters that are not both selected and real-valued: NotImplementedError. -/
theorem C90_exact_other {p : DT ℝ} (hp : GrownTree p) {inc : Config ℝ} (hinc : InBounds p.cfg.space inc) {others : List (Hp ℝ)}
    (ho : ByName p.cfg.space (fun hp => hp ∉ p.cfg.selected ∨ ∀ l u g, hp.kind ≠ .float l u g) others) (hn : ¬ OneOrTwo others) (color : String)
    (ax : Ax ℝ) : dtPlotIncumbent color inc p ax = (ax, .error .notImplemented) := by
  obtain ⟨leaf, hm, out, shown, h1, h2, h3, h4⟩ := incumbent_core hp hinc ho
  rw [h4]
  refine C87_other (getHyperparameters_many out shown) ?_ color ax
  unfold OneOrTwo at hn ⊢
  rw [← h2.length_eq]
  exact hn

/-! ### C90 -/

/-- the selected hyperparameters are real-valued -/
def FloatSelected (selected : List (Hp ℝ)) : Prop := ∀ hp ∈ selected, ∃ l u g, hp.kind = .float l u g

theorem byName_float {p : DT ℝ} (hsel : FloatSelected p.cfg.selected) {others : List (Hp ℝ)}
    (h : ByName p.cfg.space (fun hp => hp ∉ p.cfg.selected) others) :
    ByName p.cfg.space (fun hp => hp ∉ p.cfg.selected ∨ ∀ l u g, hp.kind ≠ .float l u g) others := by
  refine ⟨fun hp => ?_, h.sorted⟩
  rw [h.mem]
  refine and_congr_right fun _ => ⟨.inl, ?_⟩
  rintro (h | h) hs
  · exact h hs
  · obtain ⟨l, u, g, hk⟩ := hsel hp hs
    exact h l u g hk

/-- **C90** (real-valued selected hyperparameters) one hyperparameter is not selected: `plot_incumbent_cs` shows the range that the leaf of
the incumbent leaves of it, with the value of the incumbent inside. Missing: integer selected hyperparameters, see
`C90_integer_counterexample`. -/
theorem C90_one_partial {p : DT ℝ} (hp : GrownTree p) (hsel : FloatSelected p.cfg.selected) {inc : Config ℝ} (hinc : InBounds p.cfg.space inc)
    {q : Hp ℝ} (ho : ByName p.cfg.space (fun hp => hp ∉ p.cfg.selected) [q]) (color : String) {ax ax' : Ax ℝ}
    (hax : checkAndSetAxis [q] false "Prediction" ax = (ax', .ok ())) :
    ∃ leaf ∈ p.leaves, ∃ lo hi x, containsAll p.cfg.space leaf.conds inc = .ok true ∧ SideOf p.cfg.space leaf.conds q lo hi ∧
      inc.get? q.name = some (.num x) ∧ lo ≤ x ∧ x ≤ hi ∧
      dtPlotIncumbent color inc p ax = (ax'.draw [.vline color lo, .vline color hi, .vspan color lo hi], .ok ()) :=
  C90_exact_one hp hinc (byName_float hsel ho) color hax

/-- **C90** (real-valued selected hyperparameters) two hyperparameters are not selected: the box that the leaf of the incumbent leaves of
them, the first name on the x axis, with the values of the incumbent inside. -/
theorem C90_two_partial {p : DT ℝ} (hp : GrownTree p) (hsel : FloatSelected p.cfg.selected) {inc : Config ℝ} (hinc : InBounds p.cfg.space inc)
    {q r : Hp ℝ} (ho : ByName p.cfg.space (fun hp => hp ∉ p.cfg.selected) [q, r]) (color : String) {ax ax' : Ax ℝ}
    (hax : checkAndSetAxis [q, r] false "Prediction" ax = (ax', .ok ())) :
    ∃ leaf ∈ p.leaves, ∃ x0 x1 y0 y1 x y, containsAll p.cfg.space leaf.conds inc = .ok true ∧ SideOf p.cfg.space leaf.conds q x0 x1 ∧
      SideOf p.cfg.space leaf.conds r y0 y1 ∧ inc.get? q.name = some (.num x) ∧ inc.get? r.name = some (.num y) ∧
      x0 ≤ x ∧ x ≤ x1 ∧ y0 ≤ y ∧ y ≤ y1 ∧ dtPlotIncumbent color inc p ax = (ax'.draw [.box color x0 x1 y0 y1], .ok ()) :=
  C90_exact_two hp hinc (byName_float hsel ho) color hax

/-- **C90** (real-valued selected hyperparameters) none or more than two hyperparameters that are not selected: NotImplementedError, the axis
is untouched. -/
theorem C90_other_partial {p : DT ℝ} (hp : GrownTree p) (hsel : FloatSelected p.cfg.selected) {inc : Config ℝ} (hinc : InBounds p.cfg.space inc)
    {others : List (Hp ℝ)} (ho : ByName p.cfg.space (fun hp => hp ∉ p.cfg.selected) others) (hn : ¬ OneOrTwo others) (color : String) (ax : Ax ℝ) :
    dtPlotIncumbent color inc p ax = (ax, .error .notImplemented) :=
  C90_exact_other hp hinc (byName_float hsel ho) hn color ax

/-- The full statement is false: an integer hyperparameter `s` that is selected is shown as well. With one other hyperparameter the plot is a
box over both, with two others it is a NotImplementedError. -/
theorem C90_integer_counterexample {p : DT ℝ} (hp : GrownTree p) {s : Hp ℝ} (hs : p.cfg.selected = [s]) {l u : ℝ} {g : Bool}
    (hk : s.kind = .integer l u g) {inc : Config ℝ} (hinc : InBounds p.cfg.space inc) (color : String) :
    (∀ q, ByName p.cfg.space (fun hp => hp ∉ p.cfg.selected) [q] → q.name < s.name → ∀ ax ax' : Ax ℝ,
      checkAndSetAxis [q, s] false "Prediction" ax = (ax', .ok ()) →
      ∃ x0 x1 y0 y1, dtPlotIncumbent color inc p ax = (ax'.draw [.box color x0 x1 y0 y1], .ok ())) ∧
    (∀ q r, ByName p.cfg.space (fun hp => hp ∉ p.cfg.selected) [q, r] → r.name < s.name → ∀ ax,
      dtPlotIncumbent color inc p ax = (ax, .error .notImplemented)) := by
  have hsm : s ∈ p.cfg.space := hp.selected s (by rw [hs]; simp)
  have key : ∀ others, ByName p.cfg.space (fun hp => hp ∉ p.cfg.selected) others → (∀ q ∈ others, q.name < s.name) →
      ByName p.cfg.space (fun hp => hp ∉ p.cfg.selected ∨ ∀ l u g, hp.kind ≠ .float l u g) (others ++ [s]) := by
    intro others ho hlt
    refine ⟨fun hp' => ?_, ?_⟩
    · rw [List.mem_append, ho.mem, List.mem_singleton, hs, List.mem_singleton]
      constructor
      · rintro (h | rfl)
        · exact ⟨h.1, .inl h.2⟩
        · exact ⟨hsm, .inr (by rw [hk]; simp)⟩
      · rintro ⟨h1, h2⟩
        by_cases h : hp' = s
        · exact .inr h
        · exact .inl ⟨h1, h⟩
    · rw [List.pairwise_append]
      exact ⟨ho.sorted, by simp, fun a ha b hb => by rw [List.mem_singleton.1 hb]; exact hlt a ha⟩
  constructor
  · intro q ho hlt ax ax' hax
    obtain ⟨leaf, -, x0, x1, y0, y1, -, -, -, -, -, -, -, -, -, -, -, h⟩ := C90_exact_two hp hinc (key [q] ho (by simpa using hlt)) color hax
    exact ⟨x0, x1, y0, y1, h⟩
  · intro q r ho hlt ax
    refine C90_exact_other hp hinc (key [q, r] ho ?_) (by simp [OneOrTwo]) color ax
    have := ho.sorted
    simp only [List.pairwise_cons, List.mem_singleton, forall_eq] at this
    intro a ha
    simp only [List.mem_cons, List.not_mem_nil, or_false] at ha
    rcases ha with rfl | rfl
    · exact this.1.trans hlt
    · exact hlt

section errors
variable {K : Type} [Field K] [LinearOrder K] [Transc K]

/-- **C90** before `partition`: AssertionError, the axis is untouched. -/
theorem C90_before_partition {p : DT K} (h : p.leaves = []) (color : String) (inc : Config K) (ax : Ax K) :
    dtPlotIncumbent color inc p ax = (ax, .error .assertion) := by
  unfold dtPlotIncumbent dtIncumbentRegion
  rw [if_pos h, Plot.lift_bind_error]

/-- **C90** a hyperparameter that is not numerical anywhere in the space: an error, the axis is untouched. -/
theorem C90_not_numerical {p : DT K} {hp : Hp K} (hm : hp ∈ p.cfg.space) (hn : hp.isNumerical = false) (color : String) (inc : Config K) (ax : Ax K) :
    ∃ e, dtPlotIncumbent color inc p ax = (ax, .error e) ∧
      (∀ leaf, dtIncumbentRegion p inc = .ok (some leaf) → e = .notImplemented) := by
  unfold dtPlotIncumbent
  rcases hr : dtIncumbentRegion p inc with e | _ | leaf
  · exact ⟨e, by rw [Plot.lift_bind_error], by simp⟩
  · exact ⟨.attribute, by rw [Plot.lift_bind_ok, Plot.lift_bind_error], by simp⟩
  · exact ⟨.notImplemented, by rw [Plot.lift_bind_ok, Plot.lift_bind_ok, C59_not_numerical hm hn, Plot.lift_bind_error], by simp⟩

end errors

/-- A new partitioner after `partition`: `C90_one_partial` and the others apply to it. -/
theorem C90_grown {space : ConfigSpace ℝ} (hwf : space.WF) (hnum : NumericalSpace space) {predict : Predict ℝ} {sel : Selection ℝ}
    {samples : List (List ℝ)} (hrows : ∀ r ∈ samples, r.length = space.length) {perAxis numSplits minPoints : Nat} (hg : 1 ≤ perAxis)
    {notSplittable : Option (Selection ℝ)} {p : DT ℝ} (h : dtInit space predict sel samples perAxis numSplits minPoints notSplittable = .ok p)
    (hmem : ∀ hp ∈ p.cfg.selected, hp ∈ space) (hd : (p.cfg.selected.map Hp.name).Nodup) (hne : p.cfg.selected ≠ []) {d : Int} (hd : 0 < d) :
    GrownTree (dtPartition p d).1 := by
  obtain ⟨hv, -, -, hs⟩ := dt_valid hwf hrows hg h hmem ‹_› hne
  obtain ⟨L, h1, -, h3, -⟩ := partition_eq hv hd
  rw [h1]
  refine ⟨hv.wf, by rw [hs]; exact hnum, by rw [hs]; exact hmem, fun hp hm => ⟨hv.possible_mem hp hm, fun hsel => ?_⟩, hv.conds, _, _, _, _, h3⟩
  obtain ⟨c, ns, i, dat, -, -, -, -, -, rfl⟩ := dtInit_ok h
  dsimp only at hm hsel
  unfold possibleSplits at hm
  rw [List.mem_filter, decide_eq_true_eq] at hm
  exact hm.2.1 (List.mem_map_of_mem hsel)

/-! ### C91 -/

/-- Trees of a forest are such trees. -/
theorem treeOf_grown {p : RF ℝ} (hp : ValidRF p) (hnum : NumericalSpace p.cfg.space) {t : DT ℝ} (ht : TreeOf p t) : GrownTree t := by
  obtain ⟨own, N, m, P, d, w, h⟩ := ht
  refine ⟨by rw [h.space]; exact hp.cfg.wf, by rw [h.space]; exact hnum, by rw [h.space, h.selected]; exact hp.cfg.sel_mem, ?_, h.conds, N, m, P, d,
    by rw [h.space]; exact h.leaves⟩
  intro q hq
  have := h.splits_sub.subset hq
  rw [hp.possible, List.mem_filter, decide_eq_true_eq] at this
  rw [h.space, h.selected]
  exact ⟨this.1, fun hs => this.2 (List.mem_map_of_mem hs)⟩

/-- What `plot_incumbent_cs` shows of a tree if `q` is the only hyperparameter that is not selected. -/
def BandOfTree (inc : Config ℝ) (q : Hp ℝ) (tc : DT ℝ × String) (shapes : List (Shape ℝ)) : Prop :=
  ∃ leaf ∈ tc.1.leaves, ∃ lo hi x, containsAll tc.1.cfg.space leaf.conds inc = .ok true ∧ SideOf tc.1.cfg.space leaf.conds q lo hi ∧
    inc.get? q.name = some (.num x) ∧ lo ≤ x ∧ x ≤ hi ∧ shapes = [.vline tc.2 lo, .vline tc.2 hi, .vspan tc.2 lo hi]

/-- What `plot_incumbent_cs` shows of a tree if `q` and `r` are the hyperparameters that are not selected. -/
def BoxOfTree (inc : Config ℝ) (q r : Hp ℝ) (tc : DT ℝ × String) (shapes : List (Shape ℝ)) : Prop :=
  ∃ leaf ∈ tc.1.leaves, ∃ x0 x1 y0 y1 x y, containsAll tc.1.cfg.space leaf.conds inc = .ok true ∧ SideOf tc.1.cfg.space leaf.conds q x0 x1 ∧
    SideOf tc.1.cfg.space leaf.conds r y0 y1 ∧ inc.get? q.name = some (.num x) ∧ inc.get? r.name = some (.num y) ∧
    x0 ≤ x ∧ x ≤ x1 ∧ y0 ≤ y ∧ y ≤ y1 ∧ shapes = [.box tc.2 x0 x1 y0 y1]

theorem forestLoop_ok {inc : Config ℝ} {hps : List (Hp ℝ)} {R : DT ℝ × String → List (Shape ℝ) → Prop} {pairs : List (DT ℝ × String)}
    (h : ∀ tc ∈ pairs, ∀ ax ax', checkAndSetAxis hps false "Prediction" ax = (ax', .ok ()) →
      ∃ shapes, R tc shapes ∧ dtPlotIncumbent tc.2 inc tc.1 ax = (ax'.draw shapes, .ok ()))
    (hne : pairs ≠ []) {ax ax' : Ax ℝ} (hax : checkAndSetAxis hps false "Prediction" ax = (ax', .ok ())) :
    ∃ groups, List.Forall₂ R pairs groups ∧ forestLoop inc pairs ax = (ax'.draw groups.flatten, .ok ()) := by
  induction pairs generalizing ax ax' with
  | nil => exact absurd rfl hne
  | cons tc rest ih =>
    obtain ⟨shapes, hR, hd⟩ := h tc (by simp) ax ax' hax
    have hax2 : checkAndSetAxis hps false "Prediction" (ax'.draw shapes) = (ax'.draw shapes, .ok ()) := by
      rw [checkAndSetAxis_draw, C71_repeat hax]
    by_cases hrest : rest = []
    · subst hrest
      refine ⟨[shapes], .cons hR .nil, ?_⟩
      obtain ⟨t, c⟩ := tc
      unfold forestLoop
      rw [Plot.bind_ok hd]
      simp [forestLoop]
    · obtain ⟨groups, h1, h2⟩ := ih (fun tc htc => h tc (by simp [htc])) hrest hax2
      refine ⟨shapes :: groups, .cons hR h1, ?_⟩
      obtain ⟨t, c⟩ := tc
      unfold forestLoop
      rw [Plot.bind_ok hd, h2, Ax.draw_draw]
      simp

/-- **C91** (real-valued selected hyperparameters, one colour per tree) one hyperparameter is not selected: `plot_incumbent_regions` shows,
tree after tree, the range of the leaf of the incumbent, in the colour of the tree. Missing: fewer colours than trees, see
`C91_colours_counterexample`, and integer selected hyperparameters (`C90_integer_counterexample`). -/
theorem C91_one_partial {p : RF ℝ} (hp : ValidRF p) (hnum : NumericalSpace p.cfg.space) (hsel : FloatSelected p.cfg.selected) {trees : List (DT ℝ)}
    (ht : p.trees = some trees) (hne : trees ≠ []) (htree : ∀ t ∈ trees, TreeOf p t) {colors : List String} (hc : colors.length = trees.length)
    {inc : Config ℝ} (hinc : InBounds p.cfg.space inc) {q : Hp ℝ} (ho : ByName p.cfg.space (fun hp => hp ∉ p.cfg.selected) [q]) {ax ax' : Ax ℝ}
    (hax : checkAndSetAxis [q] false "Prediction" ax = (ax', .ok ())) :
    ∃ groups, groups.length = trees.length ∧ List.Forall₂ (BandOfTree inc q) (trees.zip colors) groups ∧
      rfPlotIncumbent colors inc p ax = (ax'.draw groups.flatten, .ok ()) := by
  obtain ⟨groups, h1, h2⟩ := forestLoop_ok (inc := inc) (hps := [q]) (R := BandOfTree inc q) (pairs := trees.zip colors) (by
    intro tc htc ax ax' hax
    have hm := htree tc.1 (List.of_mem_zip htc).1
    have hg := treeOf_grown hp hnum hm
    obtain ⟨own, N, m, P, d, w, h⟩ := hm
    obtain ⟨leaf, hl, lo, hi, x, e1, e2, e3, e4, e5, e6⟩ := C90_one_partial hg (by rw [h.selected]; exact hsel) (by rw [h.space]; exact hinc) (q := q)
      (by rw [h.space, h.selected]; exact ho) tc.2 hax
    exact ⟨_, ⟨leaf, hl, lo, hi, x, e1, e2, e3, e4, e5, rfl⟩, e6⟩) (by
    intro h
    rw [← List.length_eq_zero_iff, List.length_zip, hc, min_self, List.length_eq_zero_iff] at h
    exact hne h) hax
  refine ⟨groups, ?_, h1, ?_⟩
  · rw [← h1.length_eq, List.length_zip, hc, min_self]
  · unfold rfPlotIncumbent
    rw [ht]
    exact h2

/-- **C91** (real-valued selected hyperparameters, one colour per tree) two hyperparameters are not selected: a box for every tree. -/
theorem C91_two_partial {p : RF ℝ} (hp : ValidRF p) (hnum : NumericalSpace p.cfg.space) (hsel : FloatSelected p.cfg.selected) {trees : List (DT ℝ)}
    (ht : p.trees = some trees) (hne : trees ≠ []) (htree : ∀ t ∈ trees, TreeOf p t) {colors : List String} (hc : colors.length = trees.length)
    {inc : Config ℝ} (hinc : InBounds p.cfg.space inc) {q r : Hp ℝ} (ho : ByName p.cfg.space (fun hp => hp ∉ p.cfg.selected) [q, r]) {ax ax' : Ax ℝ}
    (hax : checkAndSetAxis [q, r] false "Prediction" ax = (ax', .ok ())) :
    ∃ groups, groups.length = trees.length ∧ List.Forall₂ (BoxOfTree inc q r) (trees.zip colors) groups ∧
      rfPlotIncumbent colors inc p ax = (ax'.draw groups.flatten, .ok ()) := by
  obtain ⟨groups, h1, h2⟩ := forestLoop_ok (inc := inc) (hps := [q, r]) (R := BoxOfTree inc q r) (pairs := trees.zip colors) (by
    intro tc htc ax ax' hax
    have hm := htree tc.1 (List.of_mem_zip htc).1
    have hg := treeOf_grown hp hnum hm
    obtain ⟨own, N, m, P, d, w, h⟩ := hm
    obtain ⟨leaf, hl, x0, x1, y0, y1, x, y, e1, e2, e3, e4, e5, e6, e7, e8, e9, e10⟩ := C90_two_partial hg (by rw [h.selected]; exact hsel)
      (by rw [h.space]; exact hinc) (q := q) (r := r) (by rw [h.space, h.selected]; exact ho) tc.2 hax
    exact ⟨_, ⟨leaf, hl, x0, x1, y0, y1, x, y, e1, e2, e3, e4, e5, e6, e7, e8, e9, rfl⟩, e10⟩) (by
    intro h
    rw [← List.length_eq_zero_iff, List.length_zip, hc, min_self, List.length_eq_zero_iff] at h
    exact hne h) hax
  refine ⟨groups, ?_, h1, ?_⟩
  · rw [← h1.length_eq, List.length_zip, hc, min_self]
  · unfold rfPlotIncumbent
    rw [ht]
    exact h2

/-- **C91** (real-valued selected hyperparameters) none or more than two hyperparameters that are not selected: NotImplementedError, the axis
is untouched. -/
theorem C91_other_partial {p : RF ℝ} (hp : ValidRF p) (hnum : NumericalSpace p.cfg.space) (hsel : FloatSelected p.cfg.selected) {trees : List (DT ℝ)}
    (ht : p.trees = some trees) (hne : trees ≠ []) (htree : ∀ t ∈ trees, TreeOf p t) {colors : List String} (hc : colors ≠ [])
    {inc : Config ℝ} (hinc : InBounds p.cfg.space inc) {others : List (Hp ℝ)} (ho : ByName p.cfg.space (fun hp => hp ∉ p.cfg.selected) others)
    (hn : ¬ OneOrTwo others) (ax : Ax ℝ) : rfPlotIncumbent colors inc p ax = (ax, .error .notImplemented) := by
  obtain ⟨t, ts, rfl⟩ := List.exists_cons_of_ne_nil hne
  obtain ⟨c, cs, rfl⟩ := List.exists_cons_of_ne_nil hc
  have hg := treeOf_grown hp hnum (htree t (by simp))
  obtain ⟨own, N, m, P, d, w, h⟩ := htree t (by simp)
  unfold rfPlotIncumbent
  rw [ht]
  simp only [List.zip_cons_cons, forestLoop]
  rw [Plot.bind_error (C90_other_partial hg (by rw [h.selected]; exact hsel) (by rw [h.space]; exact hinc) (by rw [h.space, h.selected]; exact ho) hn c ax)]

/-- a tree and a colour: there is something to show -/
theorem zip_ne_nil {α β : Type} {a : List α} {b : List β} (ha : a ≠ []) (hb : b ≠ []) : a.zip b ≠ [] := by
  intro h
  rcases List.zip_eq_nil_iff.1 h with h | h
  · exact ha h
  · exact hb h

/-- **C91** in every case - any number of colours, any selected hyperparameters: one hyperparameter is not both selected and real-valued.
Shown are, in order, as many trees as there are colours (all of them exactly if there are enough), each in the colour of its position. -/
theorem C91_exact_one {p : RF ℝ} (hp : ValidRF p) (hnum : NumericalSpace p.cfg.space) {trees : List (DT ℝ)}
    (ht : p.trees = some trees) (hne : trees ≠ []) (htree : ∀ t ∈ trees, TreeOf p t) {colors : List String} (hc : colors ≠ [])
    {inc : Config ℝ} (hinc : InBounds p.cfg.space inc) {q : Hp ℝ}
    (ho : ByName p.cfg.space (fun hp => hp ∉ p.cfg.selected ∨ ∀ l u g, hp.kind ≠ .float l u g) [q]) {ax ax' : Ax ℝ}
    (hax : checkAndSetAxis [q] false "Prediction" ax = (ax', .ok ())) :
    ∃ groups, groups.length = min trees.length colors.length ∧ List.Forall₂ (BandOfTree inc q) (trees.zip colors) groups ∧
      rfPlotIncumbent colors inc p ax = (ax'.draw groups.flatten, .ok ()) := by
  obtain ⟨groups, h1, h2⟩ := forestLoop_ok (inc := inc) (hps := [q]) (R := BandOfTree inc q) (pairs := trees.zip colors) (by
    intro tc htc ax ax' hax
    have hm := htree tc.1 (List.of_mem_zip htc).1
    have hg := treeOf_grown hp hnum hm
    obtain ⟨own, N, m, P, d, w, h⟩ := hm
    obtain ⟨leaf, hl, lo, hi, x, e1, e2, e3, e4, e5, e6⟩ := C90_exact_one hg (by rw [h.space]; exact hinc) (q := q)
      (by rw [h.space, h.selected]; exact ho) tc.2 hax
    exact ⟨_, ⟨leaf, hl, lo, hi, x, e1, e2, e3, e4, e5, rfl⟩, e6⟩) (zip_ne_nil hne hc) hax
  refine ⟨groups, ?_, h1, ?_⟩
  · rw [← h1.length_eq, List.length_zip]
  · unfold rfPlotIncumbent
    rw [ht]
    exact h2

/-- **C91** in every case: two hyperparameters that are not both selected and real-valued. -/
theorem C91_exact_two {p : RF ℝ} (hp : ValidRF p) (hnum : NumericalSpace p.cfg.space) {trees : List (DT ℝ)}
    (ht : p.trees = some trees) (hne : trees ≠ []) (htree : ∀ t ∈ trees, TreeOf p t) {colors : List String} (hc : colors ≠ [])
    {inc : Config ℝ} (hinc : InBounds p.cfg.space inc) {q r : Hp ℝ}
    (ho : ByName p.cfg.space (fun hp => hp ∉ p.cfg.selected ∨ ∀ l u g, hp.kind ≠ .float l u g) [q, r]) {ax ax' : Ax ℝ}
    (hax : checkAndSetAxis [q, r] false "Prediction" ax = (ax', .ok ())) :
    ∃ groups, groups.length = min trees.length colors.length ∧ List.Forall₂ (BoxOfTree inc q r) (trees.zip colors) groups ∧
      rfPlotIncumbent colors inc p ax = (ax'.draw groups.flatten, .ok ()) := by
  obtain ⟨groups, h1, h2⟩ := forestLoop_ok (inc := inc) (hps := [q, r]) (R := BoxOfTree inc q r) (pairs := trees.zip colors) (by
    intro tc htc ax ax' hax
    have hm := htree tc.1 (List.of_mem_zip htc).1
    have hg := treeOf_grown hp hnum hm
    obtain ⟨own, N, m, P, d, w, h⟩ := hm
    obtain ⟨leaf, hl, x0, x1, y0, y1, x, y, e1, e2, e3, e4, e5, e6, e7, e8, e9, e10⟩ := C90_exact_two hg
      (by rw [h.space]; exact hinc) (q := q) (r := r) (by rw [h.space, h.selected]; exact ho) tc.2 hax
    exact ⟨_, ⟨leaf, hl, x0, x1, y0, y1, x, y, e1, e2, e3, e4, e5, e6, e7, e8, e9, rfl⟩, e10⟩) (zip_ne_nil hne hc) hax
  refine ⟨groups, ?_, h1, ?_⟩
  · rw [← h1.length_eq, List.length_zip]
  · unfold rfPlotIncumbent
    rw [ht]
    exact h2

/-- **C91** in every case: any other number of such hyperparameters (and a colour): NotImplementedError, the axis is untouched. -/
theorem C91_exact_other {p : RF ℝ} (hp : ValidRF p) (hnum : NumericalSpace p.cfg.space) {trees : List (DT ℝ)}
    (ht : p.trees = some trees) (hne : trees ≠ []) (htree : ∀ t ∈ trees, TreeOf p t) {colors : List String} (hc : colors ≠ [])
    {inc : Config ℝ} (hinc : InBounds p.cfg.space inc) {others : List (Hp ℝ)}
    (ho : ByName p.cfg.space (fun hp => hp ∉ p.cfg.selected ∨ ∀ l u g, hp.kind ≠ .float l u g) others)
    (hn : ¬ OneOrTwo others) (ax : Ax ℝ) : rfPlotIncumbent colors inc p ax = (ax, .error .notImplemented) := by
  obtain ⟨t, ts, rfl⟩ := List.exists_cons_of_ne_nil hne
  obtain ⟨c, cs, rfl⟩ := List.exists_cons_of_ne_nil hc
  have hg := treeOf_grown hp hnum (htree t (by simp))
  obtain ⟨own, N, m, P, d, w, h⟩ := htree t (by simp)
  unfold rfPlotIncumbent
  rw [ht]
  simp only [List.zip_cons_cons, forestLoop]
  rw [Plot.bind_error (C90_exact_other hg (by rw [h.space]; exact hinc) (by rw [h.space, h.selected]; exact ho) hn c ax)]

section colours
variable {K : Type} [Field K] [LinearOrder K] [Transc K]

theorem zip_take_left {α β : Type} (a : List α) (b : List β) : (a.take b.length).zip b = a.zip b := by
  induction a generalizing b with
  | nil => simp
  | cons x a ih => cases b <;> simp [ih]

theorem zip_take_right {α β : Type} (a : List α) (b : List β) : a.zip (b.take a.length) = a.zip b := by
  induction a generalizing b with
  | nil => simp
  | cons x a ih => cases b <;> simp [ih]

/-- Not every tree is shown: trees without a colour are left out without an error, colours without a tree are ignored. -/
theorem C91_colours_counterexample {p : RF K} {trees : List (DT K)} (ht : p.trees = some trees) (inc : Config K) (ax : Ax K) :
    rfPlotIncumbent [] inc p ax = (ax, .ok ()) ∧
    ∀ colors : List String, rfPlotIncumbent colors inc p ax = rfPlotIncumbent colors inc { p with trees := some (trees.take colors.length) } ax ∧
      rfPlotIncumbent colors inc p ax = rfPlotIncumbent (colors.take trees.length) inc p ax := by
  constructor
  · unfold rfPlotIncumbent
    rw [ht]
    simp [forestLoop]
  · intro colors
    unfold rfPlotIncumbent
    rw [ht]
    dsimp only
    constructor
    · rw [zip_take_left]
    · rw [zip_take_right]

/-- **C91** before `partition`: TypeError, the axis is untouched. -/
theorem C91_before_partition {p : RF K} (h : p.trees = none) (colors : List String) (inc : Config K) (ax : Ax K) :
    rfPlotIncumbent colors inc p ax = (ax, .error .type) := by
  unfold rfPlotIncumbent
  rw [h]
  rfl

end colours

section examples
local instance transcIncumbent : Transc ℚ := ⟨id, id⟩

/-- a selected hyperparameter and two others, in an order that is not that of their names -/
def exOthers (sel : HpKind ℚ) : ConfigSpace ℚ := [⟨"b", .float 0 4 false⟩, ⟨"s", sel⟩, ⟨"a", .float (-5) 5 false⟩]

/-- the tree `b <= 1/2`, then `a > 1/4` -/
def exGrown (sel : HpKind ℚ) : DT ℚ :=
  { cfg := ⟨exOthers sel, [⟨"s", sel⟩], [], 0, 0, 0, false, fun _ => .error .value⟩, possible := [⟨"b", .float 0 4 false⟩, ⟨"a", .float (-5) 5 false⟩],
    numSplits := 3, minPoints := 1, ice := iceInit ⟨exOthers sel, [⟨"s", sel⟩], [], 0, 0, 0, false, fun _ => .error .value⟩, root := ⟨0, [], [], [], []⟩,
    leaves := [⟨1, [], [], [], [⟨⟨"b", .float 0 4 false⟩, .flt (1/2), some false⟩]⟩,
      ⟨2, [], [], [], [⟨⟨"b", .float 0 4 false⟩, .flt (1/2), some true⟩, ⟨⟨"a", .float (-5) 5 false⟩, .flt (1/4), some false⟩]⟩,
      ⟨2, [], [], [], [⟨⟨"b", .float 0 4 false⟩, .flt (1/2), some true⟩, ⟨⟨"a", .float (-5) 5 false⟩, .flt (1/4), some true⟩]⟩] }

def exIncumbent : Config ℚ := ⟨[], [("b", .num 1), ("s", .num 3), ("a", .num 0)]⟩

/-- the box of the incumbent: `a` in [-5/2, 5], `b` in [0, 2] -/
example : dtPlotIncumbent "o" exIncumbent (exGrown (.float 0 9 false)) Ax.new =
    (⟨"a", "b", false, false, none, none, [.box "o" (-5/2) 5 0 2]⟩, .ok ()) := by decide +kernel
/-- with an integer selected hyperparameter: three hyperparameters to show, NotImplementedError -/
example : dtPlotIncumbent "o" exIncumbent (exGrown (.integer 0 9 false)) Ax.new = (Ax.new, .error .notImplemented) := by decide +kernel
/-- two trees with two colours, and with one -/
example : rfPlotIncumbent ["o", "p"] exIncumbent ⟨(exGrown (.float 0 9 false)).cfg, [], 3, 1, none, some [exGrown (.float 0 9 false), exGrown (.float 0 9 false)]⟩
    Ax.new = (⟨"a", "b", false, false, none, none, [.box "o" (-5/2) 5 0 2, .box "p" (-5/2) 5 0 2]⟩, .ok ()) := by decide +kernel
example : rfPlotIncumbent ["o"] exIncumbent ⟨(exGrown (.float 0 9 false)).cfg, [], 3, 1, none, some [exGrown (.float 0 9 false), exGrown (.float 0 9 false)]⟩
    Ax.new = (⟨"a", "b", false, false, none, none, [.box "o" (-5/2) 5 0 2]⟩, .ok ()) := by decide +kernel

/-- the hypotheses hold for a space with one selected and one other hyperparameter -/
example : ByName [⟨"y", .float 0 1 false⟩, ⟨"x", .integer 1 5 true⟩] (fun hp => hp ∉ [(⟨"y", .float 0 1 false⟩ : Hp ℝ)]) [⟨"x", .integer 1 5 true⟩] ∧
    FloatSelected [⟨"y", .float 0 1 false⟩] ∧ NumericalSpace [⟨"y", .float 0 1 false⟩, ⟨"x", .integer 1 5 true⟩] := by
  refine ⟨⟨fun hp => ?_, by simp⟩, by simp [FloatSelected], ?_⟩
  · simp only [List.mem_cons, List.not_mem_nil, or_false]
    constructor
    · rintro rfl; simp
    · rintro ⟨rfl | rfl, h⟩
      · exact absurd rfl h
      · rfl
  · intro hp hm
    simp only [List.mem_cons, List.not_mem_nil, or_false] at hm
    rcases hm with rfl | rfl
    · exact ⟨0, 1, false, rfl, by norm_num, by simp⟩
    · exact ⟨1, 5, true, rfl, by norm_num, by norm_num⟩

end examples

end PyPDP
