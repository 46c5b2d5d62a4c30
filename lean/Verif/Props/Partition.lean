/-
C49-C52, C54, C56, C61: the partition of a decision tree partitioner.
-/
import Verif.Lemmas.Tree
import Verif.Props.IceObject

namespace PyPDP
open Spec
variable {K : Type}

/-! ### construction -/

theorem reshape2_shape {rows cols : Nat} {flat : List K} {m : List (List K)} (h : reshape2 rows cols flat = .ok m) : Shape2 rows cols m := by
  unfold reshape2 at h
  split at h
  · rename_i hl
    obtain rfl := Except.ok.inj h
    refine ⟨by simp, fun r hr => ?_⟩
    obtain ⟨i, hi, rfl⟩ := List.mem_map.1 hr
    have hi := List.mem_range.1 hi
    have : (i + 1) * cols ≤ rows * cols := Nat.mul_le_mul_right _ hi
    rw [Nat.add_mul] at this
    simp only [List.length_take, List.length_drop]
    omega
  · cases h

theorem iceCalc_shapes [Field K] {c : IceCfg K} {grid : List (List K)} {d : IceData K} (h : iceCalc c grid = .ok d) :
    Shape2 c.numSamples c.numGrid d.y ∧ Shape2 c.numSamples c.numGrid d.v := by
  unfold iceCalc at h
  obtain ⟨idx, _, h⟩ := Py.bind_eq_ok.1 h
  obtain ⟨x0, _, h⟩ := Py.bind_eq_ok.1 h
  obtain ⟨x, _, h⟩ := Py.bind_eq_ok.1 h
  obtain ⟨⟨means, stds⟩, _, h⟩ := Py.bind_eq_ok.1 h
  obtain ⟨y, hy, h⟩ := Py.bind_eq_ok.1 h
  obtain ⟨sv, hs, h⟩ := Py.bind_eq_ok.1 h
  obtain ⟨y', hy', h⟩ := Py.bind_eq_ok.1 h
  have h1 := reshape2_shape hy
  have h2 := reshape2_shape hs
  split at h
  · obtain rfl := Except.ok.inj h
    refine ⟨?_, by simp [h2.1], ?_⟩
    · unfold maybeCenter centerRows at hy'
      split at hy'
      · split at hy'
        · cases hy'
        · obtain rfl := Except.ok.inj hy'
          refine ⟨by simp [h1.1], fun r hr => ?_⟩
          obtain ⟨q, hq, rfl⟩ := List.mem_map.1 hr
          simp [h1.2 q hq]
      · obtain rfl := Except.ok.inj hy'
        exact h1
    · intro r hr
      obtain ⟨q, hq, rfl⟩ := List.mem_map.1 hr
      simp [h2.2 q hq]
  · cases h

theorem readAll_fresh [Field K] {i : IceState K} (hi : Fresh i) :
    (∀ d, calcNow i = .ok d → ∃ i', readAll i = .ok (i', d) ∧ Stored i' d ∧ i'.cfg = i.cfg) ∧
    (∀ e, calcNow i = .error e → readAll i = .error e) := by
  obtain ⟨hx, -, -⟩ := reads_of_fresh hi
  constructor
  · intro d hd
    obtain ⟨h1, h2, h3⟩ := (iceCalculate_eq i).1 d hd
    obtain ⟨-, r2, r3⟩ := reads_of_stored h2
    refine ⟨(iceCalculate i).1, ?_, h2, h3⟩
    unfold readAll
    rw [hx]
    dsimp only
    rw [h1, Py.map_ok, Py.ok_bind, r2]
    dsimp only
    rw [Py.ok_bind, r3]
    rfl
  · intro e he
    obtain ⟨h1, -, -⟩ := (iceCalculate_eq i).2 e he
    unfold readAll
    rw [hx]
    dsimp only
    rw [h1]
    rfl

theorem ownIce_eq {c : IceCfg K} (h1 : c.numSamples = c.samples.length) (h2 : c.numGrid = c.perAxis ^ c.selected.length)
    (h3 : c.centered = false) : ownIce c = .ok (iceInit c) := by
  have : (c.selected.map SelItem.hp).mapM (resolveItem c.space) = .ok c.selected := by
    rw [Py.mapM_eq_ok, List.forall₂_map_left_iff]
    exact List.forall₂_same.2 fun hp _ => rfl
  obtain ⟨a, b, s, n, g, m, ce, pr⟩ := c
  dsimp only at *
  subst h1 h2 h3
  simp [ownIce, algorithmInit, convertHyperparameters, this]

theorem algorithmInit_eq {space : ConfigSpace K} {predict : Predict K} {sel : Selection K} {samples : List (List K)} {perAxis : Nat} {c : IceCfg K}
    (h : algorithmInit space predict sel samples perAxis = .ok c) :
    convertHyperparameters sel space = .ok c.selected ∧ c.space = space ∧ c.samples = samples ∧ c.perAxis = perAxis ∧ c.predict = predict ∧
      c.numSamples = samples.length ∧ c.numGrid = perAxis ^ c.selected.length ∧ c.centered = false := by
  obtain ⟨hps, hsel, h⟩ := Py.bind_eq_ok.1 h
  obtain rfl := Except.ok.inj h
  exact ⟨hsel, rfl, rfl, rfl, rfl, rfl, rfl, rfl⟩

/-- what the constructor does -/
theorem dtInit_ok [Field K] {space : ConfigSpace K} {predict : Predict K} {sel : Selection K} {samples : List (List K)}
    {perAxis numSplits minPoints : Nat} {notSplittable : Option (Selection K)} {p : DT K}
    (h : dtInit space predict sel samples perAxis numSplits minPoints notSplittable = .ok p) :
    ∃ c ns i d, algorithmInit space predict sel samples perAxis = .ok c ∧ notSplittableHps notSplittable space = .ok ns ∧
      calcNow (iceInit c) = .ok d ∧ Stored i d ∧ i.cfg = c ∧
      p = ⟨c, possibleSplits space c.selected ns, numSplits, minPoints, i, ⟨0, d.x, d.y, d.v, []⟩, []⟩ := by
  unfold dtInit at h
  obtain ⟨c, hc, h⟩ := Py.bind_eq_ok.1 h
  obtain ⟨ns, hns, h⟩ := Py.bind_eq_ok.1 h
  obtain ⟨i, hi, h⟩ := Py.bind_eq_ok.1 h
  obtain ⟨⟨i', d⟩, hd, h⟩ := Py.bind_eq_ok.1 h
  obtain ⟨root, hroot, h⟩ := Py.bind_eq_ok.1 h
  obtain rfl := Except.ok.inj h
  obtain ⟨-, -, e3, e4, -, e6, e7, e8⟩ := algorithmInit_eq hc
  rw [ownIce_eq (by rw [e6, e3]) (by rw [e7, e4]) e8] at hi
  obtain rfl := Except.ok.inj hi
  obtain ⟨r1, r2⟩ := readAll_fresh (fresh_init c)
  cases hcalc : calcNow (iceInit c) with
  | error e => rw [r2 e hcalc] at hd; cases hd
  | ok d' =>
    obtain ⟨i2, h1, h2, h3⟩ := r1 d' hcalc
    rw [h1] at hd
    obtain ⟨rfl, rfl⟩ := Prod.mk.inj (Except.ok.inj hd)
    unfold mkNode at hroot
    split at hroot
    · obtain rfl := Except.ok.inj hroot
      exact ⟨c, ns, i2, d', hc, hns, hcalc, h2, h3, rfl⟩
    · cases hroot

/-- A newly built partitioner is valid, and its root holds, sample by sample, the curves of the ICE calculation. -/
theorem dt_valid [Field K] [LinearOrder K] [IsStrictOrderedRing K] {space : ConfigSpace K} (hwf : space.WF) {predict : Predict K} {sel : Selection K}
    {samples : List (List K)} (hrows : ∀ r ∈ samples, r.length = space.length) {perAxis numSplits minPoints : Nat} (hg : 1 ≤ perAxis)
    {notSplittable : Option (Selection K)} {p : DT K}
    (h : dtInit space predict sel samples perAxis numSplits minPoints notSplittable = .ok p)
    (hmem : ∀ hp ∈ p.cfg.selected, hp ∈ space) (hd : (p.cfg.selected.map Hp.name).Nodup) (hne : p.cfg.selected ≠ []) :
    ValidDT (perAxis ^ p.cfg.selected.length) p ∧ ValidCfg p.cfg ∧ (curves p.root).length = samples.length ∧ p.cfg.space = space := by
  obtain ⟨c, ns, i, d, hc, hns, hcalc, hst, hcfg, rfl⟩ := dtInit_ok h
  dsimp only at *
  obtain ⟨hv, e2, e3, e4, e5⟩ := algorithmInit_valid hwf hrows hc hne hmem hd
  obtain ⟨grid, hgr, hgl, hfull⟩ := C40_grid (K := K) (List.length_pos_iff.2 hne) c.perAxis
  have hgl' : grid.length = c.numGrid := by rw [hgl, hv.num_grid]
  rw [calcNow_init c hgr] at hcalc
  obtain ⟨hx, -⟩ := C41_x_ice hv hgl' (fun t ht => ((hfull.2 t).1 ht).1) hcalc
  obtain ⟨hy, hvv⟩ := iceCalc_shapes hcalc
  rw [hv.num_samples] at hy hvv
  have hP : c.numGrid = perAxis ^ c.selected.length := by rw [hv.num_grid, e4]
  rw [hP] at hx hy hvv
  have hsh : RegionShape (perAxis ^ c.selected.length) c.space.length (⟨0, d.x, d.y, d.v, []⟩ : Node K) :=
    ⟨Nat.one_le_pow _ _ hg, by rw [hx.1, hy.1], by rw [hy.1, hvv.1], fun m hm => ⟨(hx.2 m hm).1, (hx.2 m hm).2⟩, hy.2, hvv.2⟩
  refine ⟨⟨hv.wf, ?_, hsh, rfl, rfl⟩, hv, ?_, e2⟩
  · intro hp hhp
    rw [e2]
    exact List.mem_of_mem_filter hhp
  · rw [hsh.curves_length, hx.1, e3]

/-! ### everything below is about a valid partitioner -/

variable [Field K] [LinearOrder K]
variable {cs possible : List (Hp K)} {N minPoints P : Nat} {d : Int}

theorem Spec.Greedy.shape {n : Node K} {L : List (Node K)} (h : Greedy cs possible N minPoints P d n L) :
    RegionShape P cs.length n := by
  cases h <;> assumption

theorem Spec.Greedy.shapes {n : Node K} {L : List (Node K)} (h : Greedy cs possible N minPoints P d n L) :
    ∀ m ∈ L, RegionShape P cs.length m := by
  induction h with
  | leaf hn _ => intro m hm; rw [List.mem_singleton.1 hm]; exact hn
  | branch _ _ _ _ _ _ _ ih1 ih2 =>
    intro m hm
    rcases List.mem_append.1 hm with hm | hm
    exacts [ih2 m hm, ih1 m hm]

theorem Spec.Greedy.perm {n : Node K} {L : List (Node K)} (h : Greedy cs possible N minPoints P d n L) :
    (L.flatMap curves).Perm (curves n) := by
  induction h with
  | leaf _ _ => simp
  | branch _ _ _ _ hsp _ _ ih1 ih2 =>
    rw [List.flatMap_append]
    exact (ih2.append ih1).trans (List.perm_append_comm.trans (IsSplit.counts hsp))

/-- a condition that the tree may contain -/
def CondOf (possible : List (Hp K)) (N : Nat) (c : Cond K) : Prop :=
  c.hp ∈ possible ∧ (∃ j, 1 ≤ j ∧ j ≤ N ∧ c.nval = .flt (threshold N j)) ∧ ∃ b, c.lessEqual = some b

theorem Spec.Greedy.path {n : Node K} {L : List (Node K)} (h : Greedy cs possible N minPoints P d n L) :
    ∀ m ∈ L, (curves m).Sublist (curves n) ∧ ∃ more, m.conds = n.conds ++ more ∧ m.depth = n.depth + more.length ∧
      (∀ c ∈ more, CondOf possible N c) ∧ (m = n ∨ minPoints ≤ (curves m).length) ∧ ((m.depth : Int) ≤ d ∨ m = n) := by
  induction h with
  | leaf hn _ =>
    intro m hm
    rw [List.mem_singleton.1 hm]
    exact ⟨List.Sublist.refl _, [], by simp, rfl, by simp, .inl rfl, .inr rfl⟩
  | @branch n l r Ll Lr i j hp f hn hdep h2 hb hsp _ _ ih1 ih2 =>
    have key : ∀ (ch : Node K) (b : Bool) (Lc : List (Node K)), (curves ch).Sublist (curves n) → minPoints ≤ (curves ch).length →
        ch.depth = n.depth + 1 → ch.conds = n.conds ++ [⟨hp, .flt (threshold N j), some b⟩] →
        (∀ m ∈ Lc, (curves m).Sublist (curves ch) ∧ ∃ more, m.conds = ch.conds ++ more ∧ m.depth = ch.depth + more.length ∧
          (∀ c ∈ more, CondOf possible N c) ∧ (m = ch ∨ minPoints ≤ (curves m).length) ∧ ((m.depth : Int) ≤ d ∨ m = ch)) →
        ∀ m ∈ Lc, (curves m).Sublist (curves n) ∧ ∃ more, m.conds = n.conds ++ more ∧ m.depth = n.depth + more.length ∧
          (∀ c ∈ more, CondOf possible N c) ∧ (m = n ∨ minPoints ≤ (curves m).length) ∧ ((m.depth : Int) ≤ d ∨ m = n) := by
      intro ch b Lc hs hsz hdp hcd ih m hm
      obtain ⟨h1, more, h2, h3, h4, h5, h6⟩ := ih m hm
      refine ⟨h1.trans hs, ⟨hp, .flt (threshold N j), some b⟩ :: more, ?_, ?_, ?_, .inr ?_, .inl ?_⟩
      · rw [h2, hcd]; simp
      · rw [h3, hdp]; simp; omega
      · intro c hc
        rcases List.mem_cons.1 hc with rfl | hc
        · exact ⟨List.mem_of_getElem? hb.1.hp_at, ⟨j, hb.1.one_le, hb.1.le, rfl⟩, b, rfl⟩
        · exact h4 c hc
      · rcases h5 with rfl | h5
        exacts [hsz, h5]
      · rcases h6 with h6 | rfl
        · exact h6
        · rw [hdp]; push_cast; omega
    intro m hm
    rcases List.mem_append.1 hm with hm | hm
    · refine key r false Lr ?_ ?_ hsp.right_depth hsp.right_conds ih2 m hm
      · rw [hsp.right_curves]; exact List.filter_sublist
      · rw [hsp.right_curves]; exact hb.1.right_size
    · refine key l true Ll ?_ ?_ hsp.left_depth hsp.left_conds ih1 m hm
      · rw [hsp.left_curves]; exact List.filter_sublist
      · rw [hsp.left_curves]; exact hb.1.left_size

theorem Spec.Greedy.stopped {n : Node K} {L : List (Node K)} (h : Greedy cs possible N minPoints P d n L) :
    ∀ m ∈ L, d ≤ m.depth ∨ (curves m).length ≤ 1 ∨ ∀ i j hp f, ¬ IsCandidate cs possible N minPoints (curves m) i j hp f := by
  induction h with
  | leaf _ hs => intro m hm; rw [List.mem_singleton.1 hm]; exact hs
  | branch _ _ _ _ _ _ _ ih1 ih2 =>
    intro m hm
    rcases List.mem_append.1 hm with hm | hm
    exacts [ih2 m hm, ih1 m hm]

theorem curveLoss_split [IsStrictOrderedRing K] {f : Nat} {hp : Hp K} {t : K} {n l r : Node K} {F : Nat} (hn : RegionShape P F n)
    (hsp : IsSplit f hp t n l r) : curveLoss P (curves l) + curveLoss P (curves r) ≤ curveLoss P (curves n) := by
  have hv : Shape2 n.v.length P ((curves n).map fun c => c.2.2) := by rw [hn.map_v]; exact ⟨rfl, hn.vs⟩
  have hle := regionLoss_filter_le (curves n) (fun c => c.2.2) hv (fun c => decide (featureOf f c ≤ t))
  have hcl : ∀ q : List (Curve K), (∀ c ∈ q, c ∈ curves n) → regionLoss (q.map fun c => c.2.2) = curveLoss P q := by
    intro q hq
    have hsh : RegionShape P F (⟨0, q.map Prod.fst, q.map (fun c => c.2.1), q.map (fun c => c.2.2), []⟩ : Node K) := by
      refine ⟨hn.pos, by simp, by simp, fun m hm => ?_, fun m hm => ?_, fun m hm => ?_⟩
      · obtain ⟨c, hc, rfl⟩ := List.mem_map.1 hm
        exact hn.xs _ (by rw [← hn.map_x]; exact List.mem_map_of_mem (hq c hc))
      · obtain ⟨c, hc, rfl⟩ := List.mem_map.1 hm
        exact hn.ys _ (by rw [← hn.map_y]; exact List.mem_map_of_mem (f := fun c => c.2.1) (hq c hc))
      · obtain ⟨c, hc, rfl⟩ := List.mem_map.1 hm
        exact hn.vs _ (by rw [← hn.map_v]; exact List.mem_map_of_mem (f := fun c => c.2.2) (hq c hc))
    have hcq : curves (⟨0, q.map Prod.fst, q.map (fun c => c.2.1), q.map (fun c => c.2.2), []⟩ : Node K) = q := by
      simp only [curves]
      clear hsh hq
      induction q with
      | nil => rfl
      | cons a as ih => simp only [List.map_cons, List.zip_cons_cons, ih]
    have := regionLoss_curves hsh
    rw [hcq] at this
    exact this
  rw [hcl _ fun c hc => List.mem_of_mem_filter hc, hcl _ fun c hc => List.mem_of_mem_filter hc, hcl _ fun c hc => hc] at hle
  have e : (fun c : Curve K => decide (t < featureOf f c)) = fun c => !decide (featureOf f c ≤ t) := by
    funext c; simp [← not_le]
  rw [hsp.left_curves, hsp.right_curves, e]
  exact hle

theorem Spec.Greedy.loss_le [IsStrictOrderedRing K] {n : Node K} {L : List (Node K)} (h : Greedy cs possible N minPoints P d n L) :
    (L.map fun m => curveLoss P (curves m)).sum ≤ curveLoss P (curves n) := by
  induction h with
  | leaf _ _ => simp
  | branch hn _ _ _ hsp _ _ ih1 ih2 =>
    rw [List.map_append, List.sum_append]
    have := curveLoss_split hn hsp
    linarith

variable [IsStrictOrderedRing K] [Transc K] {p : DT K}

/-- **C50** the leaves hold the root's curves, each in exactly one leaf, unaltered: put together they are a rearrangement. -/
theorem C50_leaves_partition (hp : ValidDT P p) (hd : 0 < d) :
    ∃ leaves, (dtPartition p d).2 = .ok leaves ∧ (dtPartition p d).1.leaves = leaves ∧ (leaves.flatMap curves).Perm (curves p.root) ∧
      (∀ m ∈ leaves, RegionShape P p.cfg.space.length m ∧ (curves m).Sublist (curves p.root)) := by
  obtain ⟨L, h1, -, h3, -⟩ := partition_eq hp hd
  exact ⟨L, by rw [h1], by rw [h1], h3.perm, fun m hm => ⟨h3.shapes m hm, (h3.path m hm).1⟩⟩

/-- **C49** conditions mention neither selected nor excluded hyperparameters, only ones of the space. -/
theorem C49_never_split {space : ConfigSpace K} {predict : Predict K} {sel : Selection K} {samples : List (List K)}
    {perAxis numSplits minPoints : Nat} {notSplittable : Option (Selection K)}
    (h : dtInit space predict sel samples perAxis numSplits minPoints notSplittable = .ok p) (hv : ValidDT P p) {leaves : List (Node K)}
    (hL : (dtPartition p d).2 = .ok leaves) {leaf : Node K} (hleaf : leaf ∈ leaves) {c : Cond K} (hc : c ∈ leaf.conds) :
    c.hp ∈ space ∧ (∀ s ∈ p.cfg.selected, c.hp.name ≠ s.name) ∧
    (∀ sel' ns, notSplittable = some sel' → getHyperparameters sel' space = .ok ns → ∀ s ∈ ns, c.hp.name ≠ s.name) ∧
    ∃ j, 1 ≤ j ∧ j ≤ numSplits ∧ c.nval = .flt ((j : K) / ((numSplits : K) + 1)) := by
  by_cases hd : 0 < d
  · obtain ⟨L, h1, -, h3, -⟩ := partition_eq hv hd
    rw [h1] at hL
    obtain rfl := Except.ok.inj hL
    obtain ⟨-, more, h4, -, h5, -⟩ := h3.path leaf hleaf
    rw [hv.conds, List.nil_append] at h4
    rw [h4] at hc
    obtain ⟨hm, hj, -⟩ := h5 c hc
    obtain ⟨c', ns, i, dd, hc', hns, -, -, -, rfl⟩ := dtInit_ok h
    dsimp only at *
    unfold possibleSplits at hm
    rw [List.mem_filter] at hm
    simp only [decide_eq_true_eq] at hm
    refine ⟨hm.1, fun s hs he => hm.2.1 (he ▸ List.mem_map_of_mem hs), ?_, hj⟩
    rintro sel' ns' rfl hns' s hs he
    rw [notSplittableHps, hns'] at hns
    obtain rfl := Except.ok.inj hns
    exact hm.2.2 (he ▸ List.mem_map_of_mem hs)
  · unfold dtPartition at hL
    rw [if_neg hd] at hL
    cases hL

/-- **C51** termination, depth limit, number of leaves, depth = number of conditions. -/
theorem C51_depth_and_count (hp : ValidDT P p) (hd : 0 < d) :
    ∃ leaves, (dtPartition p d).2 = .ok leaves ∧ 1 ≤ leaves.length ∧ leaves.length ≤ 2 ^ d.toNat ∧
      ∀ m ∈ leaves, (m.depth : Int) ≤ d ∧ m.depth = m.conds.length := by
  obtain ⟨L, h1, h2, h3, h4⟩ := partition_eq hp hd
  refine ⟨L, by rw [h1], h2.ne_nil, h4, fun m hm => ?_⟩
  obtain ⟨-, more, e1, e2, -, -, e3⟩ := h3.path m hm
  rw [hp.conds, List.nil_append] at e1
  rw [hp.depth, Nat.zero_add] at e2
  refine ⟨?_, by rw [e1, e2]⟩
  rcases e3 with e3 | rfl
  · exact e3
  · rw [hp.depth]; exact hd.le

omit [IsStrictOrderedRing K] in
/-- **C51** a depth limit that is not positive is refused, nothing changes. -/
theorem C51_no_depth (p : DT K) (hd : d ≤ 0) : dtPartition p d = (p, .error .assertion) := by
  unfold dtPartition
  rw [if_neg (by omega)]

/-- **C52** the only leaf that may be smaller than `min_points_per_node` is the root itself. -/
theorem C52_min_points (hp : ValidDT P p) {leaves : List (Node K)} (h : (dtPartition p d).2 = .ok leaves) {leaf : Node K} (hl : leaf ∈ leaves)
    (hroot : leaf ≠ p.root) : p.minPoints ≤ (curves leaf).length ∧ (curves leaf).length = leaf.x.length := by
  by_cases hd : 0 < d
  · obtain ⟨L, h1, -, h3, -⟩ := partition_eq hp hd
    rw [h1] at h
    obtain rfl := Except.ok.inj h
    obtain ⟨-, more, -, -, -, h5, -⟩ := h3.path leaf hl
    exact ⟨h5.resolve_left hroot, (h3.shapes leaf hl).curves_length⟩
  · rw [C51_no_depth p (by omega)] at h; cases h

/-- **C54** a leaf is at the depth limit, or has at most one curve, or no threshold of any splittable hyperparameter leaves enough curves
on both sides. -/
theorem C54_split_whenever_possible (hp : ValidDT P p) {leaves : List (Node K)} (h : (dtPartition p d).2 = .ok leaves) {leaf : Node K}
    (hl : leaf ∈ leaves) :
    leaf.depth = d ∨ (curves leaf).length ≤ 1 ∨
      ∀ i j hp f, ¬ IsCandidate p.cfg.space p.possible p.numSplits p.minPoints (curves leaf) i j hp f := by
  by_cases hd : 0 < d
  · obtain ⟨L, h1, -, h3, -⟩ := partition_eq hp hd
    obtain ⟨L', h1', -, -, h6⟩ := C51_depth_and_count hp hd
    rw [h1'] at h
    obtain rfl := Except.ok.inj h
    rw [h1] at h1'
    obtain rfl := Except.ok.inj h1'
    rcases h3.stopped leaf hl with h7 | h7
    · exact .inl (le_antisymm (h6 leaf hl).1 h7)
    · exact .inr h7
  · rw [C51_no_depth p (by omega)] at h; cases h

/-- **C53**, **C54** as a whole: `partition` grows exactly the greedy tree. -/
theorem C54_greedy_tree (hp : ValidDT P p) (hd : 0 < d) :
    ∃ leaves, (dtPartition p d).2 = .ok leaves ∧ Greedy p.cfg.space p.possible p.numSplits p.minPoints P d p.root leaves := by
  obtain ⟨L, h1, -, h3, -⟩ := partition_eq hp hd
  exact ⟨L, by rw [h1], h3⟩

/-- **C56** one split never increases the loss. -/
theorem C56_split {F : Nat} {n : Node K} (hn : RegionShape P F n) {h : Hp K} {t : K} {l r : Node K} {f : Nat} (hf : ConfigSpace.idx cs h.name = .ok f)
    (hfF : f < F) (hs : splitAtValue cs n h t = .ok (l, r)) : regionLoss l.v + regionLoss r.v ≤ regionLoss n.v := by
  obtain ⟨l', r', hs', hsp, hl, hr⟩ := splitAtValue_spec hn hf hfF t
  rw [hs'] at hs
  obtain ⟨rfl, rfl⟩ := Prod.mk.inj (Except.ok.inj hs)
  rw [regionLoss_curves hl, regionLoss_curves hr, regionLoss_curves hn]
  exact curveLoss_split hn hsp

omit [LinearOrder K] [IsStrictOrderedRing K] [Transc K] in
theorem loss_sum_eq {L : List (Node K)} {F : Nat} (h : ∀ m ∈ L, RegionShape P F m) :
    (L.map fun m => regionLoss m.v).sum = (L.map fun m => curveLoss P (curves m)).sum := by
  congr 1
  exact List.map_congr_left fun m hm => regionLoss_curves (h m hm)

theorem grown_greedy (hwf : ConfigSpace.WF cs) (hpos : ∀ hp ∈ possible, hp ∈ cs) {n : Node K} {L : List (Node K)}
    (hg : Grown (calcBestSplit cs possible N minPoints) d n L) (hn : RegionShape P cs.length n) : Greedy cs possible N minPoints P d n L := by
  induction hg with
  | stop hs =>
    refine .leaf hn ?_
    rcases hs with hs | hs
    · right; left
      rw [hn.curves_length]
      simpa [Node.splittable] using hs
    · exact .inl hs
  | @noSplit n hs he =>
    push Not at hs
    have h2 : 2 ≤ (curves n).length := by
      rw [hn.curves_length]
      have := hs.1
      simp [Node.splittable] at this
      omega
    obtain ⟨res, hres, hnone, -⟩ := C53_best_split hwf hpos hn h2 N minPoints
    rw [he] at hres
    obtain rfl := Except.ok.inj hres
    exact .leaf hn (.inr (.inr (hnone.1 rfl)))
  | @branch n l r Ll Lr hs he _ _ ih1 ih2 =>
    push Not at hs
    have h2 : 2 ≤ (curves n).length := by
      rw [hn.curves_length]
      have := hs.1
      simp [Node.splittable] at this
      omega
    obtain ⟨res, hres, -, hsome⟩ := C53_best_split hwf hpos hn h2 N minPoints
    rw [he] at hres
    obtain rfl := Except.ok.inj hres
    obtain ⟨i, j, hp, f, hb, hsp, hl, hr⟩ := hsome _ _ rfl
    exact .branch hn hs.2 h2 hb hsp (ih1 hl) (ih2 hr)

/-- deeper trees refine shallower ones -/
theorem grown_refines (hwf : ConfigSpace.WF cs) (hpos : ∀ hp ∈ possible, hp ∈ cs) {d' : Int} (hdd : d ≤ d') {n : Node K} {L L' : List (Node K)}
    (hg : Grown (calcBestSplit cs possible N minPoints) d n L) (hg' : Grown (calcBestSplit cs possible N minPoints) d' n L')
    (hn : RegionShape P cs.length n) :
    (∀ m' ∈ L', ∃ m ∈ L, (curves m').Sublist (curves m) ∧ m.conds <+: m'.conds) ∧
    (L'.map fun m => curveLoss P (curves m)).sum ≤ (L.map fun m => curveLoss P (curves m)).sum := by
  have single : ∀ {n : Node K} {L' : List (Node K)}, Grown (calcBestSplit cs possible N minPoints) d' n L' → RegionShape P cs.length n →
      (∀ m' ∈ L', ∃ m ∈ [n], (curves m').Sublist (curves m) ∧ m.conds <+: m'.conds) ∧
      (L'.map fun m => curveLoss P (curves m)).sum ≤ ([n].map fun m => curveLoss P (curves m)).sum := by
    intro n L' hg' hn
    have hgr := grown_greedy hwf hpos hg' hn
    refine ⟨fun m' hm' => ⟨n, by simp, ?_⟩, ?_⟩
    · obtain ⟨h1, more, h2, -⟩ := hgr.path m' hm'
      exact ⟨h1, h2 ▸ List.prefix_append _ _⟩
    · simpa using hgr.loss_le
  induction hg generalizing L' with
  | stop => exact single hg' hn
  | noSplit => exact single hg' hn
  | @branch n l r Ll Lr hs he hl hr ih1 ih2 =>
    have hs' := hs
    push Not at hs'
    have h2 : 2 ≤ (curves n).length := by
      rw [hn.curves_length]
      have := hs'.1
      simp [Node.splittable] at this
      omega
    obtain ⟨res, hres, -, hsome⟩ := C53_best_split hwf hpos hn h2 N minPoints
    rw [he] at hres
    obtain rfl := Except.ok.inj hres
    obtain ⟨i, j, hp, f, hb, hsp, hshl, hshr⟩ := hsome _ _ rfl
    by_cases hs2 : n.splittable = false ∨ d' ≤ n.depth
    · exfalso
      rcases hs2 with h | h
      · exact hs'.1 h
      · have := hs'.2; omega
    · cases hg' with
      | stop h => exact absurd h hs2
      | noSplit _ h => rw [he] at h; cases h
      | branch _ h hl' hr' =>
        rw [he] at h
        obtain ⟨rfl, rfl⟩ := Prod.mk.inj (Option.some.inj (Except.ok.inj h))
        obtain ⟨a1, a2⟩ := ih1 hl' hshl
        obtain ⟨b1, b2⟩ := ih2 hr' hshr
        refine ⟨fun m' hm' => ?_, ?_⟩
        · rcases List.mem_append.1 hm' with hm' | hm'
          · obtain ⟨m, hm, h⟩ := b1 m' hm'
            exact ⟨m, List.mem_append_left _ hm, h⟩
          · obtain ⟨m, hm, h⟩ := a1 m' hm'
            exact ⟨m, List.mem_append_right _ hm, h⟩
        · simp only [List.map_append, List.sum_append]
          linarith

/-- **C56** the leaves' total loss is at most the root's, and does not grow with the depth limit. -/
theorem C56_total (hp : ValidDT P p) {d' : Int} (hd : 0 < d) (hdd : d ≤ d') :
    ∃ leaves leaves', (dtPartition p d).2 = .ok leaves ∧ (dtPartition p d').2 = .ok leaves' ∧
      (leaves.map fun m => regionLoss m.v).sum ≤ regionLoss p.root.v ∧
      (leaves'.map fun m => regionLoss m.v).sum ≤ (leaves.map fun m => regionLoss m.v).sum := by
  obtain ⟨L, h1, h2, h3, -⟩ := partition_eq hp hd
  obtain ⟨L', h1', h2', h3', -⟩ := partition_eq hp (hd.trans_le hdd)
  refine ⟨L, L', by rw [h1], by rw [h1'], ?_, ?_⟩
  · rw [loss_sum_eq h3.shapes, regionLoss_curves hp.shape]; exact h3.loss_le
  · rw [loss_sum_eq h3.shapes, loss_sum_eq h3'.shapes]
    exact (grown_refines hp.wf hp.possible_mem hdd h2 h2' hp.shape).2

/-! ### C61 -/

/-- the partitioner after some calls of `partition` -/
def partitionCalls (p : DT K) (depths : List Int) : DT K := depths.foldl (fun q d => (dtPartition q d).1) p

omit [IsStrictOrderedRing K] in
theorem dtPartition_same (p : DT K) (d : Int) : ∃ L, (dtPartition p d).1 = { p with leaves := L } := by
  unfold dtPartition
  split
  · split <;> exact ⟨_, rfl⟩
  · exact ⟨p.leaves, rfl⟩

omit [IsStrictOrderedRing K] in
theorem partitionCalls_same (p : DT K) (depths : List Int) : ∃ L, partitionCalls p depths = { p with leaves := L } := by
  unfold partitionCalls
  induction depths generalizing p with
  | nil => exact ⟨p.leaves, rfl⟩
  | cons d ds ih =>
    obtain ⟨L, hL⟩ := dtPartition_same p d
    rw [List.foldl_cons, hL]
    obtain ⟨L', hL'⟩ := ih { p with leaves := L }
    exact ⟨L', hL'⟩

omit [IsStrictOrderedRing K] in
/-- **C61** whatever was called before, the result depends on the depth only. -/
theorem C61_repeatable (p : DT K) (depths : List Int) (d : Int) :
    (dtPartition (partitionCalls p depths) d).2 = (dtPartition p d).2 ∧
    (0 < d → (dtPartition (partitionCalls p depths) d).1.leaves = (dtPartition p d).1.leaves) := by
  obtain ⟨L, hL⟩ := partitionCalls_same p depths
  rw [hL]
  unfold dtPartition
  constructor
  · split
    · rfl
    · rfl
  · intro hd
    rw [if_pos hd, if_pos hd]

/-- **C61** with a larger depth limit every leaf lies within a leaf of the smaller one: its curves are among that leaf's, its conditions
extend that leaf's. -/
theorem C61_refines (hp : ValidDT P p) {d' : Int} (hd : 0 < d) (hdd : d ≤ d') :
    ∃ leaves leaves', (dtPartition p d).2 = .ok leaves ∧ (dtPartition p d').2 = .ok leaves' ∧
      ∀ m' ∈ leaves', ∃ m ∈ leaves, (curves m').Sublist (curves m) ∧ m.conds <+: m'.conds := by
  obtain ⟨L, h1, h2, -, -⟩ := partition_eq hp hd
  obtain ⟨L', h1', h2', -, -⟩ := partition_eq hp (hd.trans_le hdd)
  exact ⟨L, L', by rw [h1], by rw [h1'], (grown_refines hp.wf hp.possible_mem hdd h2 h2' hp.shape).1⟩

/-! ### a concrete tree -/

section concrete

/-- four samples, `x2` selected, deviation `x1` at the grid point 1 and 0 at the grid point 0 -/
def exDt : Py (DT ℚ) :=
  dtInit [⟨"x1", .float (-5) 5 false⟩, ⟨"x2", .float 0 1 false⟩]
    (fun rows => .ok (rows.map fun r => r.getD 0 0 + 2 * r.getD 1 0, rows.map fun r => r.getD 0 0 * r.getD 1 0))
    (.name "x2") [[1/10, 0], [9/10, 0], [2/10, 0], [8/10, 0]] 2 3 1 none

local instance : Transc ℚ := ⟨id, id⟩

/-- it is built and has four curves; `x1` is split -/
example : exDt.map (fun p => (p.possible.map Hp.name, p.root.x.length, p.root.v)) =
    .ok (["x1"], 4, [[0, 1/100], [0, 81/100], [0, 4/100], [0, 64/100]]) := by decide +kernel

/-- depth 1: the first of the equally good thresholds 1/4, 1/2, 3/4 is taken; the right part comes first -/
example : (exDt.bind fun p => (dtPartition p 1).2).map (fun L => L.map fun m => (m.depth, m.y)) =
    .ok [(1, [[9/10, 29/10], [8/10, 28/10]]), (1, [[1/10, 21/10], [2/10, 22/10]])] := by
  decide +kernel

example : (exDt.bind fun p => (dtPartition p 1).2).map (fun L => L.map fun m => m.conds.map fun c => (c.nval, c.lessEqual)) =
    .ok [[(.flt (1/4), some false)], [(.flt (1/4), some true)]] := by
  decide +kernel

/-- depth 2: no threshold separates the samples any more -/
example : (exDt.bind fun p => (dtPartition p 2).2).map (fun L => L.map fun m => m.depth) = .ok [1, 1] := by
  decide +kernel

/-- the hypotheses of `dt_valid` hold -/
example : ∃ p, exDt = .ok p ∧ ValidDT 2 p := by
  have h : exDt.isOk = true := by decide +kernel
  cases hp : exDt with
  | error e => rw [hp] at h; cases h
  | ok p =>
    refine ⟨p, rfl, ?_⟩
    have hsel : exDt.map (fun p => p.cfg.selected) = .ok [⟨"x2", .float 0 1 false⟩] := by decide +kernel
    rw [hp] at hsel
    have hsel := Except.ok.inj hsel
    dsimp only at hsel
    have := (dt_valid (by decide) (by decide) (by decide) hp (by rw [hsel]; decide +kernel) (by rw [hsel]; decide +kernel) (by rw [hsel]; simp)).1
    rw [hsel] at this
    exact this

end concrete

end PyPDP
