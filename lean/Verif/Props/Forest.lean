/-
C66-C68: the random forest partitioner grows the requested trees.
-/
import Verif.Props.RegionPdp
import Verif.Spec.Forest

namespace PyPDP
open Spec
variable {K : Type}

/-! ### building a tree succeeds -/

theorem mapM_pyGet_ok {α : Type} {l : List α} {idx : List Nat} (h : ∀ i ∈ idx, i < l.length) :
    ∃ out, idx.mapM (pyGet l) = .ok out ∧ List.Forall₂ (fun i a => l[i]? = some a) idx out := by
  induction idx with
  | nil => exact ⟨[], rfl, .nil⟩
  | cons i is ih =>
    obtain ⟨out, h1, h2⟩ := ih fun j hj => h j (by simp [hj])
    have hi := h i (by simp)
    have hget : l[i]? = some l[i] := List.getElem?_eq_getElem hi
    refine ⟨l[i] :: out, ?_, .cons hget h2⟩
    rw [Py.mapM_eq_ok] at h1 ⊢
    exact .cons (by simp [pyGet, hget]) h1

theorem resolve_hps (cs : ConfigSpace K) (hps : List (Hp K)) : (hps.map SelItem.hp).mapM (resolveItem cs) = .ok hps := by
  rw [Py.mapM_eq_ok, List.forall₂_map_left_iff]
  exact List.forall₂_same.2 fun hp _ => rfl

section curves
variable [Field K] [LinearOrder K] [IsStrictOrderedRing K]

/-- the curve of one sample -/
def curveAt (idx : List Nat) (grid : List (List K)) (mu sd : List K → K) (r : List K) : Curve K :=
  (grid.map fun g => assignRow idx g r, (grid.map fun g => assignRow idx g r).map mu, (grid.map fun g => assignRow idx g r).map fun q => sd q ^ 2)

theorem zip_three {α β γ δ : Type} (l : List α) (f : α → β) (g : α → γ) (h : α → δ) :
    (l.map f).zip ((l.map g).zip (l.map h)) = l.map fun a => (f a, g a, h a) := by
  induction l with
  | nil => rfl
  | cons a as ih => simp [ih]

theorem calcNow_curves {c : IceCfg K} (hc : ValidCfg c) (hcen : c.centered = false) {mu sd : List K → K} (hp : RowWise c.space.length c.predict mu sd)
    (hn : c.samples ≠ []) (hg : 1 ≤ c.perAxis) {idx : List Nat} (hidx : getSelectedIdx c.selected c.space = .ok idx) {grid : List (List K)}
    (hgr : gridPoints c.selected.length c.perAxis = .ok grid) :
    ∃ d, calcNow (iceInit c) = .ok d ∧ RegionShape (c.perAxis ^ c.selected.length) c.space.length (⟨0, d.x, d.y, d.v, []⟩ : Node K) ∧
      dataCurves d = c.samples.map (curveAt idx grid mu sd) := by
  obtain ⟨grid', hgr', hgl, hfull⟩ := C40_grid (K := K) (List.length_pos_iff.2 hc.sel_ne) c.perAxis
  rw [hgr] at hgr'
  obtain rfl := Except.ok.inj hgr'
  have hgl' : grid.length = c.numGrid := by rw [hgl, hc.num_grid]
  have hP : c.numGrid ≠ 0 := by rw [hc.num_grid]; exact (Nat.pos_of_ne_zero (by positivity)).ne'
  have hcalc := iceCalc_ok hc hp hn hgl' hP hidx
  refine ⟨_, by rw [calcNow_init c hgr]; exact hcalc, ?_, ?_⟩
  · obtain ⟨hx, -⟩ := C41_x_ice hc hgl' (fun t ht => ((hfull.2 t).1 ht).1) hcalc
    obtain ⟨hy, hv⟩ := iceCalc_shapes hcalc
    rw [hc.num_samples] at hy hv
    rw [hc.num_grid] at hx hy hv
    exact ⟨Nat.one_le_pow _ _ hg, by rw [hx.1, hy.1], by rw [hy.1, hv.1], fun m hm => ⟨(hx.2 m hm).1, (hx.2 m hm).2⟩, hy.2, hv.2⟩
  · simp only [dataCurves, hcen, Bool.false_eq_true, if_false, iceX, List.map_map]
    rw [zip_three]
    rfl

omit [Field K] [LinearOrder K] [IsStrictOrderedRing K] in
theorem Spec.RegionShape.mk_ok {P F : Nat} {n : Node K} (h : RegionShape P F n) : mkNode n.depth n.x n.y n.v n.conds = .ok n := by
  unfold mkNode
  rw [if_pos]
  refine ⟨h.xy, h.yv, ?_⟩
  have hx : n.x.map List.length = List.replicate n.x.length P := by
    rw [List.eq_replicate_iff]; simp only [List.length_map, List.mem_map, true_and]; rintro _ ⟨m, hm, rfl⟩; exact (h.xs m hm).1
  have hy : n.y.map List.length = List.replicate n.y.length P := by
    rw [List.eq_replicate_iff]; simp only [List.length_map, List.mem_map, true_and]; rintro _ ⟨m, hm, rfl⟩; exact h.ys m hm
  have hv : n.v.map List.length = List.replicate n.v.length P := by
    rw [List.eq_replicate_iff]; simp only [List.length_map, List.mem_map, true_and]; rintro _ ⟨m, hm, rfl⟩; exact h.vs m hm
  unfold rowsAgree
  rw [hx, hy, hv, h.xy, h.yv]
  simp

theorem dtInit_succeeds {c : IceCfg K} (hc : ValidCfg c) (hcen : c.centered = false) {mu sd : List K → K} (hp : RowWise c.space.length c.predict mu sd)
    (hn : c.samples ≠ []) (hg : 1 ≤ c.perAxis) {idx : List Nat} (hidx : getSelectedIdx c.selected c.space = .ok idx) {grid : List (List K)}
    (hgr : gridPoints c.selected.length c.perAxis = .ok grid) (N m : Nat) (ns : List (Hp K)) :
    ∃ i d, calcNow (iceInit c) = .ok d ∧ dataCurves d = c.samples.map (curveAt idx grid mu sd) ∧
      ValidDT (c.perAxis ^ c.selected.length) (⟨c, possibleSplits c.space c.selected ns, N, m, i, ⟨0, d.x, d.y, d.v, []⟩, []⟩ : DT K) ∧
      dtInit c.space c.predict (.many (c.selected.map .hp)) c.samples c.perAxis N m (some (.many (ns.map .hp))) =
        .ok ⟨c, possibleSplits c.space c.selected ns, N, m, i, ⟨0, d.x, d.y, d.v, []⟩, []⟩ := by
  obtain ⟨d, h1, h2, h3⟩ := calcNow_curves hc hcen hp hn hg hidx hgr
  obtain ⟨i, r1, -, -⟩ := (readAll_fresh (fresh_init c)).1 d h1
  have hself := algorithmInit_self hc.num_samples hc.num_grid
  have hcc : { c with centered := false } = c := by
    obtain ⟨⟩ := c
    dsimp only at hcen
    subst hcen; rfl
  rw [hcc] at hself
  refine ⟨i, d, h1, h3, ⟨hc.wf, fun hp hm => List.mem_of_mem_filter hm, h2, rfl, rfl⟩, ?_⟩
  unfold dtInit
  rw [hself, Py.ok_bind]
  have hns : notSplittableHps (some (.many (ns.map .hp))) c.space = .ok ns := resolve_hps c.space ns
  rw [hns, Py.ok_bind, ownIce_eq hc.num_samples hc.num_grid hcen, Py.ok_bind, r1, Py.ok_bind]
  dsimp only
  rw [h2.mk_ok, Py.ok_bind]
  rfl

end curves

/-! ### the hyperparameters of a tree -/

theorem mem_maskSelect {α : Type} {m : List Bool} {l : List α} {a : α} :
    a ∈ maskSelect m l ↔ ∃ j : Nat, m[j]? = some true ∧ l[j]? = some a := by
  induction m generalizing l with
  | nil => simp [maskSelect]
  | cons b bs ih =>
    cases l with
    | nil => simp [maskSelect]
    | cons x xs =>
      have hsucc : (∃ j : Nat, (b :: bs)[j]? = some true ∧ (x :: xs)[j]? = some a) ↔
          (b = true ∧ x = a) ∨ ∃ j : Nat, bs[j]? = some true ∧ xs[j]? = some a := by
        constructor
        · rintro ⟨j, h1, h2⟩
          cases j with
          | zero => left; exact ⟨by simpa using h1, by simpa using h2⟩
          | succ j => right; exact ⟨j, by simpa using h1, by simpa using h2⟩
        · rintro (⟨rfl, rfl⟩ | ⟨j, h1, h2⟩)
          · exact ⟨0, by simp, by simp⟩
          · exact ⟨j + 1, by simpa using h1, by simpa using h2⟩
      rw [hsucc]
      cases b with
      | true => simp only [maskSelect, List.mem_cons, ih, true_and]; rw [eq_comm]
      | false => simp only [maskSelect, ih, Bool.false_eq_true, false_and, false_or]

/-- what is split in a tree when `splittable` was drawn -/
theorem possible_of_drawn {space selected splittable : List (Hp K)} :
    possibleSplits space selected ((space.filter fun hp => decide (hp.name ∉ selected.map Hp.name)).filter fun hp =>
      decide (hp.name ∉ splittable.map Hp.name)) =
    (space.filter fun hp => decide (hp.name ∉ selected.map Hp.name)).filter fun hp => decide (hp.name ∈ splittable.map Hp.name) := by
  unfold possibleSplits
  conv_rhs => rw [List.filter_filter]
  refine List.filter_congr fun hp hm => ?_
  rw [← Bool.decide_and]
  refine decide_eq_decide.2 ⟨fun ⟨h1, h2⟩ => ⟨?_, h1⟩, fun ⟨h1, h2⟩ => ⟨h2, ?_⟩⟩
  · by_contra hno
    exact h2 (List.mem_map.2 ⟨hp, List.mem_filter.2 ⟨List.mem_filter.2 ⟨hm, by simpa using h1⟩, by simpa using hno⟩, rfl⟩)
  · intro hin
    obtain ⟨q, hq, hqn⟩ := List.mem_map.1 hin
    have := (List.mem_filter.1 hq).2
    rw [hqn] at this
    exact (of_decide_eq_true this) h1

theorem drawn_eq {p : RF K} (hp : ValidRF p) {size : Nat} {w : ForestDraw} (hw : ValidDraw p size w) :
    ∃ S, drawSplittable p.possible w = .ok S ∧
      ∃ out, out = p.possible.filter (fun hp => decide (hp.name ∈ S.map Hp.name)) ∧ out ≠ [] ∧ out.Sublist p.possible ∧
        ((∃ j : Nat, w.mask[j]? = some true) → ∀ (j : Nat) hp, p.possible[j]? = some hp → (hp ∈ out ↔ w.mask[j]? = some true)) ∧
        ((∀ j : Nat, w.mask[j]? ≠ some true) → ∃ hp, p.possible[w.choice]? = some hp ∧ out = [hp]) := by
  have hnd : (p.possible.map Hp.name).Nodup := by
    rw [hp.possible]
    exact hp.cfg.wf.sublist ((List.filter_sublist).map _)
  have hinj : ∀ a ∈ p.possible, ∀ b ∈ p.possible, a.name = b.name → a = b := fun a ha b hb h => List.inj_on_of_nodup_map hnd ha hb h
  have hne : p.possible ≠ [] := List.length_pos_iff.1 (Nat.zero_lt_of_lt hw.choice)
  classical
  unfold drawSplittable
  by_cases hm : maskSelect w.mask p.possible = []
  · have hch : p.possible[w.choice]? = some (p.possible[w.choice]'hw.choice) := List.getElem?_eq_getElem hw.choice
    rw [if_pos hm, if_neg hne]
    refine ⟨[p.possible[w.choice]'hw.choice], by simp [pyGet, hch], _, rfl, ?_⟩
    have hout : p.possible.filter (fun hp => decide (hp.name ∈ [p.possible[w.choice]'hw.choice].map Hp.name)) =
        [p.possible[w.choice]'hw.choice] := by
      have hmem : p.possible[w.choice]'hw.choice ∈ p.possible := List.getElem_mem hw.choice
      have h1 : p.possible.filter (fun hp => decide (hp.name ∈ [p.possible[w.choice]'hw.choice].map Hp.name)) =
          p.possible.filter (fun hp => hp == p.possible[w.choice]'hw.choice) := by
        refine List.filter_congr fun a ha => ?_
        rw [Bool.eq_iff_iff]
        simp only [List.map_cons, List.map_nil, List.mem_singleton, decide_eq_true_eq, beq_iff_eq]
        exact ⟨fun h => hinj a ha _ hmem h, fun h => by rw [h]⟩
      rw [h1, List.filter_beq, List.count_eq_one_of_mem (List.Nodup.of_map _ hnd) hmem]
      rfl
    have hno : ∀ j : Nat, w.mask[j]? ≠ some true := by
      intro j hj
      have hjl : j < p.possible.length := by
        rw [← hw.mask]; exact (List.getElem?_eq_some_iff.1 hj).1
      have : p.possible[j] ∈ maskSelect w.mask p.possible := mem_maskSelect.2 ⟨j, hj, List.getElem?_eq_getElem hjl⟩
      rw [hm] at this
      cases this
    refine ⟨by rw [hout]; simp, List.filter_sublist, fun ⟨j, hj⟩ => absurd hj (hno j), fun _ => ⟨_, hch, hout⟩⟩
  · rw [if_neg hm]
    refine ⟨_, rfl, _, rfl, ?_, List.filter_sublist, ?_, ?_⟩
    · obtain ⟨a, ha⟩ := List.exists_mem_of_ne_nil _ hm
      obtain ⟨j, hj1, hj2⟩ := mem_maskSelect.1 ha
      exact List.ne_nil_of_mem (List.mem_filter.2 ⟨List.mem_of_getElem? hj2, by simpa using ⟨a, ha, rfl⟩⟩)
    · intro _ j hpj hj
      have hmj := List.mem_of_getElem? hj
      rw [List.mem_filter]
      constructor
      · rintro ⟨-, h⟩
        obtain ⟨b, hb, hbn⟩ := List.mem_map.1 (by simpa using h : hpj.name ∈ (maskSelect w.mask p.possible).map Hp.name)
        obtain ⟨k, hk1, hk2⟩ := mem_maskSelect.1 hb
        have hbj : b = hpj := hinj b (List.mem_of_getElem? hk2) hpj hmj hbn
        subst hbj
        have hpn : p.possible.Nodup := List.Nodup.of_map _ hnd
        obtain ⟨hkl, hk3⟩ := List.getElem?_eq_some_iff.1 hk2
        obtain ⟨hjl, hj3⟩ := List.getElem?_eq_some_iff.1 hj
        have : k = j := (hpn.getElem_inj_iff).1 (by rw [hk3, hj3])
        rw [← this]; exact hk1
      · intro h
        refine ⟨hmj, ?_⟩
        rw [decide_eq_true_eq]
        exact List.mem_map.2 ⟨hpj, mem_maskSelect.2 ⟨j, h, hj⟩, rfl⟩
    · intro hno
      exfalso
      obtain ⟨a, ha⟩ := List.exists_mem_of_ne_nil _ hm
      obtain ⟨j, hj1, -⟩ := mem_maskSelect.1 ha
      exact hno j hj1

/-! ### one tree, all trees -/

section trees
variable [Field K] [LinearOrder K] [IsStrictOrderedRing K] [Transc K]

theorem growTree_ok {p : RF K} (hp : ValidRF p) {mu sd : List K → K} (hmu : RowWise p.cfg.space.length p.cfg.predict mu sd) (hn : p.cfg.samples ≠ [])
    (hg : 1 ≤ p.cfg.perAxis) {i : IceState K} (hi : i.cfg.space = p.cfg.space ∧ i.cfg.predict = p.cfg.predict ∧ i.cfg.selected = p.cfg.selected ∧
    i.cfg.samples = p.cfg.samples ∧ i.cfg.perAxis = p.cfg.perAxis) {size : Nat} (hs : 0 < size) {maxDepth : Int} (hd : 0 < maxDepth) {w : ForestDraw}
    (hw : ValidDraw p size w) :
    ∃ own t, calcNow (iceInit p.cfg) = .ok own ∧ growTree p i maxDepth w = .ok t ∧ t.numSplits = 100 ∧ t.minPoints = 1 ∧
      IsForestTree p (dataCurves own) 100 1 (p.cfg.perAxis ^ p.cfg.selected.length) maxDepth w t ∧
      ValidDT (p.cfg.perAxis ^ p.cfg.selected.length) t ∧ dtPartition t maxDepth = (t, .ok t.leaves) := by
  obtain ⟨e1, e2, e3, e4, e5⟩ := hi
  obtain ⟨sub, hsub, hsubs⟩ := mapM_pyGet_ok hw.range
  have hlen : 0 < sub.length := by rw [← hsubs.length_eq, hw.size]; exact hs
  obtain ⟨c, hcdef⟩ : ∃ c : IceCfg K, c = { p.cfg with samples := sub, numSamples := sub.length } := ⟨_, rfl⟩
  have hc : ValidCfg c := by
    rw [hcdef]
    refine ⟨hp.cfg.wf, hp.cfg.sel_mem, hp.cfg.sel_distinct, hp.cfg.sel_ne, ?_, rfl, hp.cfg.num_grid⟩
    intro r hr
    obtain ⟨k, hk⟩ := List.mem_iff_getElem?.1 hr
    obtain ⟨hkl, hk'⟩ := List.getElem?_eq_some_iff.1 hk
    have := hsubs.get (i := k) (by rw [hsubs.length_eq]; exact hkl) hkl
    simp only [List.get_eq_getElem] at this
    rw [hk'] at this
    exact hp.cfg.rows r (List.mem_of_getElem? this)
  have hcen : c.centered = false := by rw [hcdef]; exact hp.not_centered
  obtain ⟨idx, hidx, -⟩ := hp.cfg.idx
  obtain ⟨grid, hgr, -⟩ := C40_grid (K := K) (List.length_pos_iff.2 hp.cfg.sel_ne) p.cfg.perAxis
  obtain ⟨own, ho1, -, ho3⟩ := calcNow_curves hp.cfg hp.not_centered hmu hn hg hidx hgr
  obtain ⟨S, hS, out, hout, o1, o2, o3, o4⟩ := drawn_eq hp hw
  obtain ⟨ii, d, h1, h2, h3, h4⟩ := dtInit_succeeds (c := c) hc hcen (by rw [hcdef]; exact hmu)
    (by rw [hcdef]; exact List.length_pos_iff.1 hlen) (by rw [hcdef]; exact hg) (idx := idx) (by rw [hcdef]; exact hidx) (grid := grid)
    (by rw [hcdef]; exact hgr) 100 1 (p.possible.filter fun hp => decide (hp.name ∉ S.map Hp.name))
  have hposs : possibleSplits c.space c.selected (p.possible.filter fun hp => decide (hp.name ∉ S.map Hp.name)) = out := by
    rw [hout, hcdef, hp.possible]
    exact possible_of_drawn
  rw [hposs] at h3 h4
  have hself : algorithmInit i.cfg.space i.cfg.predict (.many (i.cfg.selected.map .hp)) sub i.cfg.perAxis = .ok c := by
    have := algorithmInit_self hc.num_samples hc.num_grid
    rw [e1, e2, e3, e5]
    rw [hcdef] at this ⊢
    dsimp only at this
    rw [this]
    dsimp only
    rw [hp.not_centered]
  obtain ⟨t0, ht0⟩ : ∃ t0 : DT K, t0 = ⟨c, out, 100, 1, iceInit c, ⟨0, d.x, d.y, d.v, []⟩, []⟩ := ⟨_, rfl⟩
  have hv0 : ValidDT (p.cfg.perAxis ^ p.cfg.selected.length) t0 := by
    rw [ht0]
    have : c.perAxis ^ c.selected.length = p.cfg.perAxis ^ p.cfg.selected.length := by rw [hcdef]
    rw [← this]
    exact ⟨h3.wf, h3.possible_mem, h3.shape, h3.depth, h3.conds⟩
  obtain ⟨L, hL1, -, hL3, -⟩ := partition_eq hv0 hd
  refine ⟨own, { t0 with leaves := L }, ho1, ?_, by rw [ht0], by rw [ht0], ⟨?_, ?_, ?_, by rw [ht0], by rw [ht0], ?_, ?_, ?_, ?_, ?_⟩, ?_, ?_⟩
  · unfold growTree drawSamples
    rw [if_neg (by exact (List.length_pos_iff.2 hn).ne'), hsub, Py.ok_bind, hself, Py.ok_bind, hS, Py.ok_bind]
    have hdt : dtFromIce (iceInit c) 100 1 (some (.many ((p.possible.filter fun hp => decide (hp.name ∉ S.map Hp.name)).map .hp))) = .ok t0 := by
      unfold dtFromIce
      dsimp only [iceInit]
      rw [h4, Py.ok_bind, ht0]
      rfl
    dsimp only
    rw [hdt, Py.ok_bind, hL1]
    rfl
  · rw [ht0, hcdef]
  · rw [ht0, hcdef]
  · rw [ht0]
    change List.Forall₂ _ _ (dataCurves d)
    rw [h2, ho3, List.forall₂_map_right_iff, hcdef]
    exact hsubs.imp fun a b hab => by rw [List.getElem?_map, hab]; rfl
  · rw [ht0]; exact o1
  · rw [ht0]; exact o2
  · rw [ht0]; exact o3
  · rw [ht0]; exact o4
  · rw [ht0] at hL3 ⊢
    rw [hcdef] at hL3
    exact hL3
  · exact ⟨hv0.wf, hv0.possible_mem, hv0.shape, hv0.depth, hv0.conds⟩
  · unfold dtPartition at hL1 ⊢
    rw [if_pos hd] at hL1 ⊢
    dsimp only at hL1 ⊢
    exact hL1

omit [IsStrictOrderedRing K] in
theorem growLoop_ok {p : RF K} {i : IceState K} {d : Int} {ws : List ForestDraw} {ts : List (DT K)}
    (h : List.Forall₂ (fun w t => growTree p i d w = .ok t) ws ts) (acc : List (DT K)) : growLoop p i d ws acc = (acc ++ ts, none) := by
  induction h generalizing acc with
  | nil => simp [growLoop]
  | cons hw _ ih => simp only [growLoop, hw]; rw [ih]; simp

omit [LinearOrder K] [IsStrictOrderedRing K] [Transc K] [Field K] in
theorem rfIce_ok {p : RF K} (hp : ValidRF p) : ∃ i, rfIce p = .ok i ∧ (p.ice = none → i = iceInit p.cfg) ∧ (∀ i', p.ice = some i' → i = i') ∧
    i.cfg.space = p.cfg.space ∧ i.cfg.predict = p.cfg.predict ∧ i.cfg.selected = p.cfg.selected ∧
    i.cfg.samples = p.cfg.samples ∧ i.cfg.perAxis = p.cfg.perAxis := by
  unfold rfIce
  cases hi : p.ice with
  | some i => exact ⟨i, rfl, by simp, by simp, hp.ice i hi⟩
  | none => exact ⟨_, ownIce_eq hp.cfg.num_samples hp.cfg.num_grid hp.not_centered, by simp, by simp, rfl, rfl, rfl, rfl, rfl⟩

/-! ### C66 -/

omit [LinearOrder K] [IsStrictOrderedRing K] [Transc K] [Field K] in
/-- a new forest is valid and has no trees -/
theorem C66_new {space : ConfigSpace K} (hwf : space.WF) {predict : Predict K} {sel : Selection K} {samples : List (List K)}
    (hrows : ∀ r ∈ samples, r.length = space.length) {perAxis numSplits minPoints : Nat} {p : RF K}
    (h : rfInit space predict sel samples perAxis numSplits minPoints = .ok p) (hne : p.cfg.selected ≠ [])
    (hmem : ∀ hp ∈ p.cfg.selected, hp ∈ space) (hd : (p.cfg.selected.map Hp.name).Nodup) :
    ValidRF p ∧ p.trees = none ∧ p.cfg.samples = samples ∧ p.cfg.space = space ∧ p.cfg.perAxis = perAxis ∧
      p.numSplits = numSplits ∧ p.minPoints = minPoints := by
  unfold rfInit at h
  obtain ⟨c, hc, h⟩ := Py.bind_eq_ok.1 h
  obtain rfl := Except.ok.inj h
  dsimp only at *
  obtain ⟨hv, e2, e3, e4, e5⟩ := algorithmInit_valid hwf hrows hc hne hmem hd
  refine ⟨⟨hv, e5, ?_, by simp⟩, rfl, e3, e2, e4, rfl, rfl⟩
  dsimp only
  rw [e2]
  unfold possibleSplits
  refine List.filter_congr fun a _ => ?_
  simp

omit [LinearOrder K] [IsStrictOrderedRing K] [Transc K] [Field K] in
/-- a forest made from an ICE object is valid and keeps that object -/
theorem C66_from_ice {i : IceState K} (hi : ValidCfg i.cfg) :
    ∃ p, rfFromIce i = .ok p ∧ ValidRF p ∧ p.ice = some i ∧ p.trees = none ∧ p.cfg.samples = i.cfg.samples ∧ p.cfg.space = i.cfg.space := by
  unfold rfFromIce rfInit
  rw [algorithmInit_self hi.num_samples hi.num_grid]
  simp only [Py.ok_bind]
  refine ⟨_, rfl, ⟨⟨hi.wf, hi.sel_mem, hi.sel_distinct, hi.sel_ne, hi.rows, hi.num_samples, hi.num_grid⟩, rfl, ?_, ?_⟩, rfl, rfl, rfl, rfl⟩
  · dsimp only
    unfold possibleSplits
    refine List.filter_congr fun a _ => ?_
    simp
  · intro i' h'
    obtain rfl := Option.some.inj h'
    exact ⟨rfl, rfl, rfl, rfl, rfl⟩

/-- **C66** For every draw of the random generator, `partition` succeeds and leaves exactly `num_trees` trees. Tree number `k` belongs to
draw number `k`: its root holds `sample_size` curves, namely (in order) those of the drawn samples; it may split exactly the drawn
hyperparameters, at least one of those that are not selected; its leaves form the greedily grown tree. The forest stays valid, its
settings and an ICE object that is already there do not change. -/
theorem C66_partition {p : RF K} (hp : ValidRF p) {mu sd : List K → K} (hmu : RowWise p.cfg.space.length p.cfg.predict mu sd) (hn : p.cfg.samples ≠ [])
    (hg : 1 ≤ p.cfg.perAxis) {numTrees maxDepth size : Int} (ht : 0 < numTrees) (hd : 0 < maxDepth) (hs : 0 < size) {draw : Nat → ForestDraw}
    (hw : ∀ k : Nat, (k : Int) < numTrees → ValidDraw p size.toNat (draw k)) :
    ∃ own trees i, calcNow (iceInit p.cfg) = .ok own ∧ (p.ice = none → i = iceInit p.cfg) ∧ (∀ i', p.ice = some i' → i = i') ∧
      rfPartition p numTrees maxDepth (some size) draw = ({ p with ice := some i, trees := some trees }, .ok ()) ∧
      ValidRF { p with ice := some i, trees := some trees } ∧ (trees.length : Int) = numTrees ∧
      ∀ (k : Nat) t, trees[k]? = some t →
        ((curves t.root).length : Int) = size ∧
        IsForestTree p (dataCurves own) 100 1 (p.cfg.perAxis ^ p.cfg.selected.length) maxDepth (draw k) t := by
  obtain ⟨i, hi, hi1, hi2, hicfg⟩ := rfIce_ok hp
  have htree : ∀ w ∈ (List.range numTrees.toNat).map draw, ∃ t, growTree p i maxDepth w = .ok t := by
    intro w hw'
    obtain ⟨k, hk, rfl⟩ := List.mem_map.1 hw'
    have hk := List.mem_range.1 hk
    obtain ⟨_, t, -, h, -⟩ := growTree_ok hp hmu hn hg hicfg (Int.lt_toNat.2 hs) hd (hw k (by omega))
    exact ⟨t, h⟩
  obtain ⟨ts, hts⟩ : ∃ ts, List.Forall₂ (fun w t => growTree p i maxDepth w = .ok t) ((List.range numTrees.toNat).map draw) ts := by
    generalize (List.range numTrees.toNat).map draw = ws at htree
    induction ws with
    | nil => exact ⟨[], .nil⟩
    | cons w ws ih =>
      obtain ⟨t, h⟩ := htree w (by simp)
      obtain ⟨ts, hts⟩ := ih fun w hw => htree w (by simp [hw])
      exact ⟨t :: ts, .cons h hts⟩
  have hlen := hts.length_eq
  rw [List.length_map, List.length_range] at hlen
  obtain ⟨own, _, hown, -⟩ := growTree_ok hp hmu hn hg hicfg (Int.lt_toNat.2 hs) hd (hw 0 (by omega))
  refine ⟨own, ts, i, hown, hi1, hi2, ?_, ⟨hp.cfg, hp.not_centered, hp.possible, ?_⟩, by omega, ?_⟩
  · unfold rfPartition
    rw [if_pos ht]
    dsimp only
    rw [if_pos hs, if_pos hd, hi]
    dsimp only
    rw [growLoop_ok hts]
    rfl
  · intro i' h'
    obtain rfl := Option.some.inj h'
    exact hicfg
  · intro k t hk
    obtain ⟨hkl, hkt⟩ := List.getElem?_eq_some_iff.1 hk
    have h1 := hts.get (i := k) (by rw [hts.length_eq]; exact hkl) hkl
    simp only [List.get_eq_getElem, List.getElem_map, List.getElem_range, hkt] at h1
    have hwk := hw k (by omega)
    obtain ⟨own', t', ho, h2, -, -, h3, -⟩ := growTree_ok hp hmu hn hg hicfg (Int.lt_toNat.2 hs) hd hwk
    rw [h1] at h2
    obtain rfl := Except.ok.inj h2
    rw [hown] at ho
    obtain rfl := Except.ok.inj ho
    refine ⟨?_, h3⟩
    rw [← h3.root.length_eq, hwk.size]
    omega

omit [IsStrictOrderedRing K] in
/-- **C66** trees of an earlier call are gone: the result does not depend on them. -/
theorem C66_replaces (p : RF K) (old : Option (List (DT K))) {numTrees maxDepth size : Int} (ht : 0 < numTrees) (hd : 0 < maxDepth) (hs : 0 < size)
    (draw : Nat → ForestDraw) :
    rfPartition { p with trees := old } numTrees maxDepth (some size) draw = rfPartition p numTrees maxDepth (some size) draw := by
  have hl : ∀ i ws acc, growLoop { p with trees := old } i maxDepth ws acc = growLoop p i maxDepth ws acc := by
    intro i ws
    induction ws with
    | nil => intro acc; rfl
    | cons w ws ih =>
      intro acc
      unfold growLoop
      have : growTree { p with trees := old } i maxDepth w = growTree p i maxDepth w := rfl
      rw [this]
      split
      · rfl
      · exact ih _
  unfold rfPartition
  simp only [if_pos ht, if_pos hs, if_pos hd, hl]
  rfl

omit [IsStrictOrderedRing K] in
/-- **C66** without a tree, a sample or a level, nothing happens but an AssertionError. -/
theorem C66_nothing_requested (p : RF K) {numTrees maxDepth size : Int} (h : numTrees ≤ 0 ∨ size ≤ 0 ∨ maxDepth ≤ 0) (draw : Nat → ForestDraw) :
    rfPartition p numTrees maxDepth (some size) draw = (p, .error .assertion) := by
  unfold rfPartition
  by_cases h1 : 0 < numTrees
  · rw [if_pos h1]
    dsimp only
    by_cases h2 : 0 < size
    · rw [if_pos h2, if_neg (by omega)]
    · rw [if_neg h2]
  · rw [if_neg h1]

/-! ### C67 -/

omit [IsStrictOrderedRing K] in
/-- The full statement is false: without `sample_size` every call that asks for a tree raises a TypeError (`None > 0`). -/
theorem C67_default_counterexample (p : RF K) {numTrees : Int} (ht : 0 < numTrees) (maxDepth : Int) (draw : Nat → ForestDraw) :
    rfPartition p numTrees maxDepth none draw = (p, .error .type) := by
  unfold rfPartition
  rw [if_pos ht]

/-- **C67** (partial) What the documentation promises for the default is what an explicit `sample_size = len(samples)` gives: as many
curves in every tree as there are samples. Missing: the default itself, see `C67_default_counterexample`. -/
theorem C67_all_samples_partial {p : RF K} (hp : ValidRF p) {mu sd : List K → K} (hmu : RowWise p.cfg.space.length p.cfg.predict mu sd) (hn : p.cfg.samples ≠ [])
    (hg : 1 ≤ p.cfg.perAxis) {numTrees maxDepth : Int} (ht : 0 < numTrees) (hd : 0 < maxDepth) {draw : Nat → ForestDraw}
    (hw : ∀ k : Nat, (k : Int) < numTrees → ValidDraw p p.cfg.samples.length (draw k)) :
    ∃ trees i, rfPartition p numTrees maxDepth (some (p.cfg.samples.length : Int)) draw = ({ p with ice := some i, trees := some trees }, .ok ()) ∧
      (trees.length : Int) = numTrees ∧ ∀ t ∈ trees, (curves t.root).length = p.cfg.samples.length := by
  have h0 : (0 : Int) < p.cfg.samples.length := by exact_mod_cast List.length_pos_iff.2 hn
  obtain ⟨own, trees, i, -, -, -, h1, -, h2, h3⟩ := C66_partition hp hmu hn hg ht hd h0 (draw := draw) (by simpa using hw)
  refine ⟨trees, i, h1, h2, fun t htm => ?_⟩
  obtain ⟨k, hk⟩ := List.mem_iff_getElem?.1 htm
  exact_mod_cast (h3 k t hk).1

/-! ### C68 -/

omit [IsStrictOrderedRing K] in
/-- The full statement is false: whatever `num_splits_per_axis` and `min_points_per_node` the forest was given, the trees are the same. -/
theorem C68_ignored_counterexample (p : RF K) (numSplits minPoints : Nat) (numTrees maxDepth : Int) (size : Option Int) (draw : Nat → ForestDraw) :
    (rfPartition { p with numSplits := numSplits, minPoints := minPoints } numTrees maxDepth size draw).1.trees =
      (rfPartition p numTrees maxDepth size draw).1.trees ∧
    (rfPartition { p with numSplits := numSplits, minPoints := minPoints } numTrees maxDepth size draw).2 =
      (rfPartition p numTrees maxDepth size draw).2 := by
  have hl : ∀ i ws acc, growLoop { p with numSplits := numSplits, minPoints := minPoints } i maxDepth ws acc = growLoop p i maxDepth ws acc := by
    intro i ws
    induction ws with
    | nil => intro acc; rfl
    | cons w ws ih =>
      intro acc
      unfold growLoop
      have : growTree { p with numSplits := numSplits, minPoints := minPoints } i maxDepth w = growTree p i maxDepth w := rfl
      rw [this]
      split
      · rfl
      · exact ih _
  have hi : rfIce { p with numSplits := numSplits, minPoints := minPoints } = rfIce p := rfl
  unfold rfPartition
  rw [hi]
  simp only [hl]
  split
  · split
    · exact ⟨rfl, rfl⟩
    · split
      · split
        · split
          · exact ⟨rfl, rfl⟩
          · split <;> exact ⟨rfl, rfl⟩
        · exact ⟨rfl, rfl⟩
      · exact ⟨rfl, rfl⟩
  · exact ⟨rfl, rfl⟩

/-- **C68** (partial) A forest that was given 100 splits per axis and at least 1 point per node has trees grown with these options.
Missing: all other options, see `C68_ignored_counterexample`. -/
theorem C68_options_partial {p : RF K} (hp : ValidRF p) (hN : p.numSplits = 100) (hm : p.minPoints = 1) {mu sd : List K → K}
    (hmu : RowWise p.cfg.space.length p.cfg.predict mu sd) (hn : p.cfg.samples ≠ [])
    (hg : 1 ≤ p.cfg.perAxis) {numTrees maxDepth size : Int} (ht : 0 < numTrees) (hd : 0 < maxDepth) (hs : 0 < size) {draw : Nat → ForestDraw}
    (hw : ∀ k : Nat, (k : Int) < numTrees → ValidDraw p size.toNat (draw k)) :
    ∃ trees, (rfPartition p numTrees maxDepth (some size) draw).1.trees = some trees ∧ ∀ t ∈ trees,
      Greedy p.cfg.space t.possible p.numSplits p.minPoints (p.cfg.perAxis ^ p.cfg.selected.length) maxDepth t.root t.leaves := by
  obtain ⟨own, trees, i, -, -, -, h1, -, h2, h3⟩ := C66_partition hp hmu hn hg ht hd hs hw
  refine ⟨trees, by rw [h1], fun t htm => ?_⟩
  obtain ⟨k, hk⟩ := List.mem_iff_getElem?.1 htm
  rw [hN, hm]
  exact (h3 k t hk).2.leaves

end trees

/-! ### a concrete forest -/

section concrete

local instance : Transc ℚ := ⟨id, id⟩

/-- `x1` and `x3` may be split, three samples; at least five points per node are asked for -/
def exForest : Py (RF ℚ) :=
  rfInit [⟨"x1", .float (-5) 5 false⟩, ⟨"x2", .float 0 1 false⟩, ⟨"x3", .float 0 1 false⟩]
    (fun rows => .ok (rows.map fun r => r.getD 0 0 + 2 * r.getD 1 0, rows.map fun r => r.getD 0 0 * r.getD 1 0))
    (.name "x2") [[1/10, 0, 0], [9/10, 0, 0], [2/10, 0, 1/2]] 2 3 5

/-- the first tree gets only `x1` by mask, the second one nothing by mask and `x3` by choice -/
def exDraw (k : Nat) : ForestDraw := if k = 0 then ⟨[1, 0], [true, false], 0⟩ else ⟨[2, 2], [false, false], 1⟩

example : (exForest.map fun p => (rfPartition p 2 1 (some 2) exDraw).2) = .ok (.ok ()) := by decide +kernel

example : (exForest.map fun p => ((rfPartition p 2 1 (some 2) exDraw).1.trees.map fun ts => ts.map fun t => (t.possible.map Hp.name, t.root.y))) =
    .ok (some [(["x1"], [[9/10, 29/10], [1/10, 21/10]]), (["x3"], [[2/10, 22/10], [2/10, 22/10]])]) := by decide +kernel

/-- C68 in the concrete: leaves with one curve although five are asked for -/
example : (exForest.map fun p => p.minPoints) = .ok 5 ∧
    (exForest.map fun p => (rfPartition p 1 1 (some 2) exDraw).1.trees.map fun ts => ts.map fun t => t.leaves.map fun l => l.y.length) =
      .ok (some [[1, 1]]) := by decide +kernel

/-- the hypotheses of `C66_partition` hold -/
example : ∃ p, exForest = .ok p ∧ ValidRF p ∧ (∀ k, ValidDraw p 2 (exDraw k)) ∧
    RowWise p.cfg.space.length p.cfg.predict (fun r => r.getD 0 0 + 2 * r.getD 1 0) (fun r => r.getD 0 0 * r.getD 1 0) := by
  have h : exForest.isOk = true := by decide +kernel
  cases hp : exForest with
  | error e => rw [hp] at h; cases h
  | ok p =>
    refine ⟨p, rfl, ?_, ?_, ?_⟩
    · have hsel : exForest.map (fun p => p.cfg.selected) = .ok [⟨"x2", .float 0 1 false⟩] := by decide +kernel
      rw [hp] at hsel
      have hsel := Except.ok.inj hsel
      dsimp only at hsel
      exact (C66_new (by decide) (by decide) hp (by rw [hsel]; simp) (by rw [hsel]; decide +kernel) (by rw [hsel]; decide +kernel)).1
    · have hl : exForest.map (fun p => (p.cfg.samples.length, p.possible.length)) = .ok (3, 2) := by decide +kernel
      rw [hp] at hl
      obtain ⟨h1, h2⟩ := Prod.mk.inj (Except.ok.inj hl)
      intro k
      unfold exDraw
      split <;> exact ⟨rfl, by simp [h1], by rw [h2]; rfl, by rw [h2]; decide⟩
    · unfold exForest rfInit at hp
      obtain ⟨c, hc, hp⟩ := Py.bind_eq_ok.1 hp
      obtain rfl := Except.ok.inj hp
      dsimp only
      rw [(algorithmInit_eq hc).2.2.2.2.1]
      intro X _ _
      rfl

end concrete

end PyPDP
