/-
C155: a forest whose trees see all samples and all hyperparameters finds the region that a single decision tree finds.
-/
import Verif.Props.TreeInvariance
import Verif.Props.ForestRegion
import Verif.Props.Regions

namespace PyPDP
open Spec

theorem root_perm {K : Type} {own : List (Curve K)} {idx : List Nat} {L : List (Curve K)} (h : List.Forall₂ (fun i c => own[i]? = some c) idx L)
    (hp : idx.Perm (List.range own.length)) : own.Perm L := by
  have e : L.map some = idx.map fun i => own[i]? := by
    clear hp
    induction h with
    | nil => rfl
    | cons hab _ ih => simp only [List.map_cons, ih, hab]
  have e2 : own.map some = (List.range own.length).map fun i => own[i]? := by
    refine List.ext_getElem (by simp) fun i h1 h2 => ?_
    simp only [List.getElem_map, List.getElem_range]
    rw [List.getElem?_eq_getElem]
  have h3 : (own.map some).Perm (L.map some) := by
    rw [e, e2]
    exact (hp.map _).symm
  have := h3.filterMap id
  simpa [List.filterMap_map] using this

theorem forall₂_partner {α β : Type} {R : α → β → Prop} {l : List α} {l' : List β} (h : List.Forall₂ R l l') {a : α} (ha : a ∈ l) : ∃ b ∈ l', R a b := by
  induction h with
  | nil => simp at ha
  | cons hab _ ih =>
    rcases List.mem_cons.1 ha with rfl | ha
    · exact ⟨_, by simp, hab⟩
    · obtain ⟨b, hb, h⟩ := ih ha
      exact ⟨b, by simp [hb], h⟩

/-- **C155** If every tree of the forest drew every sample once (in any order) and every hyperparameter, then for every incumbent and every required
overlap between 1 and the number of trees `get_incumbent_region` of the forest holds the same curves, in the same order, as
`get_incumbent_region` of a decision tree over the same samples with the forest's fixed options (100 splits per axis, at least one point
per node). -/
theorem C155_full_draws {space : ConfigSpace ℝ} (hwf : space.WF)
    (hfloat : ∀ hp ∈ space, ∃ l u g, hp.kind = .float l u g ∧ l < u ∧ (g = true → 0 < l)) {predict : Predict ℝ} {mu sd : List ℝ → ℝ}
    (hmu : RowWise space.length predict mu sd) {sel : Selection ℝ} {samples : List (List ℝ)} (hrows : ∀ r ∈ samples, r.length = space.length)
    (hn : samples ≠ []) {perAxis numSplits minPoints : Nat} (hg : 1 ≤ perAxis) {f : RF ℝ}
    (h : rfInit space predict sel samples perAxis numSplits minPoints = .ok f) (hne : f.cfg.selected ≠ [])
    (hmem : ∀ hp ∈ f.cfg.selected, hp ∈ space) (hd : (f.cfg.selected.map Hp.name).Nodup)
    {numTrees maxDepth : Int} (ht : 0 < numTrees) (hdep : 0 < maxDepth) {draw : Nat → ForestDraw}
    (hdraw : ∀ k : Nat, (k : Int) < numTrees → (draw k).indices.Perm (List.range samples.length) ∧
      (draw k).mask = List.replicate f.possible.length true ∧ (draw k).choice < f.possible.length)
    {ofVector : List ℝ → Config ℝ} (hof : ∀ r ∈ samples, ConfigOf space r (ofVector r)) {inc : Config ℝ} (hinc : HasNumbers f.possible inc)
    {overlap : Option Int} (ho : 1 ≤ overlap.getD numTrees ∧ overlap.getD numTrees ≤ numTrees) :
    ∃ p m R, dtInit space predict sel samples perAxis 100 1 none = .ok p ∧ dtIncumbentRegion (dtPartition p maxDepth).1 inc = .ok (some m) ∧
      rfIncumbentRegion ofVector (rfPartition f numTrees maxDepth (some samples.length) draw).1 inc overlap = .ok R ∧ curves R = curves m := by
  obtain ⟨hv, -, e3, e2, e4, -, -⟩ := C66_new hwf hrows h hne hmem hd
  have hice : f.ice = none := by
    unfold rfInit at h
    obtain ⟨c, hc, h⟩ := Py.bind_eq_ok.1 h
    obtain rfl := Except.ok.inj h
    rfl
  have hsel : convertHyperparameters sel space = .ok f.cfg.selected := by
    unfold rfInit at h
    obtain ⟨c, hc, h⟩ := Py.bind_eq_ok.1 h
    obtain rfl := Except.ok.inj h
    exact (algorithmInit_eq hc).1
  have hposs : f.possible = possibleSplits space f.cfg.selected [] := by
    rw [hv.possible, e2]
    unfold possibleSplits
    refine List.filter_congr fun a _ => ?_
    simp
  have hspos : (0 : Int) < samples.length := by exact_mod_cast List.length_pos_iff.2 hn
  have hsub : ∀ hp ∈ f.possible, hp ∈ space := fun hp hm => by rw [hposs] at hm; exact List.mem_of_mem_filter hm
  have hnum : ∀ hp ∈ f.possible, hp.isNumerical = true := fun hp hm => by
    obtain ⟨l, u, g, hk, _⟩ := hfloat hp (hsub hp hm)
    simp [Hp.isNumerical, Hp.numerical?, hk]
  have hofn : ∀ r ∈ samples, HasNumbers f.possible (ofVector r) := fun r hr hp hm => by
    have hms := hsub hp hm
    obtain ⟨l, u, g, hk, _⟩ := hfloat hp hms
    obtain ⟨j, hj⟩ := List.mem_iff_getElem?.1 hms
    have hjl := (List.getElem?_eq_some_iff.1 hj).1
    exact ⟨_, hof r hr j hp l u g _ hj hk (List.getElem?_eq_getElem (by rw [hrows r hr]; exact hjl))⟩
  have hw : ∀ k : Nat, (k : Int) < numTrees → ValidDraw f ((samples.length : Int)).toNat (draw k) := fun k hk => by
    obtain ⟨a, b, c⟩ := hdraw k hk
    refine ⟨by rw [a.length_eq]; simp, fun i hi => ?_, by rw [b]; simp, c⟩
    rw [e3]
    exact List.mem_range.1 (a.mem_iff.1 hi)
  -- the decision tree
  obtain ⟨grid, hgr, -, -⟩ := C40_grid (K := ℝ) (List.length_pos_iff.2 hne) perAxis
  obtain ⟨idx, hidx, -⟩ := hv.cfg.idx
  rw [e2] at hidx
  obtain ⟨p, p1, p2, p3, p4, p5, p6, p7, p8⟩ := dtInit_rows hwf hmu hsel hmem hd hne hrows hn hg 100 1 (notSplittable := none) rfl hidx hgr
  rw [← hposs] at p4
  obtain ⟨L, i, m, l1, l2, l3, l4⟩ := C57_exactly_one_leaf p7 (by rw [p4]; exact hnum) hdep (cfg := inc) (by rw [p4]; exact hinc)
  rw [p2] at l3
  obtain ⟨L', l1', -, lg, -⟩ := partition_eq p7 hdep
  rw [l1'] at l1
  obtain rfl : L' = L := Except.ok.inj l1
  rw [p2, p4, p5, p6] at lg
  -- the forest
  have hmu' : RowWise f.cfg.space.length f.cfg.predict mu sd := by
    have : f.cfg.predict = predict := by
      unfold rfInit at h
      obtain ⟨c, hc, h⟩ := Py.bind_eq_ok.1 h
      obtain rfl := Except.ok.inj h
      dsimp only
      exact (algorithmInit_eq hc).2.2.2.2.1
    rw [e2, this]; exact hmu
  obtain ⟨own, trees, fi, f1, -, -, f4, f5, f6, f7⟩ := C66_partition hv hmu' (by rw [e3]; exact hn) (by rw [e4]; exact hg) ht hdep hspos hw
  obtain ⟨own', trees', R, g1, g2, g3, g4, g5⟩ := C69_after_partition hv hice hnum hmu' (by rw [e3]; exact hn) (by rw [e4]; exact hg) ht hdep hspos hw
    (ofVector := ofVector) (by rw [e3]; exact hofn) hinc overlap
  rw [f1] at g1
  obtain rfl := Except.ok.inj g1
  rw [f4] at g2
  obtain rfl := Option.some.inj g2
  refine ⟨p, m, R, p1, l4, g4, ?_⟩
  obtain ⟨own'', o1, o2, o3⟩ := calcNow_curves hv.cfg hv.not_centered hmu' (by rw [e3]; exact hn) (by rw [e4]; exact hg)
    (idx := idx) (by rw [e2]; exact hidx) (grid := grid) (by rw [e4]; exact hgr)
  rw [f1] at o1
  obtain rfl := Except.ok.inj o1
  rw [e3] at o3 g5
  have hroot : dataCurves own = curves p.root := by rw [o3, p8]
  -- the leaves of every tree are those of the decision tree
  have htree : ∀ t ∈ trees, t.cfg.space = space ∧ List.Forall₂ (SameCut fun A B : List (Curve ℝ) => A.Perm B) L' t.leaves := by
    intro t htm
    obtain ⟨k, hk⟩ := List.mem_iff_getElem?.1 htm
    have hkl := (List.getElem?_eq_some_iff.1 hk).1
    have hkn : (k : Int) < numTrees := by omega
    obtain ⟨-, hft⟩ := f7 k t hk
    obtain ⟨d1, d2, d3⟩ := hdraw k hkn
    have htp : t.possible = f.possible := by
      refine hft.splits_sub.eq_of_length_le ?_
      have hnd : f.possible.Nodup := by
        rw [hposs]
        exact (List.Nodup.of_map Hp.name hwf).filter _
      refine (hnd.subperm fun hp hm => ?_).length_le
      obtain ⟨j, hj⟩ := List.mem_iff_getElem?.1 hm
      have hjl := (List.getElem?_eq_some_iff.1 hj).1
      have hmask : (draw k).mask[j]? = some true := by rw [d2, List.getElem?_replicate, if_pos hjl]
      exact (hft.splits_mask ⟨j, hmask⟩ j hp hj).2 hmask
    have hgt := hft.leaves
    rw [e2, htp, e4] at hgt
    have hrt : (curves p.root).Perm (curves t.root) := by
      rw [← hroot]
      refine root_perm hft.root ?_
      rw [o3, List.length_map]
      exact d1
    have hdepth : t.root.depth = 0 := hft.depth
    refine ⟨by rw [hft.space, e2], ?_⟩
    exact indist_perm.greedy hwf lg hgt ⟨by rw [hdepth, p7.depth], by rw [hft.conds, p7.conds], hrt⟩
  have hvotes : ∀ (s : Nat) r c, samples[s]? = some r → (curves p.root)[s]? = some c →
      (overlap.getD numTrees ≤ (votes trees (ofVector r) inc : Int) ↔ c ∈ curves m) := by
    intro s r c hs hc
    have hr := List.mem_of_getElem? hs
    have hfeat := dt_feature hwf hrows hg p1 (by rw [p3]; exact hmem) (by rw [p3]; exact hd) (by rw [p3]; exact hne) hs hc
    rw [p4] at hfeat
    have hcc := lg.config_curve hwf hfloat hsub p7.conds (hrows r hr) (hof r hr) (List.mem_of_getElem? hc) hfeat
    have hshare : ∀ t ∈ trees, (SharesLeaf t (ofVector r) inc ↔ c ∈ curves m) := by
      intro t htm
      obtain ⟨hsp, hall⟩ := htree t htm
      constructor
      · rintro ⟨leaf, hl, h1, h2⟩
        obtain ⟨m0, hm0, hsame⟩ := forall₂_partner hall.flip hl
        obtain ⟨j, hj⟩ := List.mem_iff_getElem?.1 hm0
        rw [hsp, hsame.conds] at h1 h2
        have := l3 j m0 hj
        rw [h2] at this
        have hji : j = i := by simpa using Except.ok.inj this
        subst hji
        rw [l2] at hj
        obtain rfl := Option.some.inj hj
        obtain ⟨b, hb, hbc⟩ := hcc _ hm0
        rw [h1] at hb
        exact hbc.1 (Except.ok.inj hb).symm
      · intro hcm
        have hm0 := List.mem_of_getElem? l2
        obtain ⟨leaf, hl, hsame⟩ := forall₂_partner hall hm0
        obtain ⟨b, hb, hbc⟩ := hcc _ hm0
        rw [hbc.2 hcm] at hb
        refine ⟨leaf, hl, ?_, ?_⟩
        · rw [hsp, hsame.conds]; exact hb
        · rw [hsp, hsame.conds, l3 i m l2]; simp
    unfold votes
    by_cases hcm : c ∈ curves m
    · rw [List.countP_eq_length.2 fun t htm => by simpa using (hshare t htm).2 hcm]
      exact ⟨fun _ => hcm, fun _ => by omega⟩
    · rw [List.countP_eq_zero.2 fun t htm => by simpa using fun hs => hcm ((hshare t htm).1 hs)]
      refine ⟨fun hle => ?_, fun hc' => absurd hc' hcm⟩
      push_cast at hle
      omega
  obtain ⟨more, -, -, hmc⟩ := lg.leaf_curves hwf m (List.mem_of_getElem? l2)
  have hlen : samples.length = (curves p.root).length := by rw [p8, List.length_map]
  rw [g5, hroot]
  classical
  have e : (samples.zip (curves p.root)).filter (fun e => decide (overlap.getD numTrees ≤ (votes trees (ofVector e.1) inc : Int))) =
      (samples.zip (curves p.root)).filter ((fun c => decide (c ∈ curves m)) ∘ Prod.snd) := by
    refine List.filter_congr fun e he => ?_
    obtain ⟨s, hs⟩ := List.mem_iff_getElem?.1 he
    rw [List.getElem?_zip_eq_some] at hs
    simp only [Function.comp, decide_eq_decide]
    exact hvotes s e.1 e.2 hs.1 hs.2
  rw [e, ← List.filter_map, List.map_snd_zip (by omega)]
  conv_rhs => rw [hmc]
  refine List.filter_congr fun c hc => ?_
  rw [hmc]
  rw [Bool.eq_iff_iff]
  simp [List.mem_filter, hc]

/-! ### a concrete case -/

section concrete

local instance ffTransc : Transc ℚ := ⟨id, id⟩
private def ffSpace : ConfigSpace ℚ := [⟨"x1", .float (-5) 5 false⟩, ⟨"x2", .float 0 1 false⟩, ⟨"x3", .float 0 1 false⟩]
private def ffMean : Predict ℚ := fun rows => .ok (rows.map fun r => r.getD 0 0, rows.map fun r => r.getD 0 0 * r.getD 2 0)
private def ffSamples : List (List ℚ) := [[1/10, 0, 1/2], [9/10, 0, 1/3], [2/10, 0, 1]]
private def ffVector (r : List ℚ) : Config ℚ := ⟨r, [("x1", .num (-5 + 10 * r.getD 0 0)), ("x2", .num (r.getD 1 0)), ("x3", .num (r.getD 2 0))]⟩
private def ffDraw : Nat → ForestDraw := fun k => if k = 0 then ⟨[2, 0, 1], [true, true], 0⟩ else ⟨[1, 2, 0], [true, true], 1⟩

/-- two trees with all samples in different orders: for the required overlaps 2 and 1 (and for none given) the region of the decision tree,
for the required overlap 0 all samples -/
example :
    ((dtInit ffSpace ffMean (.name "x2") ffSamples 2 100 1 none).bind fun p =>
      (dtIncumbentRegion (dtPartition p 1).1 (ffVector [2/10, 0, 0])).map fun m => m.map fun m => m.y.map fun y => y.getD 0 0) = .ok (some [1/10, 2/10]) ∧
    ([none, some 2, some 1, some 0].map fun o => (rfInit ffSpace ffMean (.name "x2") ffSamples 2 5 5).bind fun f =>
      (rfIncumbentRegion ffVector (rfPartition f 2 1 (some 3) ffDraw).1 (ffVector [2/10, 0, 0]) o).map fun R => R.y.map fun y => y.getD 0 0) =
    [.ok [1/10, 2/10], .ok [1/10, 2/10], .ok [1/10, 2/10], .ok [1/10, 9/10, 2/10]] := by decide +kernel

end concrete

end PyPDP
