/-
C169: a tree finds two groups of samples with different variances; where the variance tells nothing, it splits nevertheless, at the first threshold.
-/
import Verif.Props.AdditiveVariance
import Verif.Props.Stability
import Verif.Spec.Recovery

namespace PyPDP
open Spec
variable {K : Type}

section core
variable [Field K] [LinearOrder K] [IsStrictOrderedRing K]

/-! ### regions without loss -/

theorem curveLoss_eq_zero {P : Nat} {L : List (Curve K)} :
    curveLoss P L = 0 ↔ ∀ p, p < P → ∀ c ∈ L, ∀ c' ∈ L, c.2.2.getD p 0 = c'.2.2.getD p 0 := by
  have hnn : ∀ p, 0 ≤ (L.map fun c => (c.2.2.getD p 0 - meanVar p L) ^ 2).sum := fun p =>
    List.sum_nonneg fun a ha => by obtain ⟨c, -, rfl⟩ := List.mem_map.1 ha; positivity
  constructor
  · intro h p hp c hc c' hc'
    unfold curveLoss at h
    have h0 := (Finset.sum_eq_zero_iff_of_nonneg fun q _ => hnn q).1 h p (Finset.mem_range.2 hp)
    have key : ∀ d ∈ L, d.2.2.getD p 0 = meanVar p L := by
      intro d hd
      have hle := List.single_le_sum (l := L.map fun c => (c.2.2.getD p 0 - meanVar p L) ^ 2)
        (fun a ha => by obtain ⟨c, -, rfl⟩ := List.mem_map.1 ha; positivity) _ (List.mem_map.2 ⟨d, hd, rfl⟩)
      rw [h0] at hle
      have := le_antisymm hle (sq_nonneg _)
      exact sub_eq_zero.1 (pow_eq_zero_iff (by norm_num) |>.1 this)
    rw [key c hc, key c' hc']
  · intro h
    unfold curveLoss
    refine Finset.sum_eq_zero fun p hp => ?_
    rcases eq_or_ne L [] with rfl | hne
    · simp
    obtain ⟨d, hd⟩ := List.exists_mem_of_ne_nil L hne
    have e : L.map (fun c => c.2.2.getD p 0) = L.map fun _ => d.2.2.getD p 0 :=
      List.map_congr_left fun c hc => h p (Finset.mem_range.1 hp) c hc d hd
    have hm : meanVar p L = d.2.2.getD p 0 := by
      have hn : (L.length : K) ≠ 0 := by
        have := List.length_pos_iff.2 hne
        exact_mod_cast this.ne'
      unfold meanVar
      rw [e]
      simp only [List.map_const', List.sum_replicate, nsmul_eq_mul]
      field_simp
    have : L.map (fun c => (c.2.2.getD p 0 - meanVar p L) ^ 2) = L.map fun _ => (0 : K) :=
      List.map_congr_left fun c hc => by rw [hm, h p (Finset.mem_range.1 hp) c hc d hd]; ring
    rw [this]
    simp

theorem curveLoss_nonneg' (P : Nat) (L : List (Curve K)) : 0 ≤ curveLoss P L :=
  Finset.sum_nonneg fun p _ => List.sum_nonneg fun a ha => by obtain ⟨c, -, rfl⟩ := List.mem_map.1 ha; positivity

/-- the curves of the same samples for two surrogates -/
def SameRows (idx : List Nat) (grid : List (List K)) (mu sd mu' sd' : List K → K) (samples : List (List K)) (L L' : List (Curve K)) : Prop :=
  ∃ sub : List (List K), sub.Sublist samples ∧ L = sub.map (curveAt idx grid mu sd) ∧ L' = sub.map (curveAt idx grid mu' sd')

/-- the variances tell nothing about the samples -/
theorem indist_flat {idx : List Nat} {grid : List (List K)} {mu sd mu' sd' : List K → K} {samples : List (List K)} {P : Nat} (hP : grid.length = P)
    (hflat : ∀ t ∈ grid, ∀ r ∈ samples, ∀ r' ∈ samples, sd (assignRow idx t r) ^ 2 = sd (assignRow idx t r') ^ 2 ∧
      sd' (assignRow idx t r) ^ 2 = sd' (assignRow idx t r') ^ 2) :
    Indist P (1 : K) (SameRows idx grid mu sd mu' sd' samples) := by
  have hzero : ∀ {m s : List K → K} {sub : List (List K)}, (∀ t ∈ grid, ∀ r ∈ sub, ∀ r' ∈ sub, s (assignRow idx t r) ^ 2 = s (assignRow idx t r') ^ 2) →
      curveLoss P (sub.map (curveAt idx grid m s)) = 0 := by
    intro m s sub hs
    rw [curveLoss_eq_zero]
    intro p hp c hc c' hc'
    obtain ⟨r, hr, rfl⟩ := List.mem_map.1 hc
    obtain ⟨r', hr', rfl⟩ := List.mem_map.1 hc'
    have hlt : p < grid.length := by rw [hP]; exact hp
    simp [curveAt, List.getD_eq_getElem?_getD, List.getElem?_eq_getElem hlt, hs _ (List.getElem_mem hlt) r hr r' hr']
  refine ⟨one_pos, ?_, ?_, ?_, ?_⟩
  · rintro L L' ⟨sub, -, rfl, rfl⟩; simp
  · rintro L L' f t ⟨sub, hsub, rfl, rfl⟩
    refine ⟨sub.filter fun r => decide (featureOf f (curveAt idx grid mu sd r) ≤ t), List.filter_sublist.trans hsub, ?_, ?_⟩ <;>
    · unfold lowerPart; rw [List.filter_map]; rfl
  · rintro L L' f t ⟨sub, hsub, rfl, rfl⟩
    refine ⟨sub.filter fun r => decide (t < featureOf f (curveAt idx grid mu sd r)), List.filter_sublist.trans hsub, ?_, ?_⟩ <;>
    · unfold upperPart; rw [List.filter_map]; rfl
  · rintro L L' ⟨sub, hsub, rfl, rfl⟩
    rw [hzero fun t ht r hr r' hr' => (hflat t ht r (hsub.subset hr) r' (hsub.subset hr')).2,
      hzero fun t ht r hr r' hr' => (hflat t ht r (hsub.subset hr) r' (hsub.subset hr')).1, mul_zero]


/-! ### the root region -/

/-- what a constructor with a row-wise surrogate leaves behind -/
structure RootOf (space : ConfigSpace K) (mu sd : List K → K) (samples : List (List K)) (g numSplits minPoints : Nat) (p : DT K) (idx : List Nat)
    (grid : List (List K)) : Prop where
  valid : ValidDT (g ^ p.cfg.selected.length) p
  space_eq : p.cfg.space = space
  numSplits_eq : p.numSplits = numSplits
  minPoints_eq : p.minPoints = minPoints
  grid_len : grid.length = g ^ p.cfg.selected.length
  grid_ne : grid ≠ []
  curves_eq : curves p.root = samples.map (curveAt idx grid mu sd)
  row : ∀ t ∈ grid, ∀ r ∈ samples, assignRow idx t r = atPoint space p.cfg.selected t r
  point : ∀ t ∈ grid, t.length = p.cfg.selected.length
  other : ∀ f, (∀ hp ∈ p.cfg.selected, ¬ IsFeature space hp f) → f ∉ idx
  free : ∀ hp ∈ p.possible, ∀ f, IsFeature space hp f → f ∉ idx
  idx_eq : getSelectedIdx p.cfg.selected space = .ok idx
  grid_eq : gridPoints p.cfg.selected.length g = .ok grid

theorem rootOf {space : ConfigSpace K} (hwf : space.WF) {predict : Predict K} {mu sd : List K → K}
    (hp : RowWise space.length predict mu sd) {samples : List (List K)} (hrows : ∀ r ∈ samples, r.length = space.length) (hs : samples ≠ [])
    {sel : Selection K} {g numSplits minPoints : Nat} (hg : 1 ≤ g) {notSplittable : Option (Selection K)} {p : DT K}
    (h : dtInit space predict sel samples g numSplits minPoints notSplittable = .ok p)
    (hmem : ∀ hp ∈ p.cfg.selected, hp ∈ space) (hd : (p.cfg.selected.map Hp.name).Nodup) (hne : p.cfg.selected ≠ []) :
    ∃ idx grid, RootOf space mu sd samples g numSplits minPoints p idx grid := by
  obtain ⟨c, ns, i, dd, hc, hns, -, -, -, e⟩ := dtInit_ok h
  obtain ⟨hsel, -⟩ := algorithmInit_eq hc
  have hpc : p.cfg = c := by rw [e]
  rw [← hpc] at hsel
  obtain ⟨S, hS⟩ : ∃ S, S = p.cfg.selected := ⟨_, rfl⟩
  rw [← hS] at hsel hmem hd hne
  obtain ⟨grid, hgr, hgl, hfull⟩ := C40_grid (K := K) (List.length_pos_iff.2 hne) g
  have hvc : ValidCfg (⟨space, S, samples, samples.length, g, g ^ S.length, false, predict⟩ : IceCfg K) :=
    ⟨hwf, hmem, hd, hne, hrows, rfl, rfl⟩
  obtain ⟨idx, hidx, hnd, hfeat⟩ := hvc.idx
  dsimp only at hidx hfeat
  obtain ⟨q, q1, q2, q3, q4, q5, q6, q7, q8⟩ := dtInit_rows hwf hp hsel hmem hd hne hrows hs hg numSplits minPoints hns hidx hgr
  rw [h] at q1
  obtain rfl := Except.ok.inj q1
  have hother : ∀ f, (∀ hp ∈ S, ¬ IsFeature space hp f) → f ∉ idx := by
    intro f hf hm
    obtain ⟨j, hj⟩ := List.getElem?_of_mem hm
    have hjl := (List.getElem?_eq_some_iff.1 hj).1
    have hlen := hfeat.length_eq
    have := hfeat.get (i := j) (by omega) hjl
    simp only [List.get_eq_getElem] at this
    rw [List.getElem?_eq_getElem hjl] at hj
    rw [Option.some.inj hj] at this
    exact hf _ (List.getElem_mem _) this
  have hpos : 0 < g ^ S.length := Nat.pow_pos hg
  refine ⟨idx, grid, by rw [← hS]; exact q7, q2, q5, q6, by rw [← hS]; exact hgl, by rintro rfl; simp at hgl; omega, q8,
    fun t ht r hr => by rw [← hS]; exact assignRow_atPoint hvc hidx (hrows r hr) ((hfull.2 t).1 ht).1,
    fun t ht => by rw [← hS]; exact ((hfull.2 t).1 ht).1, by rw [← hS]; exact hother, ?_, by rw [← hS]; exact hidx, by rw [← hS]; exact hgr⟩
  intro a ha f hf
  refine hother f fun b hb hfb => ?_
  rw [q4] at ha
  have := (List.mem_filter.1 ha).2
  simp only [decide_eq_true_eq] at this
  refine this.1 (List.mem_map.2 ⟨b, hb, ?_⟩)
  obtain ⟨x, hx, hxn⟩ := hf
  obtain ⟨y, hy, hyn⟩ := hfb
  rw [hx] at hy
  obtain rfl := Option.some.inj hy
  rw [← hxn, hyn]

section root
variable {space : ConfigSpace K} {mu sd : List K → K} {samples : List (List K)} {g numSplits minPoints : Nat} {p : DT K} {idx : List Nat}
  {grid : List (List K)}

omit [IsStrictOrderedRing K] in
theorem RootOf.parts (h : RootOf space mu sd samples g numSplits minPoints p idx grid) {hp : Hp K} (hm : hp ∈ p.possible) {f : Nat}
    (hf : IsFeature space hp f) (t : K) (sub : List (List K)) :
    lowerPart f t (sub.map (curveAt idx grid mu sd)) = (below f t sub).map (curveAt idx grid mu sd) ∧
    upperPart f t (sub.map (curveAt idx grid mu sd)) = (above f t sub).map (curveAt idx grid mu sd) := by
  constructor
  · unfold lowerPart below
    rw [List.filter_map]
    congr 2
    funext r
    simp only [Function.comp, featureOf_curveAt h.grid_ne (h.free hp hm f hf)]
  · unfold upperPart above
    rw [List.filter_map]
    congr 2
    funext r
    simp only [Function.comp, featureOf_curveAt h.grid_ne (h.free hp hm f hf)]

omit [IsStrictOrderedRing K] in
theorem RootOf.admits (h : RootOf space mu sd samples g numSplits minPoints p idx grid) {i j : Nat} {hp : Hp K} {f : Nat} {N mp : Nat} :
    IsCandidate space p.possible N mp (curves p.root) i j hp f ↔ Admits space p.possible N mp samples i j hp f := by
  rw [h.curves_eq]
  constructor
  · rintro ⟨a, b, c, d, e, k⟩
    obtain ⟨h1, h2⟩ := h.parts (List.mem_of_getElem? a) b (threshold N j) samples
    rw [h1, List.length_map] at e
    rw [h2, List.length_map] at k
    exact ⟨a, b, c, d, e, k⟩
  · rintro ⟨a, b, c, d, e, k⟩
    obtain ⟨h1, h2⟩ := h.parts (List.mem_of_getElem? a) b (threshold N j) samples
    refine ⟨a, b, c, d, ?_, ?_⟩
    · rw [h1, List.length_map]; exact e
    · rw [h2, List.length_map]; exact k

omit [LinearOrder K] [IsStrictOrderedRing K] in
theorem RootOf.rows (h : RootOf space mu sd samples g numSplits minPoints p idx grid) {m : Node K}
    (hm : RegionShape (g ^ p.cfg.selected.length) space.length m) {sub : List (List K)} (hc : curves m = sub.map (curveAt idx grid mu sd)) :
    List.Forall₂ (IsCurveOf space p.cfg.selected (g ^ p.cfg.selected.length)) sub m.x := by
  rw [← hm.map_x, hc, List.map_map, List.forall₂_map_right_iff, List.forall₂_same]
  intro r _
  simp only [Function.comp, curveAt, IsCurveOf, List.length_map]
  refine ⟨h.grid_len, fun row hrow f hf => ?_⟩
  obtain ⟨t, -, rfl⟩ := List.mem_map.1 hrow
  exact assignRow_other (h.other f hf) t r

end root

/-- **C169** If the variance of the surrogate depends only on the selected hyperparameters, the regions are all alike: every leaf of every depth has loss 0. The
tree is then the same for every such surrogate, it depends on the samples alone. -/
theorem C169_uninformative [Transc K] {space : ConfigSpace K} (hwf : space.WF) {predict predict' : Predict K} {mu sd mu' sd' : List K → K}
    (hp : RowWise space.length predict mu sd) (hp' : RowWise space.length predict' mu' sd')
    {samples : List (List K)} (hrows : ∀ r ∈ samples, r.length = space.length) (hs : samples ≠ [])
    {sel : Selection K} {g numSplits minPoints : Nat} (hg : 1 ≤ g) {notSplittable : Option (Selection K)} {p : DT K}
    (h : dtInit space predict sel samples g numSplits minPoints notSplittable = .ok p)
    (hmem : ∀ hp ∈ p.cfg.selected, hp ∈ space) (hd : (p.cfg.selected.map Hp.name).Nodup) (hne : p.cfg.selected ≠ [])
    (hflat : ReadsSelected space p.cfg.selected fun r => sd r ^ 2) (hflat' : ReadsSelected space p.cfg.selected fun r => sd' r ^ 2) :
    ∃ p', dtInit space predict' sel samples g numSplits minPoints notSplittable = .ok p' ∧ regionLoss p.root.v = 0 ∧ ∀ depth : Int, 0 < depth →
      ∃ leaves leaves', (dtPartition p depth).2 = .ok leaves ∧ (dtPartition p' depth).2 = .ok leaves' ∧
        List.Forall₂ (fun m m' => m'.depth = m.depth ∧ m'.conds = m.conds ∧ m'.x = m.x ∧ regionLoss m.v = 0 ∧ regionLoss m'.v = 0) leaves leaves' := by
  obtain ⟨idx, grid, hr⟩ := rootOf hwf hp hrows hs hg h hmem hd hne
  obtain ⟨p', P, idx', grid', h1, hv, hv', e0, e1, -, e2, e3, e4, hi, hgr, -, c1, c2⟩ := tree_pair hwf hp hp' hrows hs hrows hs hg h hmem hd hne
  rw [hr.idx_eq] at hi
  rw [hr.grid_eq] at hgr
  obtain rfl := Except.ok.inj hi
  obtain rfl := Except.ok.inj hgr
  have hP : grid.length = P := by
    obtain ⟨r0, rs, er⟩ := List.exists_cons_of_ne_nil hs
    have hx := hv.shape.map_x
    rw [c1, er, List.map_cons] at hx
    have := (hv.shape.xs (curveAt idx grid mu sd r0).1 (by rw [← hx]; simp)).1
    simpa [curveAt] using this
  have hread : ∀ {s : List K → K}, (ReadsSelected space p.cfg.selected fun r => s r ^ 2) → ∀ t ∈ grid, ∀ r ∈ samples, ∀ r' ∈ samples,
      s (assignRow idx t r) ^ 2 = s (assignRow idx t r') ^ 2 := by
    intro s hs t ht r hr1 r' hr2
    rw [hr.row t ht r hr1, hr.row t ht r' hr2]
    refine hs _ _ (atPoint_length (hrows r hr1)) (atPoint_length (hrows r' hr2)) fun a ha f hf => ?_
    obtain ⟨j, hj⟩ := List.mem_iff_getElem?.1 ha
    rw [atPoint_selected hd (hrows r hr1) (hr.point t ht) hj hf, atPoint_selected hd (hrows r' hr2) (hr.point t ht) hj hf]
  have hind := indist_flat (mu := mu) (mu' := mu') (sd := sd) (sd' := sd') (idx := idx) (samples := samples) hP
    fun t ht r hr1 r' hr2 => ⟨hread hflat t ht r hr1 r' hr2, hread hflat' t ht r hr1 r' hr2⟩
  have hzero : ∀ {s m : List K → K} {n : Node K} {sub : List (List K)}, (ReadsSelected space p.cfg.selected fun r => s r ^ 2) → RegionShape P space.length n →
      sub.Sublist samples → curves n = sub.map (curveAt idx grid m s) → regionLoss n.v = 0 := by
    intro s m n sub hs hn hsub hc
    rw [regionLoss_curves hn, hc, curveLoss_eq_zero]
    intro q hq c hcm c' hcm'
    obtain ⟨r, hr1, rfl⟩ := List.mem_map.1 hcm
    obtain ⟨r', hr2, rfl⟩ := List.mem_map.1 hcm'
    have hlt : q < grid.length := by rw [hP]; exact hq
    simp [curveAt, List.getD_eq_getElem?_getD, List.getElem?_eq_getElem hlt,
      hread hs _ (List.getElem_mem hlt) r (hsub.subset hr1) r' (hsub.subset hr2)]
  refine ⟨p', h1, hzero hflat (by rw [← e0]; exact hv.shape) (List.Sublist.refl _) c1, fun depth hdep => ?_⟩
  obtain ⟨L, L', g1, g2, g3, g4, g5⟩ := partition_related hind hv hv' e1 e2 e3 e4 ⟨samples, List.Sublist.refl _, c1, c2⟩ hdep
  refine ⟨L, L', by rw [g1], by rw [g2], forall₂_mem g5 fun m m' hm hm' hc => ?_⟩
  obtain ⟨sub, hsub, f1, f2⟩ := hc.curves
  have s1 := g3.shapes m hm
  have s2 := g4.shapes m' hm'
  rw [e0] at s1 s2
  refine ⟨hc.depth, hc.conds, ?_, hzero hflat s1 hsub f1, hzero hflat' s2 hsub f2⟩
  rw [← s1.map_x, ← s2.map_x, f1, f2, List.map_map, List.map_map]
  rfl

/-- **C169** and it does split: at the first threshold of the first splittable hyperparameter that leaves enough samples on both sides. -/
theorem C169_first_threshold [Transc K] {space : ConfigSpace K} (hwf : space.WF) {predict : Predict K} {mu sd : List K → K}
    (hp : RowWise space.length predict mu sd) {samples : List (List K)} (hrows : ∀ r ∈ samples, r.length = space.length) (h2 : 2 ≤ samples.length)
    {sel : Selection K} {g numSplits minPoints : Nat} (hg : 1 ≤ g) {notSplittable : Option (Selection K)} {p : DT K}
    (h : dtInit space predict sel samples g numSplits minPoints notSplittable = .ok p)
    (hmem : ∀ hp ∈ p.cfg.selected, hp ∈ space) (hd : (p.cfg.selected.map Hp.name).Nodup) (hne : p.cfg.selected ≠ [])
    (hflat : ReadsSelected space p.cfg.selected fun r => sd r ^ 2) {i j : Nat} {a : Hp K} {f : Nat}
    (hadm : Admits space p.possible numSplits minPoints samples i j a f)
    (hfirst : ∀ i' j' a' f', Admits space p.possible numSplits minPoints samples i' j' a' f' → i < i' ∨ i = i' ∧ j ≤ j') :
    ∃ upper lower, (dtPartition p 1).2 = .ok [upper, lower] ∧
      lower.conds = [⟨a, .flt ((j : K) / ((numSplits : K) + 1)), some true⟩] ∧ upper.conds = [⟨a, .flt ((j : K) / ((numSplits : K) + 1)), some false⟩] ∧
      List.Forall₂ (IsCurveOf space p.cfg.selected (g ^ p.cfg.selected.length)) (below f ((j : K) / ((numSplits : K) + 1)) samples) lower.x ∧
      List.Forall₂ (IsCurveOf space p.cfg.selected (g ^ p.cfg.selected.length)) (above f ((j : K) / ((numSplits : K) + 1)) samples) upper.x := by
  have hs : samples ≠ [] := by rintro rfl; simp at h2
  obtain ⟨idx, grid, hr⟩ := rootOf hwf hp hrows hs hg h hmem hd hne
  obtain ⟨L, g1, -, g3, -⟩ := partition_eq hr.valid (d := 1) (by decide)
  rw [hr.space_eq, hr.numSplits_eq, hr.minPoints_eq] at g3
  have hflatc : ∀ f j, splitCost (g ^ p.cfg.selected.length) numSplits (curves p.root) f j = 0 := by
    intro f j
    have hz : ∀ A : List (Curve K), A.Sublist (curves p.root) → curveLoss (g ^ p.cfg.selected.length) A = 0 := by
      intro A hA
      rw [curveLoss_eq_zero]
      intro q hq c hcm c' hcm'
      have hcm := hA.subset hcm
      have hcm' := hA.subset hcm'
      rw [hr.curves_eq] at hcm hcm'
      obtain ⟨r, hr1, rfl⟩ := List.mem_map.1 hcm
      obtain ⟨r', hr2, rfl⟩ := List.mem_map.1 hcm'
      have hlt : q < grid.length := by rw [hr.grid_len]; exact hq
      have key : sd (assignRow idx grid[q] r) ^ 2 = sd (assignRow idx grid[q] r') ^ 2 := by
        have ht := List.getElem_mem hlt
        rw [hr.row _ ht r hr1, hr.row _ ht r' hr2]
        refine hflat _ _ (atPoint_length (hrows r hr1)) (atPoint_length (hrows r' hr2)) fun a ha f hf => ?_
        obtain ⟨j, hj⟩ := List.mem_iff_getElem?.1 ha
        rw [atPoint_selected hd (hrows r hr1) (hr.point _ ht) hj hf, atPoint_selected hd (hrows r' hr2) (hr.point _ ht) hj hf]
      simp [curveAt, List.getD_eq_getElem?_getD, List.getElem?_eq_getElem hlt, key]
    unfold splitCost lowerPart upperPart
    rw [hz _ List.filter_sublist, hz _ List.filter_sublist, add_zero]
  have hbest : IsBestCandidate space p.possible numSplits minPoints (g ^ p.cfg.selected.length) (curves p.root) i j a f :=
    ⟨hr.admits.2 hadm, fun i' j' a' f' hc => ⟨by rw [hflatc, hflatc], fun _ => hfirst i' j' a' f' (hr.admits.1 hc)⟩⟩
  cases g3 with
  | leaf _ hst =>
    exfalso
    rw [hr.valid.depth, hr.curves_eq, List.length_map] at hst
    rcases hst with hst | hst | hst
    · norm_num at hst
    · omega
    · have := hbest.1
      rw [hr.curves_eq] at this
      exact hst _ _ _ _ this
  | @branch _ l r Ll Lr i' j' a' f' hn _ _ hb hsp hgl hgr =>
    obtain ⟨rfl, rfl, rfl, rfl⟩ := best_unique hwf hbest hb
    have hl1 : Ll = [l] := by
      cases hgl with
      | leaf _ _ => rfl
      | branch _ hlt _ _ _ _ _ => rw [hsp.left_depth, hr.valid.depth] at hlt; norm_num at hlt
    have hr1 : Lr = [r] := by
      cases hgr with
      | leaf _ _ => rfl
      | branch _ hlt _ _ _ _ _ => rw [hsp.right_depth, hr.valid.depth] at hlt; norm_num at hlt
    subst hl1 hr1
    obtain ⟨u1, u2⟩ := hr.parts (List.mem_of_getElem? hadm.hp_at) hadm.feature (threshold numSplits j) samples
    refine ⟨r, l, by rw [g1]; rfl, by rw [hsp.left_conds, hr.valid.conds]; rfl, by rw [hsp.right_conds, hr.valid.conds]; rfl, ?_, ?_⟩
    · refine hr.rows hgl.shape ?_
      rw [hsp.left_curves, hr.curves_eq]; exact u1
    · refine hr.rows hgr.shape ?_
      rw [hsp.right_curves, hr.curves_eq]; exact u2

/-! ### two groups of samples -/

omit [IsStrictOrderedRing K] in
theorem greedy_sublist {space possible : List (Hp K)} {N mp P : Nat} {d : Int} {n : Node K} {L : List (Node K)}
    (h : Greedy space possible N mp P d n L) : ∀ m ∈ L, (curves m).Sublist (curves n) := by
  induction h with
  | leaf _ _ => simp
  | branch _ _ _ _ hsp _ _ ihl ihr =>
    intro m hm
    rcases List.mem_append.1 hm with hm | hm
    · refine (ihr m hm).trans ?_
      rw [hsp.right_curves]; exact List.filter_sublist
    · refine (ihl m hm).trans ?_
      rw [hsp.left_curves]; exact List.filter_sublist

omit [IsStrictOrderedRing K] in
theorem greedy_ne {space possible : List (Hp K)} {N mp P : Nat} {d : Int} {n : Node K} {L : List (Node K)}
    (h : Greedy space possible N mp P d n L) : L ≠ [] := by
  induction h with
  | leaf _ _ => simp
  | branch _ _ _ _ _ _ _ ihl _ => simp [ihl]

/-- **C169** The samples fall into two groups, told apart by the other hyperparameters, and among configurations with the same values of the selected
hyperparameters the variance is the same exactly if the group is. If some threshold of the tree separates the groups, every leaf holds samples of one group
only, and a tree of depth 1 consists of the two groups. -/
theorem C169_recovery [Transc K] {space : ConfigSpace K} (hwf : space.WF) {predict : Predict K} {mu sd : List K → K}
    (hp : RowWise space.length predict mu sd) {samples : List (List K)} (hrows : ∀ r ∈ samples, r.length = space.length)
    {sel : Selection K} {g numSplits minPoints : Nat} (hg : 1 ≤ g) (hmp : 1 ≤ minPoints) {notSplittable : Option (Selection K)} {p : DT K}
    (h : dtInit space predict sel samples g numSplits minPoints notSplittable = .ok p)
    (hmem : ∀ hp ∈ p.cfg.selected, hp ∈ space) (hd : (p.cfg.selected.map Hp.name).Nodup) (hne : p.cfg.selected ≠ [])
    {side : List K → Bool} (hside : ∀ r r', AgreesOnOthers space p.cfg.selected r r' → side r' = side r)
    (hvar : ∀ r r' : List K, r.length = space.length → r'.length = space.length →
      (∀ hp ∈ p.cfg.selected, ∀ f, IsFeature space hp f → r[f]? = r'[f]?) → (sd r ^ 2 = sd r' ^ 2 ↔ side r = side r'))
    {i j : Nat} {a : Hp K} {f : Nat} (hadm : Admits space p.possible numSplits minPoints samples i j a f)
    (hsep : ∀ r ∈ samples, r.getD f 0 ≤ (j : K) / ((numSplits : K) + 1) ↔ side r = true) {depth : Int} (hdep : 0 < depth) :
    (∃ leaves, (dtPartition p depth).2 = .ok leaves ∧ 2 ≤ leaves.length ∧ ∀ m ∈ leaves, regionLoss m.v = 0 ∧
      ∃ b, ∃ sub : List (List K), sub.Sublist samples ∧ List.Forall₂ (IsCurveOf space p.cfg.selected (g ^ p.cfg.selected.length)) sub m.x ∧
        ∀ r ∈ sub, side r = b) ∧
    (depth = 1 → ∃ upper lower b, (dtPartition p depth).2 = .ok [upper, lower] ∧
      List.Forall₂ (IsCurveOf space p.cfg.selected (g ^ p.cfg.selected.length)) (samples.filter fun r => side r == b) lower.x ∧
      List.Forall₂ (IsCurveOf space p.cfg.selected (g ^ p.cfg.selected.length)) (samples.filter fun r => side r == !b) upper.x) := by
  obtain ⟨lo, hlo⟩ := List.exists_mem_of_length_pos (lt_of_lt_of_le hmp hadm.below_size)
  obtain ⟨up, hup⟩ := List.exists_mem_of_length_pos (lt_of_lt_of_le hmp hadm.above_size)
  obtain ⟨hlo, hlo'⟩ := List.mem_filter.1 hlo
  obtain ⟨hup, hup'⟩ := List.mem_filter.1 hup
  simp only [decide_eq_true_eq] at hlo' hup'
  have slo : side lo = true := (hsep lo hlo).1 hlo'
  have sup : side up = false := by
    cases e : side up with
    | false => rfl
    | true => exact absurd ((hsep up hup).2 e) (not_le.2 hup')
  have hs : samples ≠ [] := by rintro rfl; simp at hlo
  obtain ⟨idx, grid, hr⟩ := rootOf hwf hp hrows hs hg h hmem hd hne
  have hP : grid.length = g ^ p.cfg.selected.length := hr.grid_len
  -- a part has no loss if and only if it lies within one group
  have hpt : ∀ t ∈ grid, ∀ r ∈ samples, ∀ r' ∈ samples, (sd (assignRow idx t r) ^ 2 = sd (assignRow idx t r') ^ 2 ↔ side r = side r') := by
    intro t ht r hr1 r' hr2
    have e1 : side (assignRow idx t r) = side r := hside _ _ fun f hf => assignRow_other (hr.other f hf) t r
    have e2 : side (assignRow idx t r') = side r' := hside _ _ fun f hf => assignRow_other (hr.other f hf) t r'
    rw [← e1, ← e2, hr.row t ht r hr1, hr.row t ht r' hr2]
    refine hvar _ _ (atPoint_length (hrows r hr1)) (atPoint_length (hrows r' hr2)) fun b hb f hf => ?_
    obtain ⟨k, hk⟩ := List.mem_iff_getElem?.1 hb
    rw [atPoint_selected hd (hrows r hr1) (hr.point t ht) hk hf, atPoint_selected hd (hrows r' hr2) (hr.point t ht) hk hf]
  have hzero : ∀ sub : List (List K), (∀ r ∈ sub, r ∈ samples) →
      (curveLoss (g ^ p.cfg.selected.length) (sub.map (curveAt idx grid mu sd)) = 0 ↔ ∀ r ∈ sub, ∀ r' ∈ sub, side r = side r') := by
    intro sub hsub
    rw [curveLoss_eq_zero]
    constructor
    · intro hz r hr1 r' hr2
      obtain ⟨t, ht⟩ := List.exists_mem_of_ne_nil grid hr.grid_ne
      obtain ⟨q, hq, rfl⟩ := List.getElem_of_mem ht
      have := hz q (by rw [← hP]; exact hq) _ (List.mem_map.2 ⟨r, hr1, rfl⟩) _ (List.mem_map.2 ⟨r', hr2, rfl⟩)
      simp only [curveAt, List.getD_eq_getElem?_getD, List.getElem?_map, List.getElem?_eq_getElem hq, Option.map_some, Option.getD_some] at this
      exact (hpt _ ht r (hsub r hr1) r' (hsub r' hr2)).1 this
    · intro hz q hq c hc c' hc'
      obtain ⟨r, hr1, rfl⟩ := List.mem_map.1 hc
      obtain ⟨r', hr2, rfl⟩ := List.mem_map.1 hc'
      have hlt : q < grid.length := by rw [hP]; exact hq
      have := (hpt _ (List.getElem_mem hlt) r (hsub r hr1) r' (hsub r' hr2)).2 (hz r hr1 r' hr2)
      simp [curveAt, List.getD_eq_getElem?_getD, List.getElem?_eq_getElem hlt, this]
  obtain ⟨L, g1, -, g3, -⟩ := partition_eq hr.valid hdep
  rw [hr.space_eq, hr.numSplits_eq, hr.minPoints_eq] at g3
  have hcand := hr.admits.2 hadm
  have hcost : ∀ {k : Nat} {b : Hp K} {f' : Nat} (hb : b ∈ p.possible) (hf : IsFeature space b f'),
      splitCost (g ^ p.cfg.selected.length) numSplits (curves p.root) f' k
        = curveLoss (g ^ p.cfg.selected.length) ((below f' (threshold numSplits k) samples).map (curveAt idx grid mu sd))
        + curveLoss (g ^ p.cfg.selected.length) ((above f' (threshold numSplits k) samples).map (curveAt idx grid mu sd)) := by
    intro k b f' hb hf
    obtain ⟨u1, u2⟩ := hr.parts hb hf (threshold numSplits k) samples
    unfold splitCost
    rw [hr.curves_eq, u1, u2]
  have hsepcost : splitCost (g ^ p.cfg.selected.length) numSplits (curves p.root) f j = 0 := by
    rw [hcost (List.mem_of_getElem? hadm.hp_at) hadm.feature, (hzero (below _ _ _) fun r hr => (List.mem_filter.1 hr).1).2,
      (hzero (above _ _ _) fun r hr => (List.mem_filter.1 hr).1).2, add_zero]
    · intro r hr1 r' hr2
      have e : ∀ r ∈ above f (threshold numSplits j) samples, side r = false := by
        intro r hr1
        obtain ⟨m1, m2⟩ := List.mem_filter.1 hr1
        simp only [decide_eq_true_eq] at m2
        cases e : side r with
        | false => rfl
        | true => exact absurd ((hsep r m1).2 e) (not_le.2 m2)
      rw [e r hr1, e r' hr2]
    · intro r hr1 r' hr2
      have e : ∀ r ∈ below f (threshold numSplits j) samples, side r = true := by
        intro r hr1
        obtain ⟨m1, m2⟩ := List.mem_filter.1 hr1
        simp only [decide_eq_true_eq] at m2
        exact (hsep r m1).1 m2
      rw [e r hr1, e r' hr2]
  cases g3 with
  | leaf _ hst =>
    exfalso
    rw [hr.valid.depth, hr.curves_eq, List.length_map] at hst
    rcases hst with hst | hst | hst
    · push_cast at hst; omega
    · have : lo ≠ up := by rintro rfl; rw [slo] at sup; cases sup
      match samples, hst, hlo, hup with
      | [], _, hlo, _ => simp at hlo
      | [_], _, hlo, hup => simp only [List.mem_singleton] at hlo hup; exact this (hlo.trans hup.symm)
      | _ :: _ :: _, hst, _, _ => simp at hst
    · rw [hr.curves_eq] at hcand
      exact hst _ _ _ _ hcand
  | @branch _ l r Ll Lr i' j' a' f' hn _ _ hb hsp hgl hgr =>
    obtain ⟨hb1, hb2⟩ := hb
    have hle := (hb2 _ _ _ _ hcand).1
    have hpos := List.mem_of_getElem? hb1.hp_at
    rw [hsepcost, hcost hpos hb1.feature] at hle
    have n1 := curveLoss_nonneg' (g ^ p.cfg.selected.length) ((below f' (threshold numSplits j') samples).map (curveAt idx grid mu sd))
    have n2 := curveLoss_nonneg' (g ^ p.cfg.selected.length) ((above f' (threshold numSplits j') samples).map (curveAt idx grid mu sd))
    have z1 := (hzero (below _ _ _) fun r hr => (List.mem_filter.1 hr).1).1 (le_antisymm (by linarith) n1)
    have z2 := (hzero (above _ _ _) fun r hr => (List.mem_filter.1 hr).1).1 (le_antisymm (by linarith) n2)
    have hadm' := hr.admits.1 hb1
    obtain ⟨u1, u2⟩ := hr.parts hpos hb1.feature (threshold numSplits j') samples
    have cl : curves l = (below f' (threshold numSplits j') samples).map (curveAt idx grid mu sd) := by
      rw [hsp.left_curves, hr.curves_eq]; exact u1
    have cr : curves r = (above f' (threshold numSplits j') samples).map (curveAt idx grid mu sd) := by
      rw [hsp.right_curves, hr.curves_eq]; exact u2
    obtain ⟨lo1, hlo1⟩ := List.exists_mem_of_length_pos (lt_of_lt_of_le hmp hadm'.below_size)
    obtain ⟨up1, hup1⟩ := List.exists_mem_of_length_pos (lt_of_lt_of_le hmp hadm'.above_size)
    have zl : ∀ r ∈ samples, r.getD f' 0 ≤ threshold numSplits j' → side r = side lo1 := fun r hr1 hr2 =>
      z1 r (List.mem_filter.2 ⟨hr1, by simpa using hr2⟩) lo1 hlo1
    have zu : ∀ r ∈ samples, threshold numSplits j' < r.getD f' 0 → side r = side up1 := fun r hr1 hr2 =>
      z2 r (List.mem_filter.2 ⟨hr1, by simpa using hr2⟩) up1 hup1
    have hdiff : side up1 = !side lo1 := by
      by_contra hcon
      have heq : side up1 = side lo1 := by revert hcon; cases side up1 <;> cases side lo1 <;> simp
      have all : ∀ r ∈ samples, side r = side lo1 := fun r hr1 => by
        rcases le_or_gt (r.getD f' 0) (threshold numSplits j') with hh | hh
        · exact zl r hr1 hh
        · rw [zu r hr1 hh, heq]
      have := (all lo hlo).trans (all up hup).symm
      rw [slo, sup] at this
      cases this
    have hleaf : ∀ {n : Node K} {M : List (Node K)} {part : List (List K)} {b : Bool},
        Greedy space p.possible numSplits minPoints (g ^ p.cfg.selected.length) depth n M → curves n = part.map (curveAt idx grid mu sd) →
        part.Sublist samples → (∀ r ∈ part, side r = b) → ∀ m ∈ M, regionLoss m.v = 0 ∧
          ∃ b, ∃ sub : List (List K), sub.Sublist samples ∧ List.Forall₂ (IsCurveOf space p.cfg.selected (g ^ p.cfg.selected.length)) sub m.x ∧
            ∀ r ∈ sub, side r = b := by
      intro n M part b hG hc hps hpb m hm
      have hsm := greedy_sublist hG m hm
      rw [hc, List.sublist_map_iff] at hsm
      obtain ⟨sub, hsub, e⟩ := hsm
      have hsh := hG.shapes m hm
      refine ⟨?_, b, sub, hsub.trans hps, hr.rows hsh e, fun r hr1 => hpb r (hsub.subset hr1)⟩
      rw [regionLoss_curves hsh, e, hzero _ fun r hr1 => hps.subset (hsub.subset hr1)]
      intro r hr1 r' hr2
      rw [hpb r (hsub.subset hr1), hpb r' (hsub.subset hr2)]
    have hbl : ∀ r ∈ below f' (threshold numSplits j') samples, side r = side lo1 := fun r hr1 => z1 r hr1 lo1 hlo1
    have hbu : ∀ r ∈ above f' (threshold numSplits j') samples, side r = !side lo1 := fun r hr1 => (z2 r hr1 up1 hup1).trans hdiff
    refine ⟨⟨Lr ++ Ll, by rw [g1], ?_, ?_⟩, ?_⟩
    · have k1 := greedy_ne hgl
      have k2 := greedy_ne hgr
      have := List.length_pos_iff.2 k1
      have := List.length_pos_iff.2 k2
      simp only [List.length_append]; omega
    · intro m hm
      rcases List.mem_append.1 hm with hm | hm
      · exact hleaf hgr cr List.filter_sublist hbu m hm
      · exact hleaf hgl cl List.filter_sublist hbl m hm
    · rintro rfl
      have hl1 : Ll = [l] := by
        cases hgl with
        | leaf _ _ => rfl
        | branch _ hlt _ _ _ _ _ => rw [hsp.left_depth, hr.valid.depth] at hlt; norm_num at hlt
      have hr1 : Lr = [r] := by
        cases hgr with
        | leaf _ _ => rfl
        | branch _ hlt _ _ _ _ _ => rw [hsp.right_depth, hr.valid.depth] at hlt; norm_num at hlt
      subst hl1 hr1
      have p1 : (samples.filter fun r => side r == side lo1) = below f' (threshold numSplits j') samples := by
        refine List.filter_congr fun r hr1 => ?_
        rcases le_or_gt (r.getD f' 0) (threshold numSplits j') with hh | hh
        · rw [zl r hr1 hh, decide_eq_true hh]
          cases side lo1 <;> rfl
        · rw [zu r hr1 hh, hdiff, decide_eq_false (not_le.2 hh)]
          cases side lo1 <;> rfl
      have p2 : (samples.filter fun r => side r == !side lo1) = above f' (threshold numSplits j') samples := by
        refine List.filter_congr fun r hr1 => ?_
        rcases le_or_gt (r.getD f' 0) (threshold numSplits j') with hh | hh
        · rw [zl r hr1 hh, decide_eq_false (not_lt.2 hh)]
          cases side lo1 <;> rfl
        · rw [zu r hr1 hh, hdiff, decide_eq_true hh]
          cases side lo1 <;> rfl
      refine ⟨r, l, side lo1, by rw [g1]; rfl, ?_, ?_⟩
      · rw [p1]; exact hr.rows hgl.shape cl
      · rw [p2]; exact hr.rows hgr.shape cr

end core

section ex
local instance transcRec : Transc ℚ := ⟨id, id⟩

/-- two groups, up to `c` and beyond in "b"; beyond, the deviation also depends on "a" -/
private def groupSide (c : ℚ) (r : List ℚ) : Bool := decide (r.getD 1 0 ≤ c)
private def groupSd (c : ℚ) (r : List ℚ) : ℚ := if groupSide c r then 1 else 2 + r.getD 0 0 ^ 2
private def groupPredict (sd : List ℚ → ℚ) : Predict ℚ := fun X => .ok (X.map fun r => r.getD 0 0, X.map sd)

example (c : ℚ) : RowWise 2 (groupPredict (groupSd c)) (fun r => r.getD 0 0) (groupSd c) := fun _ _ _ => rfl

private def hpA : Hp ℚ := ⟨"a", .float 0 1 false⟩
private def hpB : Hp ℚ := ⟨"b", .float 0 1 false⟩

/-- the group reads "b" -/
example (c : ℚ) (r r' : List ℚ) (h : AgreesOnOthers invSpace [hpA] r r') : groupSide c r' = groupSide c r := by
  have := h 1 (by
    rintro hp hm ⟨x, hx, hn⟩
    obtain rfl := List.mem_singleton.1 hm
    obtain rfl := Option.some.inj hx
    exact absurd hn (by decide))
  simp only [groupSide, List.getD_eq_getElem?_getD, this]

/-- with the same value of "a", the variance is the same exactly if the group is -/
example (c : ℚ) (r r' : List ℚ) (h : ∀ hp ∈ [hpA], ∀ f, IsFeature invSpace hp f → r[f]? = r'[f]?) :
    groupSd c r ^ 2 = groupSd c r' ^ 2 ↔ groupSide c r = groupSide c r' := by
  have e := h hpA (by simp) 0 ⟨hpA, rfl, rfl⟩
  have e' : r.getD 0 0 = r'.getD 0 0 := by simp only [List.getD_eq_getElem?_getD, e]
  unfold groupSd
  rw [e']
  generalize r'.getD 0 0 = x
  have h1 : 1 < (2 + x ^ 2) ^ 2 := by nlinarith [sq_nonneg x, sq_nonneg (x ^ 2)]
  cases groupSide c r <;> cases groupSide c r' <;> simp [h1.ne, h1.ne']

private def groupLeaves (sd : List ℚ → ℚ) (numSplits : Nat) : Py (List InvLeaf) := do
  let p ← dtInit invSpace (groupPredict sd) (.name "a") invSamples 2 numSplits 1 none
  let leaves ← (dtPartition p 1).2
  return leaves.map fun m => ⟨m.conds.map fun c => ((match c.nval with | .flt t => t | _ => 0), c.lessEqual), m.x.map fun rows => [rows.getD 0 []],
    regionLoss m.v⟩

/-- the second of three thresholds separates the groups of 1/2, as does the third: the second is taken -/
example : groupLeaves (groupSd (1/2)) 3 =
    .ok [⟨[(1/2, some false)], [[[0, 7/8]], [[0, 1]]], 0⟩, ⟨[(1/2, some true)], [[[0, 1/8]], [[0, 3/8]]], 0⟩] := by decide +kernel

example : Admits invSpace [hpB] 3 1 invSamples 0 2 hpB 1 ∧ ∀ r ∈ invSamples, r.getD 1 0 ≤ (2 : ℚ) / (3 + 1) ↔ groupSide (1/2) r = true :=
  ⟨⟨rfl, ⟨hpB, rfl, rfl⟩, by decide, by decide, by decide +kernel, by decide +kernel⟩, by decide +kernel⟩

/-- no threshold separates the groups of 1/8 if there is only one, 1/2: the lower leaf then holds samples of both groups -/
example : (groupLeaves (groupSd (1/8)) 1).map (fun L => L.map fun l => l.loss) = .ok [0, 73/2] := by decide +kernel

/-- a constant deviation, or one which reads "a" only: the tree splits at the first threshold, although there is nothing to gain -/
example : groupLeaves (fun _ => 1) 3 =
    .ok [⟨[(1/4, some false)], [[[0, 7/8]], [[0, 3/8]], [[0, 1]]], 0⟩, ⟨[(1/4, some true)], [[[0, 1/8]]], 0⟩] ∧
    groupLeaves (fun r => 1 + r.getD 0 0) 3 = groupLeaves (fun _ => 1) 3 := by decide +kernel

example : Admits invSpace [hpB] 3 1 invSamples 0 1 hpB 1 ∧ ReadsSelected invSpace [hpA] fun r => (1 + r.getD 0 0) ^ 2 := by
  refine ⟨⟨rfl, ⟨hpB, rfl, rfl⟩, by decide, by decide, by decide +kernel, by decide +kernel⟩, ?_⟩
  intro r r' _ _ h
  have := h hpA (by simp) 0 ⟨hpA, rfl, rfl⟩
  simp only [List.getD_eq_getElem?_getD, this]

end ex

end PyPDP
