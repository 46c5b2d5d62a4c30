/-
C184: the forest that is computed with doubles is the forest of exact arithmetic if the splits of its trees were clearly the best.
-/
import Verif.Model.MachineForest
import Verif.Props.RoundedTree
import Verif.Props.ForestFilled
import Verif.Props.ForestFull

namespace PyPDP
open Spec

section exact
variable {K : Type} [Field K] [LinearOrder K] [Transc K]

theorem growTree_exact (p : RF K) (i : IceState K) (maxDepth : Int) (d : ForestDraw) :
    @growTreeM K (exactMachine K) _ p i maxDepth d = growTree p i maxDepth d := by
  unfold growTreeM growTree
  simp only [C134_exact]

theorem growLoop_exact (p : RF K) (i : IceState K) (maxDepth : Int) (ds : List ForestDraw) :
    ∀ trees, @growLoopM K (exactMachine K) _ p i maxDepth ds trees = growLoop p i maxDepth ds trees := by
  induction ds with
  | nil => intro trees; rfl
  | cons d ds ih =>
    intro trees
    unfold growLoopM growLoop
    rw [growTree_exact]
    cases growTree p i maxDepth d with
    | error e => rfl
    | ok t => exact ih _

/-- **C184** the forest of exact arithmetic is that of the machine with exact arithmetic. -/
theorem C184_exact (p : RF K) (numTrees maxDepth : Int) (size : Option Int) (draw : Nat → ForestDraw) (ofVector : List K → Config K) (inc : Config K)
    (overlap : Option Int) :
    @rfPartitionM K (exactMachine K) _ p numTrees maxDepth size draw = rfPartition p numTrees maxDepth size draw ∧
    @rfIncumbentRegionM K (exactMachine K) _ ofVector p inc overlap = rfIncumbentRegion ofVector p inc overlap := by
  refine ⟨?_, ?_⟩
  · unfold rfPartitionM rfPartition
    simp only [growLoop_exact]
    cases size with
    | none => rfl
    | some s =>
      cases rfIce p with
      | error e => rfl
      | ok i =>
        generalize growLoop p i maxDepth ((List.range numTrees.toNat).map draw) [] = q
        obtain ⟨trees, e⟩ := q
        cases e <;> rfl
  · have hin : ∀ r cfg, @inRegionM K (exactMachine K) p.cfg.space r cfg = inRegion p.cfg.space r cfg := by
      intro r cfg
      cases r with
      | none => rfl
      | some n => exact exact_contains _ _ _
    have hcount : ∀ R cfg, @countRegionsM K (exactMachine K) p.cfg.space R cfg = countRegions p.cfg.space R cfg := by
      intro R cfg
      unfold countRegionsM countRegions
      simp only [hin]
    have hidx : ∀ R m S k, @overlapIndicesM K (exactMachine K) p.cfg.space ofVector R m k S = overlapIndices p.cfg.space ofVector R m k S := by
      intro R m S
      induction S with
      | nil => intro k; rfl
      | cons s S ih =>
        intro k
        unfold overlapIndicesM overlapIndices
        rw [hcount, ih]
    unfold rfIncumbentRegionM rfIncumbentRegion
    simp only [C134_exact_region, hidx]
    cases p.trees with
    | none => rfl
    | some L => cases L <;> rfl

end exact

section forest
variable {c : ComputedExp} {sum : List ℝ → ℝ}

/-- the partition starts anew whatever the leaves are -/
theorem partitionM_leaves {F : Type} [Machine F] (t : DT F) (L : List (Node F)) {d : Int} (hd : 0 < d) :
    dtPartitionM { t with leaves := L } d = dtPartitionM t d := by
  unfold dtPartitionM
  rw [if_pos hd, if_pos hd]

/-- the tree of the same draw on another machine has the same root -/
theorem growTreeM_of_growTree [M : Machine ℝ] {p : RF ℝ} {i : IceState ℝ} {d : Int} (hd : 0 < d) {w : ForestDraw} {t : DT ℝ} (h : growTree p i d w = .ok t)
    {t' : DT ℝ} {L : List (Node ℝ)} (h' : dtPartitionM t d = (t', .ok L)) : growTreeM p i d w = .ok t' := by
  unfold growTree at h
  unfold growTreeM
  obtain ⟨sub, h1, h⟩ := Py.bind_eq_ok.1 h
  obtain ⟨cf, h2, h⟩ := Py.bind_eq_ok.1 h
  obtain ⟨sp, h3, h⟩ := Py.bind_eq_ok.1 h
  obtain ⟨dt, h4, h⟩ := Py.bind_eq_ok.1 h
  rw [h1, Py.ok_bind, h2, Py.ok_bind, h3, Py.ok_bind]
  dsimp only
  rw [h4, Py.ok_bind]
  obtain ⟨L0, h5, h⟩ := Py.bind_eq_ok.1 h
  have e : t = { dt with leaves := t.leaves } := by
    have : (dtPartition dt d).1 = t := Except.ok.inj h
    rw [← this]
    unfold dtPartition
    rw [if_pos hd]
    generalize partitionLoop (calcBestSplit dt.cfg.space dt.possible dt.numSplits dt.minPoints) d (loopFuel d) [dt.root] [] = q
    obtain ⟨leaves, e⟩ := q
    cases e <;> rfl
  rw [e, partitionM_leaves _ _ hd] at h'
  rw [h']
  rfl

theorem Spec.ConfigAway.mono {A B : List (Hp ℝ)} {N : Nat} {cfg : Config ℝ} (h : ConfigAway B N cfg) (hs : ∀ hp ∈ A, hp ∈ B) : ConfigAway A N cfg :=
  fun hp hm => h hp (hs hp hm)

theorem forall₂_mapM {α β γ δ : Type} {R : α → β → Prop} {S : γ → δ → Prop} {f : α → Py γ} {g : β → Py δ} {A : List α} {B : List β} (h : List.Forall₂ R A B)
    (hfg : ∀ a b, R a b → ∃ x y, f a = .ok x ∧ g b = .ok y ∧ S x y) : ∃ X Y, A.mapM f = .ok X ∧ B.mapM g = .ok Y ∧ List.Forall₂ S X Y := by
  induction h with
  | nil => exact ⟨[], [], rfl, rfl, .nil⟩
  | @cons a b A B hab _ ih =>
    obtain ⟨X, Y, h1, h2, h3⟩ := ih
    obtain ⟨x, y, k1, k2, k3⟩ := hfg a b hab
    refine ⟨x :: X, y :: Y, ?_, ?_, .cons k3 h3⟩
    · rw [List.mapM_cons, k1, Py.ok_bind, h1, Py.ok_bind]; rfl
    · rw [List.mapM_cons, k2, Py.ok_bind, h2, Py.ok_bind]; rfl

/-- **C184** A forest that is computed with doubles, whatever the order of the additions: if every split of every tree of the forest of exact arithmetic was the
best by more than `60 S P² B² 2⁻⁵²` per curve of its region (`S` samples per tree, `P` grid points, variances at most `B`) and no sample is within
`2⁻⁵¹` of a threshold, the trees of both forests have the same leaves in the same order, with the same curves and the same conditions up to `2⁻⁵¹` in
the thresholds. For every incumbent that is, like the samples, at some distance from the thresholds and for every required overlap,
`get_incumbent_region` of both forests is the same region. -/
theorem C184_forest (hc : CorrectlyRoundedExp c) (hs : SumsUp c.fl sum) {p : RF ℝ} (hp : ValidRF p) {mu sd : List ℝ → ℝ}
    (hmu : RowWise p.cfg.space.length p.cfg.predict mu sd) (hn : p.cfg.samples ≠ []) (hg : 1 ≤ p.cfg.perAxis) {numTrees maxDepth size : Int}
    (ht : 0 < numTrees) (hd : 0 < maxDepth) (hsz : 0 < size) {draw : Nat → ForestDraw}
    (hw : ∀ k : Nat, (k : Int) < numTrees → ValidDraw p size.toNat (draw k)) {P : Nat} (hP : P = p.cfg.perAxis ^ p.cfg.selected.length)
    (hnP : size * P ≤ 2 ^ 50) {own : IceData ℝ} (hown : calcNow (iceInit p.cfg) = .ok own) {B : ℝ} (hB : ∀ q ∈ dataCurves own, ∀ x ∈ q.2.2, |x| ≤ B)
    (hfar : AwayFromThresholds (1 / 2 ^ 51) p.cfg.space p.possible 100 (dataCurves own)) {trees : List (DT ℝ)}
    (htr : (rfPartition p numTrees maxDepth (some size) draw).1.trees = some trees)
    (hclear : ∀ t ∈ trees, ClearTree p.cfg.space t.possible 100 1 P (30 * (size * P) * B ^ 2 * (2 : ℝ) ^ (-52 : ℤ)) maxDepth t.root t.leaves) :
    ∃ trees', @rfPartitionM ℝ (roundedMachine c sum) _ p numTrees maxDepth (some size) draw =
        ({ (rfPartition p numTrees maxDepth (some size) draw).1 with trees := some trees' }, .ok ()) ∧
      List.Forall₂ SameTree trees trees' ∧
      ∀ {ofVector : List ℝ → Config ℝ}, (∀ r ∈ p.cfg.samples, ConfigAway p.possible 100 (ofVector r)) → ∀ {inc : Config ℝ}, ConfigAway p.possible 100 inc →
        ∀ overlap : Option Int,
        @rfIncumbentRegionM ℝ (roundedMachine c sum) _ ofVector (@rfPartitionM ℝ (roundedMachine c sum) _ p numTrees maxDepth (some size) draw).1 inc overlap =
          rfIncumbentRegion ofVector (rfPartition p numTrees maxDepth (some size) draw).1 inc overlap := by
  subst hP
  let M : Machine ℝ := roundedMachine c sum
  obtain ⟨i, hi, -, -, hicfg⟩ := rfIce_ok hp
  -- every tree
  have htree : ∀ w ∈ (List.range numTrees.toNat).map draw, ∃ t, growTree p i maxDepth w = .ok t ∧
      IsForestTree p (dataCurves own) 100 1 (p.cfg.perAxis ^ p.cfg.selected.length) maxDepth w t ∧ w.indices.length = size.toNat ∧
      ValidDT (p.cfg.perAxis ^ p.cfg.selected.length) t ∧ dtPartition t maxDepth = (t, .ok t.leaves) ∧ t.numSplits = 100 ∧ t.minPoints = 1 := by
    intro w hw'
    obtain ⟨k, hk, rfl⟩ := List.mem_map.1 hw'
    have hk := List.mem_range.1 hk
    obtain ⟨own', t, ho, h, h1, h2, h3, h4, h5⟩ := growTree_ok hp hmu hn hg hicfg (Int.lt_toNat.2 hsz) hd (hw k (by omega))
    rw [hown] at ho
    obtain rfl := Except.ok.inj ho
    exact ⟨t, h, h3, (hw k (by omega)).size, h4, h5, h1, h2⟩
  obtain ⟨ts, hts⟩ : ∃ ts, List.Forall₂ (fun w t => growTree p i maxDepth w = .ok t ∧
      IsForestTree p (dataCurves own) 100 1 (p.cfg.perAxis ^ p.cfg.selected.length) maxDepth w t ∧ w.indices.length = size.toNat ∧
      ValidDT (p.cfg.perAxis ^ p.cfg.selected.length) t ∧ dtPartition t maxDepth = (t, .ok t.leaves) ∧ t.numSplits = 100 ∧ t.minPoints = 1)
      ((List.range numTrees.toNat).map draw) ts := by
    generalize (List.range numTrees.toNat).map draw = ws at htree
    induction ws with
    | nil => exact ⟨[], .nil⟩
    | cons w ws ih =>
      obtain ⟨t, h⟩ := htree w (by simp)
      obtain ⟨ts, hts⟩ := ih fun w hw => htree w (by simp [hw])
      exact ⟨t :: ts, .cons h hts⟩
  have hexact : rfPartition p numTrees maxDepth (some size) draw = ({ p with ice := some i, trees := some ts }, .ok ()) := by
    unfold rfPartition
    rw [if_pos ht]
    dsimp only
    rw [if_pos hsz, if_pos hd, hi]
    dsimp only
    rw [growLoop_ok (hts.imp fun _ _ h => h.1)]
    rfl
  rw [hexact] at htr ⊢
  obtain rfl := Option.some.inj htr
  -- the tree of the same draw, computed with doubles
  obtain ⟨ts', hts', hsame⟩ : ∃ ts', List.Forall₂ (fun w t' => growTreeM p i maxDepth w = .ok t') ((List.range numTrees.toNat).map draw) ts' ∧
      List.Forall₂ (fun t t' => SameTree t t' ∧ t.cfg.space = p.cfg.space ∧ (∀ hp ∈ t.possible, hp ∈ p.possible) ∧ (∀ hp ∈ t.possible, hp ∈ p.cfg.space) ∧
        ∀ inc, ConfigAway t.possible 100 inc → ∃ m m', dtIncumbentRegion t inc = .ok (some m) ∧ dtIncumbentRegionM t' inc = .ok (some m') ∧
          SameRegion (1 / 2 ^ 51) t.possible 100 m m') ts ts' := by
    clear hexact htree htr
    generalize (List.range numTrees.toNat).map draw = ws at hts
    induction hts with
    | nil => exact ⟨[], .nil, .nil⟩
    | @cons w t ws ts hwt _ ih =>
      obtain ⟨ts', a1, a2⟩ := ih fun t ht => hclear t (by simp [ht])
      obtain ⟨h1, h2, h3, h4, h5, h6, h7⟩ := hwt
      have hlen : (curves t.root).length = size.toNat := by rw [← h2.root.length_eq, h3]
      have hsize : ((curves t.root).length : ℝ) = (size : ℝ) := by
        rw [hlen]
        exact_mod_cast (Int.toNat_of_nonneg hsz.le)
      have hmem : ∀ q ∈ curves t.root, q ∈ dataCurves own := by
        intro q hq
        obtain ⟨k, -, hk⟩ := forall₂_partner h2.root.flip hq
        exact List.mem_of_getElem? hk
      have hB' : ∀ r ∈ t.root.v, ∀ x ∈ r, |x| ≤ B := by
        intro r hr x hx
        obtain ⟨k, hk, rfl⟩ := List.mem_iff_getElem.1 hr
        have e1 := h4.shape.xy
        have e2 := h4.shape.yv
        have hq : (t.root.x[k], t.root.y[k], t.root.v[k]) ∈ curves t.root := by
          unfold Spec.curves
          refine List.mem_iff_getElem.2 ⟨k, by simp; omega, by simp⟩
        exact hB _ (hmem _ hq) x hx
      have hfar' : AwayFromThresholds (1 / 2 ^ 51) t.cfg.space t.possible t.numSplits (curves t.root) := by
        rw [h6, h2.space]
        exact fun q hq hp hm => hfar q (hmem q hq) hp (h2.splits_sub.subset hm)
      have hcl : ClearTree t.cfg.space t.possible t.numSplits t.minPoints (p.cfg.perAxis ^ p.cfg.selected.length)
          (30 * ((curves t.root).length * (p.cfg.perAxis ^ p.cfg.selected.length : Nat)) * B ^ 2 * (2 : ℝ) ^ (-52 : ℤ)) maxDepth t.root t.leaves := by
        rw [h6, h7, h2.space, hsize]
        exact hclear t (by simp)
      have hnP' : (curves t.root).length * (p.cfg.perAxis ^ p.cfg.selected.length) ≤ 2 ^ 50 := by
        rw [hlen]
        have : ((size.toNat * p.cfg.perAxis ^ p.cfg.selected.length : Nat) : Int) ≤ ((2 ^ 50 : Nat) : Int) := by
          push_cast
          rw [Int.toNat_of_nonneg hsz.le]
          exact_mod_cast hnP
        exact_mod_cast this
      have hN : t.numSplits + 2 ≤ 2 ^ 51 := by rw [h6]; norm_num
      obtain ⟨b1, L', b2, b3, b4⟩ := C161_tree hc hs h4 hN hnP' hB' hfar' hd hcl
      obtain ⟨t', et'⟩ : ∃ t', t' = (dtPartitionM t maxDepth).1 := ⟨_, rfl⟩
      have hpart : dtPartitionM t maxDepth = (t', .ok L') := by rw [et', ← b2]
      have et : t' = { t with leaves := L' } := by
        have : (dtPartitionM t maxDepth).1 = { t with leaves := (dtPartitionM t maxDepth).1.leaves } := by
          unfold dtPartitionM
          rw [if_pos hd]
          generalize partitionLoop (calcBestSplitM t.cfg.space t.possible t.numSplits t.minPoints) maxDepth (loopFuel maxDepth) [t.root] [] = q
          obtain ⟨leaves, e⟩ := q
          cases e <;> rfl
        rw [et', this, b3]
      refine ⟨t' :: ts', .cons (growTreeM_of_growTree hd h1 hpart) a1, .cons ⟨⟨by rw [et], by rw [et], by rw [et], ?_⟩, h2.space, fun hp hm => h2.splits_sub.subset hm,
        fun hp hm => by rw [← h2.space]; exact h4.possible_mem hp hm, ?_⟩ a2⟩
      · rw [et]
        rw [h6] at b4
        exact b4
      · intro inc hinc
        obtain ⟨m, m', k1, k2, k3⟩ := C161_incumbent hc hs h4 hN hnP' hB' hfar' hd hcl (cfg := inc) (by rw [h6]; exact hinc)
        rw [h5] at k1
        rw [hpart] at k2
        rw [h6] at k3
        exact ⟨m, m', k1, k2, k3⟩
  have hM : rfPartitionM p numTrees maxDepth (some size) draw = ({ p with ice := some i, trees := some ts' }, .ok ()) := by
    have hl : ∀ ws us acc, List.Forall₂ (fun w t' => growTreeM p i maxDepth w = .ok t') ws us → growLoopM p i maxDepth ws acc = (acc ++ us, none) := by
      intro ws us acc h
      induction h generalizing acc with
      | nil => simp [growLoopM]
      | cons hw _ ih => simp only [growLoopM, hw]; rw [ih]; simp
    unfold rfPartitionM
    rw [if_pos ht]
    dsimp only
    rw [if_pos hsz, if_pos hd, hi]
    dsimp only
    rw [hl _ _ _ hts']
    rfl
  refine ⟨ts', hM, hsame.imp fun _ _ h => h.1, ?_⟩
  intro ofVector hof inc hinc overlap
  rw [hM]
  have hne : ts ≠ [] := by
    have := hts.length_eq
    rw [List.length_map, List.length_range] at this
    intro e
    rw [e] at this
    simp at this
    omega
  -- the regions of the incumbent
  obtain ⟨R, R', r1, r2, r3⟩ := forall₂_mapM (f := fun dt => dtIncumbentRegion dt inc) (g := fun dt => dtIncumbentRegionM dt inc)
    (S := fun a b => ∀ r ∈ p.cfg.samples, inRegionM p.cfg.space b (ofVector r) = inRegion p.cfg.space a (ofVector r)) hsame (by
      rintro t t' ⟨s1, s2, s3, s4, s5⟩
      obtain ⟨m, m', k1, k2, k3⟩ := s5 inc (hinc.mono s3)
      refine ⟨_, _, k1, k2, fun r hr => ?_⟩
      exact contains_same hc hp.cfg.wf s4 ((hof r hr).mono s3) k3.conds)
  have hcount : ∀ r ∈ p.cfg.samples, countRegionsM p.cfg.space R' (ofVector r) = countRegions p.cfg.space R (ofVector r) := by
    intro r hr
    have : R'.mapM (fun q => inRegionM p.cfg.space q (ofVector r)) = R.mapM fun q => inRegion p.cfg.space q (ofVector r) := by
      clear r1 r2
      induction r3 with
      | nil => rfl
      | cons hab _ ih => rw [List.mapM_cons, List.mapM_cons, ih, hab r hr]
    unfold countRegionsM countRegions
    rw [this]
  have hidx : ∀ m S k, (∀ r ∈ S, r ∈ p.cfg.samples) → overlapIndicesM p.cfg.space ofVector R' m k S = overlapIndices p.cfg.space ofVector R m k S := by
    intro m S
    induction S with
    | nil => intro k _; rfl
    | cons s S ih =>
      intro k hS
      unfold overlapIndicesM overlapIndices
      rw [hcount s (hS s (by simp)), ih (k + 1) fun r hr => hS r (by simp [hr])]
  have hlen := hsame.length_eq
  unfold rfIncumbentRegionM rfIncumbentRegion
  dsimp only
  cases ts with
  | nil => exact absurd rfl hne
  | cons t ts =>
    cases ts' with
    | nil => simp at hlen
    | cons t' ts' =>
      dsimp only
      rw [r1, r2, Py.ok_bind, Py.ok_bind, hlen, hidx _ _ _ fun r hr => hr]
      rfl

end forest
/-! ### a concrete case -/

section ex

/-- every tree with two curves that is split along one hyperparameter was split clearly -/
theorem clear_of_two {K : Type} [Field K] [LinearOrder K] [IsStrictOrderedRing K] {space : ConfigSpace K} (hwf : space.WF) {hp : Hp K} {N P : Nat} {δ : K} {d : Int}
    {n : Node K} {L : List (Node K)} (h : Greedy space [hp] N 1 P d n L) : (curves n).length ≤ 2 → ClearTree space [hp] N 1 P δ d n L := by
  induction h with
  | leaf h1 h2 => exact fun _ => .leaf h1 h2
  | @branch n l r Ll Lr i j hp' f h1 h2 h3 h4 h5 _ _ ih1 ih2 =>
    intro hlen
    have l1 : (curves l).length ≤ 2 := by rw [h5.left_curves]; exact (List.length_filter_le _ _).trans hlen
    have l2 : (curves r).length ≤ 2 := by rw [h5.right_curves]; exact (List.length_filter_le _ _).trans hlen
    refine .branch h1 h2 h3 ⟨h4, fun i' j' hp'' f' hc => .inl ?_⟩ h5 (ih1 l1) (ih2 l2)
    have hone : ∀ {i j q f}, IsCandidate space [hp] N 1 (curves n) i j q f → q = hp := by
      intro i j q f hc
      have := List.mem_of_getElem? hc.hp_at
      simpa using this
    have e1 := hone h4.1
    have e2 := hone hc
    subst e1 e2
    have ef : f' = f := Except.ok.inj (((isFeature_idx hwf).1 hc.feature).symm.trans ((isFeature_idx hwf).1 h4.1.feature))
    subst ef
    have a1 := h4.1.left_size
    have a2 := h4.1.right_size
    have b1 := hc.left_size
    have b2 := hc.right_size
    obtain ⟨x, y, hxy⟩ : ∃ x y, curves n = [x, y] := by
      match hq : curves n, hlen, h3 with
      | [x, y], _, _ => exact ⟨x, y, rfl⟩
    have two : ∀ t, 1 ≤ (lowerPart f' t (curves n)).length → 1 ≤ (upperPart f' t (curves n)).length →
        (featureOf f' x ≤ t ∧ t < featureOf f' y) ∨ (featureOf f' y ≤ t ∧ t < featureOf f' x) := by
      intro t u v
      obtain ⟨q, hq⟩ := List.exists_mem_of_length_pos u
      obtain ⟨q', hq'⟩ := List.exists_mem_of_length_pos v
      simp only [lowerPart, upperPart, hxy, List.mem_filter, List.mem_cons, List.not_mem_nil, or_false, decide_eq_true_eq] at hq hq'
      obtain ⟨rfl | rfl, hq⟩ := hq <;> obtain ⟨rfl | rfl, hq'⟩ := hq'
      · exact absurd hq (not_le.2 hq')
      · exact .inl ⟨hq, hq'⟩
      · exact .inr ⟨hq, hq'⟩
      · exact absurd hq (not_le.2 hq')
    have u := two _ a1 a2
    have v := two _ b1 b2
    rw [hxy]
    intro q hq
    simp only [List.mem_cons, List.not_mem_nil, or_false] at hq
    rcases u with ⟨u1, u2⟩ | ⟨u1, u2⟩ <;> rcases v with ⟨v1, v2⟩ | ⟨v1, v2⟩
    · rcases hq with rfl | rfl
      · exact ⟨fun _ => u1, fun _ => v1⟩
      · exact ⟨fun h => absurd h (not_le.2 v2), fun h => absurd h (not_le.2 u2)⟩
    · exact absurd (u1.trans_lt u2) (v1.trans_lt v2).not_gt
    · exact absurd (u1.trans_lt u2) (v1.trans_lt v2).not_gt
    · rcases hq with rfl | rfl
      · exact ⟨fun h => absurd h (not_le.2 v2), fun h => absurd h (not_le.2 u2)⟩
      · exact ⟨fun _ => u1, fun _ => v1⟩

private def rfA : Hp ℝ := ⟨"a", .float 0 1 false⟩
private def rfB : Hp ℝ := ⟨"b", .float 0 1 false⟩
private noncomputable def rfSamples : List (List ℝ) := [[0, 1/8], [0, 7/8]]
private noncomputable def rfSd (r : List ℝ) : ℝ := if r.getD 1 0 < 1/2 then 0 else 1
private noncomputable def rfCfg : IceCfg ℝ := ⟨[rfA, rfB], [rfA], rfSamples, 2, 3, 3, false, fun X => .ok (X.map fun _ => 0, X.map rfSd)⟩
private noncomputable def rfForest : RF ℝ := ⟨rfCfg, [rfB], 100, 10, none, none⟩
private noncomputable def rfVector (r : List ℝ) : Config ℝ := ⟨r, [("a", .num (r.getD 0 0)), ("b", .num (r.getD 1 0))]⟩
/-- the first tree gets both samples, the second one the second sample twice -/
private def rfDraw (k : Nat) : ForestDraw := if k = 0 then ⟨[0, 1], [true], 0⟩ else ⟨[1, 1], [false], 0⟩

private theorem rf_wf : ConfigSpace.WF [rfA, rfB] := by simp [ConfigSpace.WF, rfA, rfB]

private theorem rf_valid : ValidRF rfForest :=
  ⟨⟨rf_wf, by simp [rfForest, rfCfg], by simp [rfForest, rfCfg], by simp [rfForest, rfCfg], by simp [rfForest, rfCfg, rfSamples], rfl, rfl⟩, rfl,
    by simp [rfForest, rfCfg, rfA, rfB], by simp [rfForest]⟩

private theorem rf_draw (k : Nat) : ValidDraw rfForest (2 : Int).toNat (rfDraw k) := by
  unfold rfDraw
  split <;> exact ⟨rfl, by simp [rfForest, rfCfg, rfSamples], rfl, by simp [rfForest]⟩

/-- the samples are at the distance 1/808 from all thresholds -/
private theorem rf_far {x : ℝ} (hx : x = 1/8 ∨ x = 7/8) (j : Nat) : 1 / 1000 < |x - threshold 100 j| := by
  have hodd : ∀ m : Int, m = 101 ∨ m = 707 → 1 ≤ |m - 8 * (j : Int)| := by
    intro m hm
    apply Int.one_le_abs
    omega
  have key : ∀ m : Int, m = 101 ∨ m = 707 → (1 : ℝ) / 1000 < |(m : ℝ) / 808 - threshold 100 j| := by
    intro m hm
    have h1 : (m : ℝ) / 808 - threshold 100 j = ((m - 8 * (j : Int) : Int) : ℝ) / 808 := by
      unfold threshold
      push_cast
      ring
    rw [h1, abs_div, ← Int.cast_abs]
    have h2 : (1 : ℝ) ≤ (|m - 8 * (j : Int)| : Int) := by exact_mod_cast hodd m hm
    rw [abs_of_pos (by norm_num : (0 : ℝ) < 808), lt_div_iff₀ (by norm_num)]
    linarith
  rcases hx with rfl | rfl
  · have := key 101 (.inl rfl)
    norm_num at this ⊢
    exact this
  · have := key 707 (.inr rfl)
    norm_num at this ⊢
    exact this

private theorem rf_config {r : List ℝ} (hr : r.getD 1 0 = 1/8 ∨ r.getD 1 0 = 7/8) : ConfigAway [rfB] 100 (rfVector r) := by
  intro hp hm
  obtain rfl := List.mem_singleton.1 hm
  refine ⟨0, 1, false, r.getD 1 0, rfl, by norm_num, by simp, by simp [rfVector, Config.get?, rfB], fun j _ hj => ?_⟩
  refine lt_trans ?_ (by simpa [onAxis] using rf_far hr j)
  norm_num [axisResolution]

/-- Two samples, two trees: the forest that is computed with doubles has the same trees and the same regions as that of exact arithmetic. -/
example {c : ComputedExp} (hc : CorrectlyRoundedExp c) {sum : List ℝ → ℝ} (hs : SumsUp c.fl sum) (o : Option Int) :
    @rfIncumbentRegionM ℝ (roundedMachine c sum) _ rfVector (@rfPartitionM ℝ (roundedMachine c sum) _ rfForest 2 1 (some 2) rfDraw).1 (rfVector [0, 7/8]) o =
      rfIncumbentRegion rfVector (rfPartition rfForest 2 1 (some 2) rfDraw).1 (rfVector [0, 7/8]) o := by
  have hmu : RowWise rfForest.cfg.space.length rfForest.cfg.predict (fun _ => 0) rfSd := fun X _ _ => rfl
  have hn : rfForest.cfg.samples ≠ [] := by simp [rfForest, rfCfg, rfSamples]
  have hg : 1 ≤ rfForest.cfg.perAxis := by simp [rfForest, rfCfg]
  obtain ⟨grid, hgr, hgl, -⟩ := C40_grid (K := ℝ) (k := 1) le_rfl 3
  have hidx : getSelectedIdx [rfA] [rfA, rfB] = .ok [0] := rfl
  obtain ⟨own, ho1, -, ho3⟩ := calcNow_curves rf_valid.cfg rfl hmu hn hg hidx hgr
  obtain ⟨own', trees, i, h1, -, -, h4, -, h6, h7⟩ := C66_partition rf_valid hmu hn hg (numTrees := 2) (maxDepth := 1) (size := 2) two_pos one_pos two_pos
    (draw := rfDraw) fun k _ => rf_draw k
  rw [ho1] at h1
  obtain rfl := Except.ok.inj h1
  have hgne : grid ≠ [] := by
    intro e
    rw [e] at hgl
    simp at hgl
  obtain ⟨trees', k1, k2, k3⟩ := C184_forest hc hs rf_valid hmu hn hg (numTrees := 2) (maxDepth := 1) (size := 2) two_pos one_pos two_pos (draw := rfDraw)
    (fun k _ => rf_draw k) (P := 3) rfl (by norm_num) ho1 (B := 1) (by
      intro q hq x hx
      rw [ho3] at hq
      obtain ⟨r, -, rfl⟩ := List.mem_map.1 hq
      simp only [curveAt, List.mem_map] at hx
      obtain ⟨g, -, rfl⟩ := hx
      unfold rfSd
      split <;> norm_num) (by
      intro q hq hp hm f hf j _ hj
      rw [ho3] at hq
      obtain ⟨r, hr, rfl⟩ := List.mem_map.1 hq
      obtain rfl : hp = rfB := by simpa [rfForest] using hm
      have hf1 : f = 1 := Except.ok.inj (((isFeature_idx rf_wf).1 hf).symm.trans rfl)
      subst hf1
      have hr' : r[1]? = some (1/8) ∨ r[1]? = some (7/8) := by
        simp only [rfForest, rfCfg, rfSamples, List.mem_cons, List.not_mem_nil, or_false] at hr
        rcases hr with rfl | rfl
        · exact .inl rfl
        · exact .inr rfl
      refine lt_trans (by norm_num) (rf_far ?_ j)
      rcases hr' with e | e
      · exact .inl (curveAt_feature (hp := rfB) rf_wf hidx hgne _ _ (by simp [rfA, rfB]) rfl e)
      · exact .inr (curveAt_feature (hp := rfB) rf_wf hidx hgne _ _ (by simp [rfA, rfB]) rfl e)) (trees := trees) (by rw [h4]) (by
      intro t ht
      obtain ⟨k, hk⟩ := List.mem_iff_getElem?.1 ht
      obtain ⟨a1, a2⟩ := h7 k t hk
      have hp : t.possible = [rfB] := by
        have s1 := a2.splits_sub
        have s2 := a2.splits_ne
        have : t.possible = [] ∨ t.possible = [rfB] := by
          have : t.possible.Sublist [rfB] := s1
          exact List.sublist_singleton.1 this
        rcases this with e | e
        · exact absurd e s2
        · exact e
      have := a2.leaves
      rw [hp] at this ⊢
      exact clear_of_two rf_wf this (by omega))
  exact k3 (by
    intro r hr
    refine rf_config ?_
    simp only [rfForest, rfCfg, rfSamples, List.mem_cons, List.not_mem_nil, or_false] at hr
    rcases hr with rfl | rfl
    · exact .inl rfl
    · exact .inr rfl) (rf_config (.inr rfl)) o

end ex

end PyPDP
