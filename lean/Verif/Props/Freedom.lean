/-
C164: more thresholds, smaller regions allowed or more hyperparameters to split on: the first split gets no worse, the tree may.
-/
import Verif.Props.TreeInvariance

namespace PyPDP
open Spec
variable {K : Type}

section core
variable [Field K] [LinearOrder K] [IsStrictOrderedRing K]
variable {space possible possible' : List (Hp K)} {N N' minPoints minPoints' P : Nat}

omit [LinearOrder K] in
/-- every threshold is one of the finer ones -/
theorem threshold_refine [CharZero K] {k j : Nat} (hk : N' + 1 = (N + 1) * k) : threshold (K := K) N' (j * k) = threshold N j := by
  have h0 : ((N : K) + 1) ≠ 0 := Nat.cast_add_one_ne_zero N
  have h1 : ((N' : K) + 1) = ((N : K) + 1) * (k : K) := by exact_mod_cast congrArg (Nat.cast (R := K)) hk
  have hk0 : (k : K) ≠ 0 := by
    rintro h
    rw [h, mul_zero] at h1
    exact Nat.cast_add_one_ne_zero N' h1
  unfold threshold
  rw [h1, Nat.cast_mul]
  field_simp

/-- a candidate stays one when there is more freedom, at the same price -/
theorem cand_freer (hdiv : N + 1 ∣ N' + 1) (hmin : minPoints' ≤ minPoints) (hpos : ∀ hp ∈ possible, hp ∈ possible') {L : List (Curve K)} {i j : Nat}
    {hp : Hp K} {f : Nat} (h : IsCandidate space possible N minPoints L i j hp f) :
    ∃ i' j', IsCandidate space possible' N' minPoints' L i' j' hp f ∧ splitCost P N' L f j' = splitCost P N L f j := by
  obtain ⟨k, hk⟩ := hdiv
  have ht := threshold_refine (K := K) (j := j) hk
  obtain ⟨i', hi'⟩ := List.getElem?_of_mem (hpos hp (List.mem_of_getElem? h.hp_at))
  have hk1 : 1 ≤ k := by
    rcases Nat.eq_zero_or_pos k with rfl | hk
    · omega
    · exact hk
  refine ⟨i', j * k, ⟨hi', h.feature, Nat.mul_pos h.one_le hk1, ?_, ?_, ?_⟩, ?_⟩
  · have h1 : j * k ≤ N * k := Nat.mul_le_mul_right k h.le
    have h2 : (N + 1) * k = N * k + k := by ring
    omega
  · rw [ht]; exact hmin.trans h.left_size
  · rw [ht]; exact hmin.trans h.right_size
  · unfold splitCost; rw [ht]

/-- the tree with more freedom, at any depth, is no worse than the first split of the other one -/
theorem greedy_freer (hdiv : N + 1 ∣ N' + 1) (hmin : minPoints' ≤ minPoints) (hpos : ∀ hp ∈ possible, hp ∈ possible') {d : Int} (hd : 0 < d)
    {n : Node K} (hn : n.depth = 0) {L L' : List (Node K)} (h : Greedy space possible N minPoints P 1 n L)
    (h' : Greedy space possible' N' minPoints' P d n L') :
    (L'.map fun m => curveLoss P (curves m)).sum ≤ (L.map fun m => curveLoss P (curves m)).sum := by
  cases h with
  | leaf _ _ => simpa using h'.loss_le
  | @branch _ l r Ll Lr i j hp f hsh h1 h2 h3 hsp hgl hgr =>
    have hl : Ll = [l] := by
      cases hgl with
      | leaf _ _ => rfl
      | branch _ hc _ _ _ _ _ => rw [hsp.left_depth, hn] at hc; norm_num at hc
    have hr : Lr = [r] := by
      cases hgr with
      | leaf _ _ => rfl
      | branch _ hc _ _ _ _ _ => rw [hsp.right_depth, hn] at hc; norm_num at hc
    subst hl hr
    obtain ⟨i', j', hc', hcost⟩ := cand_freer (P := P) hdiv hmin hpos h3.1
    cases h' with
    | leaf _ hs =>
      exfalso
      rcases hs with hs | hs | hs
      · omega
      · omega
      · exact hs _ _ _ _ hc'
    | @branch _ l' r' Ll' Lr' i2 j2 hp2 f2 _ _ _ h3' hsp' hgl' hgr' =>
      have hb := (h3'.2 _ _ _ _ hc').1
      rw [hcost] at hb
      have e1 : splitCost P N (curves n) f j = curveLoss P (curves l) + curveLoss P (curves r) := by
        rw [hsp.left_curves, hsp.right_curves]; rfl
      have e2 : splitCost P N' (curves n) f2 j2 = curveLoss P (curves l') + curveLoss P (curves r') := by
        rw [hsp'.left_curves, hsp'.right_curves]; rfl
      rw [e1, e2] at hb
      have a1 := hgl'.loss_le
      have a2 := hgr'.loss_le
      simp only [List.map_append, List.map_cons, List.map_nil, List.sum_append, List.sum_cons, List.sum_nil, add_zero] at *
      linarith

/-- **C164** (partial: the first split only, see `C164_counterexample_thresholds`, `_points` and `_hyperparameters`) Two partitioners for the same ICE
calculation. If the thresholds of the first one are among those of the second (`num_splits_per_axis + 1` divides), the second allows regions that are
as small or smaller, and everything it must not split the first must not split either, then the leaves of the second one at any depth have together no
more loss than the leaves of the first one at depth 1. -/
theorem C164_first_split_partial [Transc K] {space : ConfigSpace K} (hwf : space.WF) {predict : Predict K} {sel : Selection K}
    {samples : List (List K)} (hrows : ∀ r ∈ samples, r.length = space.length) {perAxis N N' m m' : Nat} (hg : 1 ≤ perAxis)
    {notSplittable notSplittable' : Option (Selection K)} {p p' : DT K}
    (h : dtInit space predict sel samples perAxis N m notSplittable = .ok p)
    (h' : dtInit space predict sel samples perAxis N' m' notSplittable' = .ok p')
    (hmem : ∀ hp ∈ p.cfg.selected, hp ∈ space) (hd : (p.cfg.selected.map Hp.name).Nodup) (hne : p.cfg.selected ≠ [])
    (hN : N + 1 ∣ N' + 1) (hm : m' ≤ m) {ns ns' : List (Hp K)} (hns : notSplittableHps notSplittable space = .ok ns)
    (hns' : notSplittableHps notSplittable' space = .ok ns') (hsub : ∀ hp ∈ ns', hp ∈ ns) {depth : Int} (hdep : 0 < depth) :
    ∃ leaves leaves', (dtPartition p 1).2 = .ok leaves ∧ (dtPartition p' depth).2 = .ok leaves' ∧
      (leaves'.map fun m => regionLoss m.v).sum ≤ (leaves.map fun m => regionLoss m.v).sum := by
  obtain ⟨hv, -, -, hsp⟩ := dt_valid hwf hrows hg h hmem hd hne
  obtain ⟨c, ns0, i, dd, hc, hns0, hcalc, -, -, e⟩ := dtInit_ok h
  obtain ⟨c', ns0', i', dd', hc', hns0', hcalc', -, -, e'⟩ := dtInit_ok h'
  rw [hns] at hns0
  rw [hns'] at hns0'
  obtain rfl := Except.ok.inj hns0
  obtain rfl := Except.ok.inj hns0'
  rw [hc] at hc'
  obtain rfl := Except.ok.inj hc'
  rw [hcalc] at hcalc'
  obtain rfl := Except.ok.inj hcalc'
  have hcfg : p'.cfg = p.cfg := by rw [e, e']
  have hroot : p'.root = p.root := by rw [e, e']
  obtain ⟨hv', -, -, hsp'⟩ := dt_valid hwf hrows hg h' (by rw [hcfg]; exact hmem) (by rw [hcfg]; exact hd) (by rw [hcfg]; exact hne)
  rw [hcfg] at hv'
  obtain ⟨L, h1, -, h3, -⟩ := partition_eq hv (d := 1) one_pos
  obtain ⟨L', h1', -, h3', -⟩ := partition_eq hv' hdep
  rw [hsp'.trans hsp.symm, hroot] at h3'
  refine ⟨L, L', by rw [h1], by rw [h1'], ?_⟩
  have key := greedy_freer (N := p.numSplits) (N' := p'.numSplits) (minPoints := p.minPoints) (minPoints' := p'.minPoints) (by rw [e, e']; exact hN)
    (by rw [e, e']; exact hm) (possible := p.possible) (possible' := p'.possible) (by
      rw [e, e']
      intro a ha
      obtain ⟨ha1, ha2⟩ := List.mem_filter.1 ha
      refine List.mem_filter.2 ⟨ha1, ?_⟩
      simp only [decide_eq_true_eq] at ha2 ⊢
      refine ⟨ha2.1, fun hx => ha2.2 ?_⟩
      obtain ⟨b, hb1, hb2⟩ := List.mem_map.1 hx
      exact List.mem_map.2 ⟨b, hsub b hb1, hb2⟩) hdep hv.depth h3 h3'
  have e1 : ∀ M : List (Node K), (∀ m ∈ M, RegionShape (perAxis ^ p.cfg.selected.length) p.cfg.space.length m) →
      M.map (fun m => regionLoss m.v) = M.map fun m => curveLoss (perAxis ^ p.cfg.selected.length) (curves m) :=
    fun M hM => List.map_congr_left fun m hm => regionLoss_curves (hM m hm)
  rw [e1 L h3.shapes, e1 L' h3'.shapes]
  exact key

end core

/-! ### the tree may get worse -/

section counter

local instance transcFreedom : Transc ℚ := ⟨id, id⟩

def freeSpace : ConfigSpace ℚ := [⟨"s", .float 0 1 false⟩, ⟨"a", .float 0 1 false⟩, ⟨"b", .float 0 1 false⟩]

/-- the standard deviation of a row is listed by the features "a" and "b" -/
def freePredict (tab : List ((ℚ × ℚ) × ℚ)) : Predict ℚ := fun X =>
  .ok (X.map fun _ => 0, X.map fun r => ((tab.find? fun e => e.1.1 == r.getD 1 0 && e.1.2 == r.getD 2 0).map (·.2)).getD 0)

def freeSamples (tab : List ((ℚ × ℚ) × ℚ)) : List (List ℚ) := tab.map fun e => [0, e.1.1, e.1.2]

/-- total loss of the leaves of the tree of depth `d` -/
def freeLoss (tab : List ((ℚ × ℚ) × ℚ)) (N m : Nat) (ns : Option (Selection ℚ)) (d : Int) : Py ℚ := do
  let p ← dtInit freeSpace (freePredict tab) (.name "s") (freeSamples tab) 1 N m ns
  let leaves ← (dtPartition p d).2
  return (leaves.map fun l => regionLoss l.v).sum

def freeTabN : List ((ℚ × ℚ) × ℚ) := [((3/8, 3/8), 1), ((7/8, 3/8), 0), ((3/8, 5/8), 0), ((7/8, 7/8), 2)]
def freeTabM : List ((ℚ × ℚ) × ℚ) := [((3/8, 3/8), 2), ((5/8, 1/8), 1), ((1/8, 1/8), 0), ((5/8, 5/8), 0), ((7/8, 3/8), 2), ((3/8, 5/8), 0)]
def freeTabF : List ((ℚ × ℚ) × ℚ) := [((5/8, 5/8), 0), ((3/8, 7/8), 2), ((7/8, 5/8), 1), ((1/8, 3/8), 1)]

/-- **C164** is false for deeper trees: three thresholds (1/4, 1/2, 3/4) instead of one (1/2) make the tree of depth 2 worse -/
theorem C164_counterexample_thresholds : freeLoss freeTabN 1 1 none 2 = .ok 0 ∧ freeLoss freeTabN 3 1 none 2 = .ok (1/2) := by decide +kernel

/-- and so does allowing regions of one curve instead of two -/
theorem C164_counterexample_points : freeLoss freeTabM 3 2 none 2 = .ok (1/2) ∧ freeLoss freeTabM 3 1 none 2 = .ok (26/3) := by decide +kernel

/-- and so does allowing splits on "b" -/
theorem C164_counterexample_hyperparameters :
    freeLoss freeTabF 3 1 (some (.name "b")) 2 = .ok 0 ∧ freeLoss freeTabF 3 1 none 2 = .ok (1/2) := by decide +kernel

/-- the first splits of the same trees: no worse -/
example : freeLoss freeTabN 1 1 none 1 = .ok (17/2) ∧ freeLoss freeTabN 3 1 none 1 = .ok (2/3) := by decide +kernel

example : freeLoss freeTabM 3 2 none 1 = .ok (51/4) ∧ freeLoss freeTabM 3 1 none 1 = .ok 12 := by decide +kernel

end counter

end PyPDP
