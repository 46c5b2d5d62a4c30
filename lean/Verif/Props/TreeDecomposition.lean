/-
C130: what the leaves of a tree say about the whole.
-/
import Verif.Props.RegionPdp
import Verif.Props.Likelihood

namespace PyPDP
open Spec

section loss
variable {K : Type} [Field K] [LinearOrder K] [IsStrictOrderedRing K]

/-- squared deviations from any value: those from the mean, and the squared distance of the mean -/
theorem sum_sq_shift {α : Type} (l : List α) (f : α → K) {M : K} (hM : (l.length : K) * M = (l.map f).sum) (m : K) :
    (l.map fun a => (f a - m) ^ 2).sum = (l.map fun a => (f a - M) ^ 2).sum + (l.length : K) * (M - m) ^ 2 := by
  have key : ∀ (c : K) (l : List α), (l.map fun a => (f a - c) ^ 2).sum = (l.map fun a => f a ^ 2).sum - 2 * c * (l.map f).sum + l.length * c ^ 2 := by
    intro c l
    induction l with
    | nil => simp
    | cons a as ih =>
      simp only [List.map_cons, List.sum_cons, ih, List.length_cons, Nat.cast_add, Nat.cast_one]
      ring
  rw [key, key, ← hM]
  ring

/-- the squared distances of the curves of a region from any curve -/
theorem region_shift {P F : Nat} (space : ConfigSpace K) (selected : List (Hp K)) {n : Node K} (hn : RegionShape P F n) {c : IceCurve K}
    (hc : regionPdp space selected n = .ok c) (hcl : c.v.length = P)
    (hs : ∀ q < P, ((curves n).length : K) * c.v.getD q 0 = ((curves n).map fun cv => cv.2.2.getD q 0).sum) (w : List K) :
    ((curves n).map fun cv => dist2 P cv.2.2 w).sum = regionLoss n.v + ((curves n).length : K) * dist2 P c.v w := by
  have hv : meanRows n.v = .ok c.v := by
    unfold regionPdp at hc
    obtain ⟨x, hx, hc⟩ := Py.bind_eq_ok.1 hc
    obtain ⟨y, hy, hc⟩ := Py.bind_eq_ok.1 hc
    obtain ⟨v, hvv, hc⟩ := Py.bind_eq_ok.1 hc
    obtain rfl := Except.ok.inj hc
    exact hvv
  have hl : regionLoss n.v = ((curves n).map fun cv => dist2 P cv.2.2 c.v).sum := by
    unfold regionLoss
    rw [hv]
    dsimp only
    conv_lhs => rw [← hn.map_v, List.map_map]
    congr 1
    refine List.map_congr_left fun cv hcv => ?_
    have : cv.2.2 ∈ n.v := by rw [← hn.map_v]; exact List.mem_map.2 ⟨cv, hcv, rfl⟩
    exact zipWith_sq_sum (hn.vs _ this) hcl
  rw [hl]
  unfold dist2
  rw [list_sum_finset_comm, list_sum_finset_comm, Finset.mul_sum, ← Finset.sum_add_distrib]
  exact Finset.sum_congr rfl fun q hq => sum_sq_shift (curves n) (fun cv => cv.2.2.getD q 0) (hs q (Finset.mem_range.1 hq)) _

variable [Transc K]

/-- **C130** The loss of the root is the loss of the leaves plus what the tree explains: the squared distances of the variances of the leaves' PDPs from those of the
PDP of the whole, each weighted with the number of curves of the leaf. -/
theorem C130_explained {P : Nat} {p : DT K} (hv : ValidDT P p) (hne : curves p.root ≠ []) {d : Int} (hd : 0 < d) :
    ∃ leaves rootPdp, (dtPartition p d).2 = .ok leaves ∧ regionPdp p.cfg.space p.cfg.selected p.root = .ok rootPdp ∧
      ∃ pdp : Node K → IceCurve K, (∀ m ∈ leaves, curves m ≠ [] → regionPdp p.cfg.space p.cfg.selected m = .ok (pdp m)) ∧
        regionLoss p.root.v = (leaves.map fun m => regionLoss m.v).sum +
          ((leaves.filter fun m => decide (curves m ≠ [])).map fun m => ((curves m).length : K) * dist2 P (pdp m).v rootPdp.v).sum := by
  obtain ⟨L, h1, -, hperm, hsh⟩ := C50_leaves_partition hv hd
  obtain ⟨c, hc, -, -, -, -, hcl, hsum⟩ := regionPdp_sum p.cfg.space p.cfg.selected hv.shape hne
  classical
  have hex : ∀ m, ∃ c, (m ∈ L ∧ curves m ≠ []) → regionPdp p.cfg.space p.cfg.selected m = .ok c ∧
      ∀ w, ((curves m).map fun cv => dist2 P cv.2.2 w).sum = regionLoss m.v + ((curves m).length : K) * dist2 P c.v w := by
    intro m
    by_cases hm : m ∈ L ∧ curves m ≠ []
    · obtain ⟨c, hc, -, -, -, -, hl, h⟩ := regionPdp_sum p.cfg.space p.cfg.selected (hsh m hm.1).1 hm.2
      exact ⟨c, fun _ => ⟨hc, region_shift _ _ (hsh m hm.1).1 hc hl.1 fun q hq => (h q hq).2.1⟩⟩
    · exact ⟨c, fun h => absurd h hm⟩
  choose pdp hpdp using hex
  have hmem : ∀ m ∈ L.filter fun m => decide (curves m ≠ []), m ∈ L ∧ curves m ≠ [] := by
    intro m hm
    simpa using List.mem_filter.1 hm
  refine ⟨L, c, h1, hc, pdp, fun m hm hn => (hpdp m ⟨hm, hn⟩).1, ?_⟩
  have hroot := region_shift p.cfg.space p.cfg.selected hv.shape hc hcl.1 (fun q hq => (hsum q hq).2.1) c.v
  have h0 : dist2 P c.v c.v = 0 := by simp [dist2]
  rw [h0, mul_zero, add_zero, ← leaves_sum hperm] at hroot
  rw [← hroot]
  have e : (L.map fun m => regionLoss m.v).sum = ((L.filter fun m => decide (curves m ≠ [])).map fun m => regionLoss m.v).sum := by
    clear h1 hperm hmem hpdp hroot
    induction L with
    | nil => rfl
    | cons m L ih =>
      have ih := ih fun m hm => hsh m (List.mem_cons_of_mem _ hm)
      by_cases hm : curves m = []
      · have : m.v = [] := by rw [← (hsh m (by simp)).1.map_v, hm]; rfl
        simp [hm, ih, this, regionLoss_nil]
      · simp [hm, ih]
  rw [e, ← List.sum_map_add]
  exact congrArg List.sum (List.map_congr_left fun m hm => (hpdp m (hmem m hm)).2 c.v)

end loss

/-- a weighted average is not below all the values -/
theorem exists_le_average {α : Type} {L : List α} {w x : α → ℝ} {W a : ℝ} (hL : ∀ m ∈ L, 0 < w m) (hW : (L.map w).sum = W) (hWpos : 0 < W)
    (h : (L.map fun m => w m * x m).sum = W * a) : (∃ m ∈ L, x m ≤ a) ∧ ∃ m ∈ L, a ≤ x m := by
  have hne : L ≠ [] := by rintro rfl; simp at hW; linarith
  have e : (L.map fun m => w m * a).sum = W * a := by rw [List.sum_map_mul_right, hW]
  constructor
  · by_contra hcon
    push Not at hcon
    have : (L.map fun m => w m * a).sum < (L.map fun m => w m * x m).sum :=
      List.sum_lt_sum_of_ne_nil hne _ _ fun m hm => mul_lt_mul_of_pos_left (hcon m hm) (hL m hm)
    linarith
  · by_contra hcon
    push Not at hcon
    have : (L.map fun m => w m * x m).sum < (L.map fun m => w m * a).sum :=
      List.sum_lt_sum_of_ne_nil hne _ _ fun m hm => mul_lt_mul_of_pos_left (hcon m hm) (hL m hm)
    linarith

/-- **C130** The mean confidence of the root is the average of those of the leaves, weighted with their numbers of curves; so some leaf has a mean confidence that is
at most, and some leaf one that is at least, that of the root. -/
theorem C130_confidence [Transc ℝ] {P : Nat} {p : DT ℝ} (hv : ValidDT P p) (hne : curves p.root ≠ []) {d : Int} (hd : 0 < d) :
    ∃ leaves root, (dtPartition p d).2 = .ok leaves ∧ meanConfidence p.root = .ok root ∧
      ∃ conf : Node ℝ → ℝ, (∀ m ∈ leaves, curves m ≠ [] → meanConfidence m = .ok (conf m)) ∧
        ((leaves.filter fun m => decide (curves m ≠ [])).map fun m => ((curves m).length : ℝ) * conf m).sum = ((curves p.root).length : ℝ) * root ∧
        (∃ m ∈ leaves, curves m ≠ [] ∧ conf m ≤ root) ∧ ∃ m ∈ leaves, curves m ≠ [] ∧ root ≤ conf m := by
  obtain ⟨L, h1, -, hperm, hsh⟩ := C50_leaves_partition hv hd
  have hP : (0 : ℝ) < P := by exact_mod_cast hv.shape.pos
  have hmem : ∀ m ∈ L.filter fun m => decide (curves m ≠ []), m ∈ L ∧ curves m ≠ [] := by
    intro m hm
    simpa using List.mem_filter.1 hm
  have hlen : ∀ m : Node ℝ, curves m ≠ [] → (0 : ℝ) < (curves m).length := fun m hm => by exact_mod_cast List.length_pos_iff.2 hm
  obtain ⟨φ, hφ⟩ : ∃ φ : Curve ℝ → ℝ, φ = fun c => ∑ p ∈ Finset.range P, Real.sqrt (c.2.2.getD p 0) := ⟨_, rfl⟩
  obtain ⟨conf, hconf⟩ : ∃ conf : Node ℝ → ℝ, conf = fun m => ((curves m).map φ).sum / ((curves m).length * P) := ⟨_, rfl⟩
  have hmul : ∀ m : Node ℝ, curves m ≠ [] → ((curves m).length : ℝ) * conf m = ((curves m).map φ).sum / P := by
    intro m hm
    have := hlen m hm
    rw [hconf]
    field_simp
  have hval : ∀ m, RegionShape P p.cfg.space.length m → curves m ≠ [] → meanConfidence m = .ok (conf m) := by
    intro m hm hn
    rw [C82_mean_confidence hm hn, hconf, hφ]
  have hsum : ((L.filter fun m => decide (curves m ≠ [])).map fun m => ((curves m).length : ℝ) * conf m).sum =
      ((curves p.root).length : ℝ) * conf p.root := by
    rw [hmul _ hne, List.map_congr_left fun m hm => hmul m (hmem m hm).2, ← leaves_sum hperm, div_eq_mul_inv, ← List.sum_map_mul_right]
    rfl
  have hW : ((L.filter fun m => decide (curves m ≠ [])).map fun m => ((curves m).length : ℝ)).sum = ((curves p.root).length : ℝ) := by
    have := leaves_sum hperm fun _ => (1 : ℝ)
    simpa using this
  obtain ⟨⟨m, hm, hle⟩, m', hm', hge⟩ := exists_le_average (fun m hm => hlen m (hmem m hm).2) hW (hlen _ hne) hsum
  exact ⟨L, conf p.root, h1, hval _ hv.shape hne, conf, fun m hm hn => hval m (hsh m hm).1 hn, hsum,
    ⟨m, (hmem m hm).1, (hmem m hm).2, hle⟩, m', (hmem m' hm').1, (hmem m' hm').2, hge⟩

section concrete
local instance decompositionTransc : Transc ℚ := ⟨id, id⟩

/-- `exDt`: the loss of the root, the losses of the two leaves and the variances of the three PDPs:
`0.5049 = 0.01445 + 0.00045 + 2 · 0.35² + 2 · 0.35²` -/
example : (exDt.map fun p => regionLoss p.root.v) = .ok (5049/10000) ∧
    (exDt.bind fun p => regionPdp p.cfg.space p.cfg.selected p.root).map (fun c => c.v) = .ok [0, 3/8] ∧
    (exDt.bind fun p => (dtPartition p 1).2.map fun L => L.map fun m => regionLoss m.v) = .ok [289/20000, 9/20000] ∧
    (exDt.bind fun p => (dtPartition p 1).2.bind fun L => L.mapM fun m => (regionPdp p.cfg.space p.cfg.selected m).map fun c => c.v) =
      .ok [[0, 29/40], [0, 1/40]] := by decide +kernel
example : (289/20000 + 9/20000 + (2 * (29/40 - 3/8) ^ 2 + 2 * (1/40 - 3/8) ^ 2) : ℚ) = 5049/10000 := by norm_num

end concrete

end PyPDP
