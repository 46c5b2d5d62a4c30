/-
C142: curves and configurations of a leaf, with doubles.
-/
import Verif.Props.Machine
import Verif.Props.Rounding
import Verif.Props.RoundedRanges
import Verif.Props.RoundedImplied
import Verif.Model.RoundedMachine

namespace PyPDP
open Spec

theorem rounded_comparable (c : ComputedExp) (sum : List ℝ → ℝ) : @Comparable ℝ (roundedMachine c sum) := by
  let _ := roundedMachine c sum
  refine ⟨fun a b _ _ => ?_, fun a b c h1 h2 => ?_, fun a b _ => ?_, fun a b => ?_, fun a _ => ?_, fun _ _ _ _ => rfl⟩
  · simpa [Machine.le] using le_total a b
  · simp only [Machine.le, decide_eq_true_eq] at *; exact h1.trans h2
  · simp [IsNum, Machine.le]
  · simp [IsNum, Machine.le, Machine.lt]
  · simp [IsNum, Machine.le]

/-- **C142** Without rounding this is the exact machine, whose functions are those of the exact models (C133, C134). -/
theorem C142_exact : roundedMachine exactlyExp List.sum = exactMachine ℝ := by
  unfold roundedMachine exactMachine
  congr 1
  · funext v
    exact (C138_exact v []).2.2
  · funext n
    rw [splitVals, ← linspaceF_id]
    rfl

theorem rounded_min_max (c : ComputedExp) (sum : List ℝ → ℝ) (a b : ℝ) :
    @npMinimum ℝ (roundedMachine c sum) a b = min a b ∧ @npMaximum ℝ (roundedMachine c sum) a b = max a b := by
  simp [npMinimum, npMaximum, machineNan, Machine.le, min_def, max_def]

/-- what `unscale_float` computes -/
theorem rounded_unscale {c : ComputedExp} {sum : List ℝ → ℝ} {cs : ConfigSpace ℝ} {name : String} {hp : Hp ℝ} {l u : ℝ} {g : Bool}
    (hlu : l ≤ u) (hget : cs.get name = .ok hp) (hb : hp.numerical? = some (l, u, g)) (t : ℝ) :
    @unscaleFloatM ℝ (roundedMachine c sum) t cs name = .ok (min u (max l (unscaleNumF c l u g t))) := by
  have hbd : hp.bounds = .ok (l, u, g) := by rw [Hp.bounds, hb]
  unfold unscaleFloatM
  rw [hget, Py.ok_bind, hbd, Py.ok_bind]
  cases g with
  | false =>
    simp only [Bool.false_eq_true, if_false, Py.ok_bind, unscaleNumF, (rounded_min_max c sum _ _).1, (rounded_min_max c sum _ _).2]
    rfl
  | true =>
    simp only [if_true, unscaleNumF, Machine.exp, Py.ok_bind, (rounded_min_max c sum _ _).1, (rounded_min_max c sum _ _).2, Machine.add, Machine.mul,
      Machine.sub, Machine.log]
    generalize c.exp _ = w
    change Except.ok _ = _
    congr 1
    rw [max_eq_right (le_min hlu (le_max_left _ _)), ← min_assoc, min_self]


/-! ### the leaf of a curve -/

/-- The values of the configuration are those that `unscale_float` computes from the numbers of the curve (hyperparameters that may be
split only). -/
def UnscaledOf (M : Machine ℝ) (p : DT ℝ) (curve : Curve ℝ) (cfg : Config ℝ) : Prop :=
  ∀ hp ∈ p.possible, ∀ f, IsFeature p.cfg.space hp f →
    ∃ x v, valueAt f curve = some x ∧ @unscaleFloatM ℝ M x p.cfg.space hp.name = .ok v ∧ cfg.get? hp.name = some (.num v)

/-- No threshold below the number of the curve has the same value in natural units. -/
def NotMerged (M : Machine ℝ) (p : DT ℝ) (curve : Curve ℝ) : Prop :=
  ∀ hp ∈ p.possible, ∀ f x, IsFeature p.cfg.space hp f → valueAt f curve = some x → ∀ t ∈ @Machine.splitVals ℝ M p.numSplits, t < x →
    @unscaleFloatM ℝ M t p.cfg.space hp.name ≠ @unscaleFloatM ℝ M x p.cfg.space hp.name

theorem containsAllM_true {F : Type} [Machine F] {cs : ConfigSpace F} {cfg : Config F} {conds : List (Cond F)}
    (h : ∀ c ∈ conds, isSatisfiedM cs c cfg = .ok true) : containsAllM cs conds cfg = .ok true := by
  induction conds with
  | nil => rfl
  | cons c conds ih =>
    simp only [containsAllM, h c (by simp), Py.ok_bind, if_true]
    exact ih fun c hc => h c (List.mem_cons_of_mem _ hc)

theorem valueAt_exists {F : Type} {P W : Nat} {n : Node F} (h : RegionShape P W n) {q : Curve F} (hq : q ∈ curves n) {f : Nat} (hf : f < W) :
    ∃ x, valueAt f q = some x := by
  obtain ⟨hlen, hrow⟩ := h.xs q.1 (List.of_mem_zip hq).1
  have h0 : 0 < q.1.length := by have := h.pos; omega
  have hr := hrow q.1[0] (List.getElem_mem h0)
  exact ⟨q.1[0][f], by rw [valueAt, List.getElem?_eq_getElem h0, Option.bind_some, List.getElem?_eq_getElem (by omega)]⟩

section leaf
variable {c : ComputedExp} (hc : CorrectlyRoundedExp c) {sum : List ℝ → ℝ} {P : Nat} {p : DT ℝ} (hv : ValidDT P p)
  (hfloat : ∀ hp ∈ p.possible, ∃ l u g, hp.kind = .float l u g ∧ l < u ∧ (g = true → 0 < l))
include hc hv hfloat

/-- `unscale_float` of a hyperparameter that may be split keeps the order -/
theorem rounded_unscale_mono {hp : Hp ℝ} (hm : hp ∈ p.possible) : ∃ U : ℝ → ℝ, Monotone U ∧
    ∀ t, @unscaleFloatM ℝ (roundedMachine c sum) t p.cfg.space hp.name = .ok (U t) := by
  obtain ⟨l, u, g, hk, hlt, hpos⟩ := hfloat hp hm
  have hget := ConfigSpace.get_of_mem hv.wf (hv.possible_mem hp hm)
  refine ⟨fun t => min u (max l (unscaleNumF c l u g t)), ?_, fun t => rounded_unscale hlt.le hget (by simp [Hp.numerical?, hk]) t⟩
  intro s t hst
  exact min_le_min le_rfl (max_le_max le_rfl (unscaleNumF_mono hc hlt hpos hst))

/-- **C142** (the leaf of a curve, with doubles; partial: not if a threshold below the sample has the same value in natural units)
Let the values of a configuration be the rounded unscaled numbers of a sample. Every `<=` condition of the leaf that holds the sample's
curve is satisfied by the configuration, whatever the rounding. If no threshold is merged with the sample, the configuration is in the leaf
that holds the curve and in no other. -/
theorem C142_leaf_partial {d : Int} (hd : 0 < d) {curve : Curve ℝ} (hcurve : curve ∈ curves p.root) {cfg : Config ℝ}
    (hcfg : UnscaledOf (roundedMachine c sum) p curve cfg) :
    ∃ leaves, (@dtPartitionM ℝ (roundedMachine c sum) p d).2 = .ok leaves ∧
      (∀ m ∈ leaves, curve ∈ curves m → ∀ cond ∈ m.conds, cond.lessEqual = some true →
        @isSatisfiedM ℝ (roundedMachine c sum) p.cfg.space cond cfg = .ok true) ∧
      (NotMerged (roundedMachine c sum) p curve → ∃ i leaf, leaves[i]? = some leaf ∧
        @dtIncumbentRegionM ℝ (roundedMachine c sum) (@dtPartitionM ℝ (roundedMachine c sum) p d).1 cfg = .ok (some leaf) ∧
        ∀ (j : Nat) m, leaves[j]? = some m → (curve ∈ curves m ↔ j = i) ∧
          @containsAllM ℝ (roundedMachine c sum) p.cfg.space m.conds cfg = .ok (decide (j = i))) := by
  let M : Machine ℝ := roundedMachine c sum
  have H : Comparable ℝ := rounded_comparable c sum
  have hnum : ∀ x : ℝ, IsNum x := fun x => by simp [IsNum, Machine.le, M]
  obtain ⟨leaves, e1, -, -, -, e2⟩ := C134_tree hv hd
  obtain ⟨leaves', e1', -, e3⟩ := C134_curves H hv hd
  obtain rfl : leaves' = leaves := by rw [e1] at e1'; exact (Except.ok.inj e1').symm
  have hfeat : ∀ hp ∈ p.possible, ∃ f, IsFeature p.cfg.space hp f := by
    intro hp hm
    obtain ⟨f, hf, -⟩ := idx_of_mem (hv.possible_mem hp hm)
    exact ⟨f, (isFeature_idx hv.wf).2 hf⟩
  have hsat : ∀ m ∈ leaves', curve ∈ curves m → ∀ cond ∈ m.conds, (cond.lessEqual = some true ∨ NotMerged M p curve) →
      isSatisfiedM p.cfg.space cond cfg = .ok true := by
    intro m hm hcm cond hcond hor
    obtain ⟨hp, t, f, b, hpm, htm, hf, rfl, hside⟩ := (e2 m hm).2.2.2.2 cond hcond
    obtain ⟨x, v, hx, hxv, hget⟩ := hcfg hp hpm f hf
    obtain ⟨U, hU, hUt⟩ := rounded_unscale_mono hc hv hfloat (sum := sum) hpm
    have hon := hside curve hcm
    have hv' : v = U x := by rw [hUt] at hxv; exact (Except.ok.inj hxv).symm
    simp only [onSide, hx] at hon
    have hUt' : unscaleFloatM t p.cfg.space hp.name = .ok (U t) := hUt t
    cases b with
    | true =>
      have hle : x ≤ t := by simpa [Machine.le, M] using hon
      simp only [isSatisfiedM, condValueM, hget, hUt', Py.map_ok, Py.ok_bind, compareFloatM, if_true, hv']
      simpa [Machine.le, M] using hU hle
    | false =>
      have hlt : t < x := by simpa [Machine.lt, M] using hon
      have hnm : NotMerged M p curve := by simpa using hor
      have hne := hnm hp hpm f x hf hx t htm hlt
      rw [hUt, hUt] at hne
      have : U t < U x := lt_of_le_of_ne (hU hlt.le) fun e => hne (by rw [e])
      simp only [isSatisfiedM, condValueM, hget, hUt', Py.map_ok, Py.ok_bind, compareFloatM, hv']
      simpa [Machine.lt, M] using this
  refine ⟨leaves', e1, fun m hm hcm cond hcond hle => hsat m hm hcm cond hcond (.inl hle), fun hnm => ?_⟩
  obtain ⟨leaves'', i, leaf, g1, g2, g3, g4⟩ := C134_one_leaf H hv hd (cfg := cfg)
    (fun hp hm => by
      obtain ⟨f, hf⟩ := hfeat hp hm
      obtain ⟨x, v, -, -, hget⟩ := hcfg hp hm f hf
      exact ⟨v, hget, hnum v⟩)
    (fun hp hm t _ => by
      obtain ⟨U, -, hUt⟩ := rounded_unscale_mono hc hv hfloat (sum := sum) hm
      exact ⟨U t, hUt t, hnum _⟩)
  obtain rfl : leaves'' = leaves' := by rw [e1] at g1; exact (Except.ok.inj g1).symm
  have hin : ∀ (j : Nat) m, leaves''[j]? = some m → curve ∈ curves m → j = i := by
    intro j m hm hcm
    have h1 := containsAllM_true fun cond hcond => hsat m (List.mem_of_getElem? hm) hcm cond hcond (.inr hnm)
    rw [g3 j m hm] at h1
    simpa using h1
  -- the curve is somewhere
  have hsome : curve ∈ curves leaf := by
    have hnn : NoNan p.cfg.space p.possible (curves p.root) := by
      intro q hq hp hm f hf
      obtain ⟨h, hh, -⟩ := hf
      have hfl : f < p.cfg.space.length := (List.getElem?_eq_some_iff.1 hh).1
      obtain ⟨x, hx⟩ := valueAt_exists hv.shape hq hfl
      exact ⟨x, hx, hnum x⟩
    have := (e3 hnn fun t _ => hnum t).mem_iff.2 hcurve
    obtain ⟨m, hm, hcm⟩ := List.mem_flatMap.1 this
    obtain ⟨j, hj⟩ := List.mem_iff_getElem?.1 hm
    obtain rfl := hin j m hj hcm
    rw [g2] at hj
    obtain rfl := Option.some.inj hj
    exact hcm
  refine ⟨i, leaf, g2, g4, fun j m hm => ⟨⟨hin j m hm, ?_⟩, g3 j m hm⟩⟩
  rintro rfl
  rw [g2] at hm
  obtain rfl := Option.some.inj hm
  exact hsome

end leaf

/-! ### thresholds that are not merged -/

/-- rounded unscaling on a linear axis is off by at most six units of rounding -/
theorem unscale_linear_error {c : ComputedExp} (hc : CorrectlyRoundedExp c) {l u M t : ℝ} (hlu : l < u) (hl : |l| ≤ M) (hu : |u| ≤ M)
    (h0 : 0 ≤ t) (h1 : t ≤ 1) : |unscaleNumF c l u false t - (t * (u - l) + l)| ≤ 6 * M * (2 : ℝ) ^ (-53 : ℤ) := by
  have he : (2 : ℝ) ^ (-53 : ℤ) = 1 / 9007199254740992 := by rw [zpow_neg]; norm_num
  have hl' := abs_le.1 hl
  have hu' := abs_le.1 hu
  have e1 := (hc.fl (u - l)).error
  rw [abs_of_pos (sub_pos.2 hlu)] at e1
  have e2 := (hc.fl (t * c.fl (u - l))).error
  have e3 := (hc.fl (c.fl (t * c.fl (u - l)) + l)).error
  simp only [unscaleNumF, Bool.false_eq_true, if_false]
  generalize c.fl (c.fl (t * c.fl (u - l)) + l) = r at *
  generalize c.fl (t * c.fl (u - l)) = q at *
  generalize c.fl (u - l) = D at *
  rw [he] at *
  have b1 := abs_le.1 e1
  have hD : |t * (u - l) - t * D| ≤ (u - l) * (1 / 9007199254740992) := by
    rw [← mul_sub, abs_mul, abs_of_nonneg h0]
    calc t * |u - l - D| ≤ 1 * |u - l - D| := mul_le_mul_of_nonneg_right h1 (abs_nonneg _)
      _ ≤ _ := by rw [one_mul]; exact e1
  have htD : |t * D| ≤ 2 * M * (1 + 1 / 9007199254740992) := by
    have hD0 : |D| ≤ 2 * M * (1 + 1 / 9007199254740992) := by rw [abs_le]; constructor <;> linarith
    rw [abs_mul, abs_of_nonneg h0]
    calc t * |D| ≤ 1 * |D| := mul_le_mul_of_nonneg_right h1 (abs_nonneg _)
      _ ≤ _ := by rw [one_mul]; exact hD0
  have b2 := abs_le.1 hD
  have b3 := abs_le.1 e2
  have ht1 : t * (u - l) ≤ u - l := by nlinarith
  have ht0 : 0 ≤ t * (u - l) := mul_nonneg h0 (by linarith)
  have hq : |q + l| ≤ M * (1 + 6 / 9007199254740992) := by rw [abs_le]; constructor <;> linarith
  have b4 := abs_le.1 e3
  rw [abs_le]
  constructor <;> linarith

/-- **C142** (when nothing is merged) On a linear axis, a threshold that is below the number of the sample by more than `2⁻⁴⁹` of the
larger bound, measured in natural units, has a smaller value in natural units. -/
theorem C142_spacing {c : ComputedExp} (hc : CorrectlyRoundedExp c) {sum : List ℝ → ℝ} {cs : ConfigSpace ℝ} {name : String} {hp : Hp ℝ} {l u : ℝ}
    (hlu : l < u) (hget : cs.get name = .ok hp) (hb : hp.numerical? = some (l, u, false)) {t x : ℝ} (h0 : 0 ≤ t) (h1 : x ≤ 1)
    (hgap : max |l| |u| * (2 : ℝ) ^ (-49 : ℤ) ≤ (x - t) * (u - l)) :
    ∃ w v, @unscaleFloatM ℝ (roundedMachine c sum) t cs name = .ok w ∧ @unscaleFloatM ℝ (roundedMachine c sum) x cs name = .ok v ∧ w < v := by
  refine ⟨_, _, rounded_unscale hlu.le hget hb t, rounded_unscale hlu.le hget hb x, ?_⟩
  obtain ⟨M, hM⟩ : ∃ M, M = max |l| |u| := ⟨_, rfl⟩
  rw [← hM] at hgap
  have hl : |l| ≤ M := by rw [hM]; exact le_max_left _ _
  have hu : |u| ≤ M := by rw [hM]; exact le_max_right _ _
  have hM0 : 0 < M := by
    rcases lt_or_eq_of_le ((abs_nonneg l).trans hl) with h | h
    · exact h
    · rw [← h] at hl hu
      have := abs_nonpos_iff.1 hl
      have := abs_nonpos_iff.1 hu
      linarith
  have he : (2 : ℝ) ^ (-53 : ℤ) = 1 / 9007199254740992 := by rw [zpow_neg]; norm_num
  have he' : (2 : ℝ) ^ (-49 : ℤ) = 16 / 9007199254740992 := by rw [zpow_neg]; norm_num
  have htx : t < x := by
    by_contra hcon
    have : (x - t) * (u - l) ≤ 0 := mul_nonpos_of_nonpos_of_nonneg (by linarith) (by linarith)
    rw [he'] at hgap
    linarith
  have a1 := abs_le.1 (unscale_linear_error hc hlu hl hu h0 (htx.le.trans h1))
  have a2 := abs_le.1 (unscale_linear_error hc hlu hl hu (h0.trans htx.le) h1)
  rw [he] at a1 a2
  rw [he'] at hgap
  have h3 : (1 - x) * (u - l) ≥ 0 := mul_nonneg (by linarith) (by linarith)
  have h4 : t * (u - l) ≥ 0 := mul_nonneg h0 (by linarith)
  generalize unscaleNumF c l u false t = A at *
  generalize unscaleNumF c l u false x = B at *
  have hAB : A < B := by linarith
  have hAu : A < u := by linarith
  have hlB : l < B := by linarith
  exact lt_min (min_lt_of_right_lt (max_lt hlu hAu)) ((min_le_right _ _).trans_lt (max_lt (lt_max_of_lt_right hlB) (lt_max_of_lt_right hAB)))


/-! ### samples of a grid -/

section example_
private theorem dZero : IsDouble 0 := ⟨0, 0, by norm_num, by simp⟩
private theorem dOne : IsDouble 1 := ⟨1, 0, by norm_num, by simp⟩
private theorem dHalf : IsDouble (1 / 2) := ⟨1, -1, by norm_num, by rw [zpow_neg]; norm_num⟩

/-- one threshold per axis: 0.5 -/
private theorem one_split {c : ComputedExp} (hc : CorrectlyRoundedExp c) (sum : List ℝ → ℝ) :
    @Machine.splitVals ℝ (roundedMachine c sum) 1 = [1 / 2] := by
  have h1 : c.fl 1 = 1 := (hc.fl 1).self dOne
  have h2 : c.fl (1 / 2) = 1 / 2 := (hc.fl _).self dHalf
  simp only [Machine.splitVals, linspaceF]
  simp only [List.range_succ, List.range_zero, List.nil_append, List.cons_append, List.map_cons, List.map_nil, List.drop_succ_cons, List.drop_zero,
    List.dropLast]
  norm_num [h1]
  rw [h2, h2, h2]

/-- a parameter `a` between 0 and 1 and the parameter `z` -/
private noncomputable def zSpace (z : Hp ℝ) : ConfigSpace ℝ := [⟨"a", .float 0 1 false⟩, z]

/-- the tree for three samples with the numbers 0, `x` and 1 of `z` -/
private noncomputable def zTree (z : Hp ℝ) (x : ℝ) : DT ℝ :=
  let cfg : IceCfg ℝ := ⟨zSpace z, [⟨"a", .float 0 1 false⟩], [[0, 0], [0, x], [0, 1]], 3, 1, 1, false, fun _ => .error .runtime⟩
  ⟨cfg, [z], 1, 1, iceInit cfg, ⟨0, [[[0, 0]], [[0, x]], [[0, 1]]], [[4], [7], [9]], [[1], [2], [3]], []⟩, []⟩

/-- the curve of the second sample -/
private noncomputable def zCurve (x : ℝ) : Curve ℝ := ([[0, x]], [7], [2])

private noncomputable def zLeft (z : Hp ℝ) : Node ℝ := ⟨1, [[[0, 0]]], [[4]], [[1]], [⟨z, .flt (1 / 2), some true⟩]⟩
private noncomputable def zRight (z : Hp ℝ) (x : ℝ) : Node ℝ :=
  ⟨1, [[[0, x]], [[0, 1]]], [[7], [9]], [[2], [3]], [⟨z, .flt (1 / 2), some false⟩]⟩

private theorem zTree_valid {z : Hp ℝ} (hz : z.name = "z") (x : ℝ) : ValidDT 1 (zTree z x) := by
  refine ⟨?_, by simp [zTree, zSpace], ⟨le_rfl, rfl, rfl, ?_, ?_, ?_⟩, rfl, rfl⟩
  · simp [ConfigSpace.WF, zTree, zSpace, hz]
  all_goals simp [zTree, zSpace]

private theorem zTree_leaves {c : ComputedExp} (hc : CorrectlyRoundedExp c) (sum : List ℝ → ℝ) {z : Hp ℝ} (hz : z.name = "z") {x : ℝ} (hx : 1 / 2 < x) :
    (@dtPartitionM ℝ (roundedMachine c sum) (zTree z x) 1).2 = .ok [zRight z x, zLeft z] := by
  let M : Machine ℝ := roundedMachine c sum
  have hidx : (zSpace z).idx z.name = .ok 1 := by simp [zSpace, ConfigSpace.idx, hz, List.findIdx?_cons]
  have hvals : firstValues (zTree z x).root.x 1 = .ok [0, x, 1] := rfl
  have hle : condMaskM (some true) (1 / 2) [0, x, 1] = [true, false, false] := by
    simp [condMaskM, Machine.le, M]
    constructor
    · linarith
    · norm_num
  have hgt : condMaskM (some false) (1 / 2) [0, x, 1] = [false, true, true] := by
    simp [condMaskM, Machine.lt, M]
    constructor
    · linarith
    · norm_num
  have hsplit : splitAtValueM (zSpace z) (zTree z x).root z (1 / 2) = .ok (zLeft z, zRight z x) := by
    simp only [splitAtValueM, checkCond, Py.ok_bind, filterByConditionM, hidx, hvals, NVal.toNumM, hle, hgt]
    rfl
  have hbest : calcBestSplitM (zSpace z) [z] 1 1 (zTree z x).root = .ok (some (zLeft z, zRight z x)) := by
    have hs : (zTree z x).root.splittable = true := by simp [zTree, Node.splittable]
    simp only [calcBestSplitM, hs, if_true, candidatesM, one_split hc sum, M]
    simp only [List.flatMap_cons, List.flatMap_nil, List.map_cons, List.map_nil, List.append_nil, List.foldlM_cons, List.foldlM_nil, trySplitM]
    rw [show @splitAtValueM ℝ (roundedMachine c sum) (zSpace z) (zTree z x).root z (1 / 2) = _ from hsplit]
    rfl
  have hs : (zTree z x).root.splittable = true := by simp [zTree, Node.splittable]
  have hd : (zTree z x).root.depth = 0 := rfl
  unfold dtPartitionM
  rw [if_pos (by norm_num)]
  have hloop : partitionLoop (calcBestSplitM (zTree z x).cfg.space (zTree z x).possible (zTree z x).numSplits (zTree z x).minPoints) 1 (loopFuel 1)
      [(zTree z x).root] [] = ([zRight z x, zLeft z], .finished) := by
    have hb : calcBestSplitM (zTree z x).cfg.space (zTree z x).possible (zTree z x).numSplits (zTree z x).minPoints (zTree z x).root = _ := hbest
    rw [show loopFuel 1 = 4 from rfl]
    simp only [partitionLoop, hs, hd, hb]
    simp [zLeft, zRight]
  rw [hloop]

/-- a value for `z` that is not above the value of the threshold belongs to the left leaf -/
private theorem zTree_contains {c : ComputedExp} {sum : List ℝ → ℝ} {z : Hp ℝ} {v w : ℝ}
    (hw : @unscaleFloatM ℝ (roundedMachine c sum) (1 / 2) (zSpace z) z.name = .ok w) (hvw : v ≤ w) (x : ℝ) {cfg : Config ℝ}
    (hcfg : cfg.get? z.name = some (.num v)) :
    @containsAllM ℝ (roundedMachine c sum) (zSpace z) (zLeft z).conds cfg = .ok true ∧
    @containsAllM ℝ (roundedMachine c sum) (zSpace z) (zRight z x).conds cfg = .ok false := by
  simp only [zLeft, zRight, containsAllM, isSatisfiedM, condValueM, hw, hcfg, Py.map_ok, Py.ok_bind, compareFloatM]
  simp [Machine.le, Machine.lt, hvw]

private noncomputable def sixTenths : ℝ := 5404319552844595 / 9007199254740992
private theorem dSixTenths : IsDouble sixTenths := ⟨5404319552844595, -53, by norm_num, by rw [zpow_neg]; norm_num [sixTenths]⟩

/-- `z` between 0.6 and 1.5 -/
private noncomputable def zGrid : Hp ℝ := ⟨"z", .float sixTenths (3 / 2) false⟩

private theorem zGrid_numbers {c : ComputedExp} (hc : CorrectlyRoundedExp c) :
    c.fl (3 / 2 - sixTenths) = 8106479329266893 / 9007199254740992 ∧
    c.fl (8106479329266893 / 9007199254740992 / 2) = 8106479329266893 / 18014398509481984 ∧
    c.fl (8106479329266893 / 18014398509481984 + sixTenths) = 4728779608739021 / 4503599627370496 ∧
    c.fl (4728779608739021 / 4503599627370496 - sixTenths) = 4053239664633447 / 9007199254740992 ∧
    1 / 2 < c.fl (4053239664633447 / 9007199254740992 / (8106479329266893 / 9007199254740992)) ∧
    c.fl (4053239664633447 / 9007199254740992 / (8106479329266893 / 9007199254740992)) ≤ 1 := by
  refine ⟨?_, ?_, ?_, ?_, ?_, ?_⟩
  · have e : (3 / 2 - sixTenths : ℝ) = 8106479329266893 / 9007199254740992 := by norm_num [sixTenths]
    rw [e]
    exact (hc.fl _).self ⟨8106479329266893, -53, by norm_num, by rw [zpow_neg]; norm_num⟩
  · rw [show (8106479329266893 / 9007199254740992 / 2 : ℝ) = 8106479329266893 / 18014398509481984 by norm_num]
    exact (hc.fl _).self ⟨8106479329266893, -54, by norm_num, by rw [zpow_neg]; norm_num⟩
  · have h := (hc.fl (8106479329266893 / 18014398509481984 + sixTenths)).eq_of_close (m := 4728779608739021) (e := -52)
      ⟨4728779608739021, -52, by norm_num, rfl⟩ (by norm_num) (by rw [zpow_neg, abs_lt]; norm_num [sixTenths])
    rw [h, zpow_neg]
    norm_num
  · have e : (4728779608739021 / 4503599627370496 - sixTenths : ℝ) = 4053239664633447 / 9007199254740992 := by norm_num [sixTenths]
    rw [e]
    exact (hc.fl _).self ⟨4053239664633447, -53, by norm_num, by rw [zpow_neg]; norm_num⟩
  · have h := (hc.fl (4053239664633447 / 9007199254740992 / (8106479329266893 / 9007199254740992))).2 (4503599627370497 / 9007199254740992)
      ⟨4503599627370497, -53, by norm_num, by rw [zpow_neg]; norm_num⟩
    by_contra hle
    push Not at hle
    rw [abs_of_nonneg (by norm_num at hle ⊢; linarith), abs_of_nonpos (by norm_num)] at h
    norm_num at h hle
    linarith
  · exact (hc.fl _).le dOne (by norm_num)

/-- **C142** (the converse direction fails) `z` is a float hyperparameter between 0.6 and 1.5; the grid with three points per axis has the
middle value 1.05, whose number in the vector is 0.5000000000000001, because `1.05 - 0.6` is a little more than the half of `1.5 - 0.6`.
With one threshold per axis, 0.5, the curve of this sample is in the right leaf only. The threshold in natural units is again 1.05, so
the configuration of the sample is contained in the left leaf only. -/
theorem C142_grid_counterexample : ∃ (z : Hp ℝ) (l u : ℝ), z = ⟨"z", .float l u false⟩ ∧ IsDouble l ∧ IsDouble u ∧ l < u ∧
    ∀ (c : ComputedExp) (sum : List ℝ → ℝ), CorrectlyRoundedExp c → ∃ (p : DT ℝ) (v x : ℝ) (curve : Curve ℝ) (left right : Node ℝ), ValidDT 1 p ∧
      p.possible = [z] ∧ p.numSplits = 1 ∧ (linspaceF c.fl l u 3)[1]? = some v ∧
      @scaleFloatM ℝ (roundedMachine c sum) v p.cfg.space "z" = .ok x ∧ curve ∈ curves p.root ∧ valueAt 1 curve = some x ∧
      (@dtPartitionM ℝ (roundedMachine c sum) p 1).2 = .ok [right, left] ∧ curve ∈ curves right ∧ curve ∉ curves left ∧
      ∀ cfg : Config ℝ, cfg.get? "z" = some (.num v) →
        @containsAllM ℝ (roundedMachine c sum) p.cfg.space left.conds cfg = .ok true ∧
        @containsAllM ℝ (roundedMachine c sum) p.cfg.space right.conds cfg = .ok false := by
  have hlu : sixTenths < 3 / 2 := by norm_num [sixTenths]
  refine ⟨zGrid, sixTenths, 3 / 2, rfl, dSixTenths, ⟨3, -1, by norm_num, by rw [zpow_neg]; norm_num⟩, hlu, ?_⟩
  intro c sum hc
  obtain ⟨n1, n2, n3, n4, n5, n6⟩ := zGrid_numbers hc
  obtain ⟨x, hx⟩ : ∃ x, x = c.fl (4053239664633447 / 9007199254740992 / (8106479329266893 / 9007199254740992)) := ⟨_, rfl⟩
  rw [← hx] at n5 n6
  have hget : (zSpace zGrid).get "z" = .ok zGrid := by simp [zSpace, ConfigSpace.get, zGrid]
  have hb : zGrid.numerical? = some (sixTenths, 3 / 2, false) := rfl
  refine ⟨zTree zGrid x, 4728779608739021 / 4503599627370496, x, zCurve x, zLeft zGrid, zRight zGrid x, zTree_valid rfl x, rfl, rfl, ?_, ?_, ?_, rfl,
    zTree_leaves hc sum rfl n5, ?_, ?_, ?_⟩
  · have n2' : c.fl (8106479329266893 / 18014398509481984) = 8106479329266893 / 18014398509481984 :=
      (hc.fl _).self ⟨8106479329266893, -54, by norm_num, by rw [zpow_neg]; norm_num⟩
    simp only [linspaceF, List.range_succ, List.range_zero, List.nil_append, List.cons_append, List.map_cons, List.map_nil,
      List.getElem?_cons_succ, List.getElem?_cons_zero]
    rw [if_neg (by norm_num), n1, show ((3 : ℕ) : ℝ) - 1 = 2 by norm_num, n2, Nat.cast_one, one_mul, n2', n3]
  · change @scaleFloatM ℝ (roundedMachine c sum) _ (zSpace zGrid) "z" = _
    unfold scaleFloatM
    rw [hget, Py.ok_bind, Hp.bounds, hb]
    simp only [Py.ok_bind, Bool.false_eq_true, if_false, (rounded_min_max c sum _ _).1, (rounded_min_max c sum _ _).2, Machine.div, Machine.sub,
      Machine.ofInt, n1, n4, ← hx]
    change Except.ok _ = _
    push_cast
    rw [min_eq_right n6, max_eq_right (by linarith)]
  · simp [zTree, curves, zCurve]
  · simp [zRight, curves, zCurve]
  · intro h
    simp [zLeft, curves, zCurve] at h
  · intro cfg hcfg
    refine zTree_contains (rounded_unscale hlu.le hget hb _) ?_ x hcfg
    have hh : (1 : ℝ) / 2 * (8106479329266893 / 9007199254740992) = 8106479329266893 / 9007199254740992 / 2 := by ring
    simp only [unscaleNumF, Bool.false_eq_true, if_false, n1, hh, n2, n3]
    exact le_min (by norm_num) (le_max_right _ _)

/-- `z` between 2⁵² + 2 and 2⁵² + 4 -/
private noncomputable def zFar : Hp ℝ := ⟨"z", .float (2 ^ 52 + 2) (2 ^ 52 + 4) false⟩

/-- **C142** (merged) Also when the values are computed from the vector: between 2⁵² + 2 and 2⁵² + 4 there is one more double, the value of
0.5 and of 0.625. The curve of a sample with 0.625 is in the right leaf only, its configuration in the left leaf only. -/
theorem C142_merged_counterexample : ∃ (z : Hp ℝ) (l u : ℝ), z = ⟨"z", .float l u false⟩ ∧ IsDouble l ∧ IsDouble u ∧ l < u ∧
    ∀ (c : ComputedExp) (sum : List ℝ → ℝ), CorrectlyRoundedExp c → ∃ (p : DT ℝ) (curve : Curve ℝ) (left right : Node ℝ), ValidDT 1 p ∧
      p.possible = [z] ∧ p.numSplits = 1 ∧ curve ∈ curves p.root ∧
      (@dtPartitionM ℝ (roundedMachine c sum) p 1).2 = .ok [right, left] ∧ curve ∈ curves right ∧ curve ∉ curves left ∧
      ∀ cfg : Config ℝ, UnscaledOf (roundedMachine c sum) p curve cfg →
        @containsAllM ℝ (roundedMachine c sum) p.cfg.space left.conds cfg = .ok true ∧
        @containsAllM ℝ (roundedMachine c sum) p.cfg.space right.conds cfg = .ok false := by
  have hlu : (2 : ℝ) ^ 52 + 2 < 2 ^ 52 + 4 := by norm_num
  refine ⟨zFar, 2 ^ 52 + 2, 2 ^ 52 + 4, rfl, ⟨2 ^ 52 + 2, 0, by norm_num, by norm_num⟩, ⟨2 ^ 52 + 4, 0, by norm_num, by norm_num⟩, hlu, ?_⟩
  intro c sum hc
  have hget : (zSpace zFar).get "z" = .ok zFar := by simp [zSpace, ConfigSpace.get, zFar]
  have hb : zFar.numerical? = some (2 ^ 52 + 2, 2 ^ 52 + 4, false) := rfl
  have m1 : c.fl ((2 : ℝ) ^ 52 + 4 - (2 ^ 52 + 2)) = 2 := by
    rw [show (2 : ℝ) ^ 52 + 4 - (2 ^ 52 + 2) = 2 by ring]; exact (hc.fl _).self ⟨2, 0, by norm_num, by norm_num⟩
  have m2 : c.fl (5 / 8 * 2) = 5 / 4 := by
    rw [show (5 / 8 * 2 : ℝ) = 5 / 4 by norm_num]; exact (hc.fl _).self ⟨5, -2, by norm_num, by rw [zpow_neg]; norm_num⟩
  have m3 : c.fl (5 / 4 + (2 ^ 52 + 2)) = 2 ^ 52 + 3 := by
    have h := (hc.fl (5 / 4 + (2 ^ 52 + 2))).eq_of_close (m := 2 ^ 52 + 3) (e := 0) ⟨2 ^ 52 + 3, 0, by norm_num, rfl⟩ (by norm_num)
      (by rw [abs_lt]; norm_num)
    rw [h]
    norm_num
  have m4 : c.fl (1 / 2 * 2) = 1 := by
    rw [show (1 / 2 * 2 : ℝ) = 1 by norm_num]; exact (hc.fl _).self dOne
  have m5 : c.fl (1 + (2 ^ 52 + 2)) = 2 ^ 52 + 3 := by
    rw [show (1 + (2 ^ 52 + 2) : ℝ) = 2 ^ 52 + 3 by ring]; exact (hc.fl _).self ⟨2 ^ 52 + 3, 0, by norm_num, by norm_num⟩
  refine ⟨zTree zFar (5 / 8), zCurve (5 / 8), zLeft zFar, zRight zFar (5 / 8), zTree_valid rfl _, rfl, rfl, ?_, zTree_leaves hc sum rfl (by norm_num),
    ?_, ?_, ?_⟩
  · simp [zTree, curves, zCurve]
  · simp [zRight, curves, zCurve]
  · intro h
    simp [zLeft, curves, zCurve] at h
  · intro cfg hcfg
    obtain ⟨x, v, hx, hv, hcv⟩ := hcfg zFar (by simp [zTree]) 1 ⟨zFar, rfl, rfl⟩
    obtain rfl : (5 / 8 : ℝ) = x := by simpa [valueAt, zCurve] using hx
    have hv' := hv
    rw [show (zTree zFar (5 / 8)).cfg.space = zSpace zFar from rfl, show zFar.name = "z" from rfl, rounded_unscale hlu.le hget hb] at hv'
    have hv'' := Except.ok.inj hv'
    refine zTree_contains (rounded_unscale hlu.le hget hb _) ?_ _ hcv
    rw [← hv'']
    simp only [unscaleNumF, Bool.false_eq_true, if_false, m1, m2, m3, m4, m5]
    exact le_rfl

/-- non-trivial case: `z` between 0 and 4 and the sample 0.75; the threshold is not merged, and the configuration with `z = 3` is in the
right leaf, with the curve -/
example {c : ComputedExp} (hc : CorrectlyRoundedExp c) (sum : List ℝ → ℝ) {cfg : Config ℝ} (hcfg : cfg.get? "z" = some (.num 3)) :
    @dtIncumbentRegionM ℝ (roundedMachine c sum) (@dtPartitionM ℝ (roundedMachine c sum) (zTree ⟨"z", .float 0 4 false⟩ (3 / 4)) 1).1 cfg =
      .ok (some (zRight ⟨"z", .float 0 4 false⟩ (3 / 4))) := by
  obtain ⟨z, hz⟩ : ∃ z : Hp ℝ, z = ⟨"z", .float 0 4 false⟩ := ⟨_, rfl⟩
  rw [← hz]
  have hname : z.name = "z" := by rw [hz]
  have hget : (zSpace z).get z.name = .ok z := by simp [zSpace, ConfigSpace.get, hname]
  have hb : z.numerical? = some (0, 4, false) := by rw [hz]; rfl
  have hval : ∀ f x, IsFeature (zTree z (3 / 4)).cfg.space z f → valueAt f (zCurve (3 / 4)) = some x → x = 3 / 4 := by
    intro f x hf hx
    obtain rfl : f = 1 := idx_unique (zTree_valid hname (3 / 4)).wf hf ⟨z, rfl, rfl⟩
    simp only [valueAt, zCurve, List.getElem?_cons_zero, List.getElem?_cons_succ, Option.bind_some, Option.some.injEq] at hx
    exact hx.symm
  have hun : @unscaleFloatM ℝ (roundedMachine c sum) (3 / 4) (zSpace z) z.name = .ok 3 := by
    rw [rounded_unscale (by norm_num) hget hb]
    have q1 : c.fl 4 = 4 := (hc.fl _).self ⟨4, 0, by norm_num, by norm_num⟩
    have q2 : c.fl 3 = 3 := (hc.fl _).self ⟨3, 0, by norm_num, by norm_num⟩
    simp only [unscaleNumF, Bool.false_eq_true, if_false, sub_zero, add_zero, q1]
    rw [show (3 / 4 * 4 : ℝ) = 3 by norm_num, q2, q2]
    norm_num
  obtain ⟨leaves, h1, -, h2⟩ := C142_leaf_partial hc (sum := sum) (zTree_valid hname (3 / 4))
    (by intro hp hm; obtain rfl : hp = z := by simpa [zTree] using hm
        exact ⟨0, 4, false, by rw [hz], by norm_num, by simp⟩)
    (d := 1) (by norm_num) (curve := zCurve (3 / 4)) (by simp [zTree, curves, zCurve]) (cfg := cfg)
    (by intro hp hm f hf; obtain rfl : hp = z := by simpa [zTree] using hm
        obtain rfl : f = 1 := idx_unique (zTree_valid hname (3 / 4)).wf hf ⟨hp, rfl, rfl⟩
        exact ⟨3 / 4, 3, rfl, hun, by rw [hname]; exact hcfg⟩)
  rw [zTree_leaves hc sum hname (by norm_num)] at h1
  obtain rfl := Except.ok.inj h1
  obtain ⟨i, leaf, h3, h4, h5⟩ := h2 (by
    intro hp hm f x hf hx t ht htx
    obtain rfl : hp = z := by simpa [zTree] using hm
    obtain rfl := hval f x hf hx
    rw [show (zTree hp (3 / 4)).numSplits = 1 from rfl, one_split hc sum, List.mem_singleton] at ht
    subst ht
    obtain ⟨w, v, e1, e2, e3⟩ := C142_spacing hc (sum := sum) (t := 1 / 2) (x := 3 / 4) (by norm_num) hget hb (by norm_num) (by norm_num) (by
      rw [zpow_neg]; norm_num)
    change @unscaleFloatM ℝ (roundedMachine c sum) _ (zSpace hp) hp.name ≠ @unscaleFloatM ℝ (roundedMachine c sum) _ (zSpace hp) hp.name
    rw [e1, e2]
    intro e
    have := Except.ok.inj e
    linarith)
  rw [h4]
  have hi := (h5 0 _ rfl).1.1 (by simp [zRight, curves, zCurve])
  subst hi
  rw [← Option.some.inj h3]

end example_

end PyPDP
