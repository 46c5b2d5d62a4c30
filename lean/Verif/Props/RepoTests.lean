/-
The assertions of the repository's own tests (folder tests/), as statements about the model: evidence that the model computes what the authors expect. The theorems
bear the names of the tests. DESIGN.md lists which test corresponds to which general theorem.
-/
import Verif.Props.GridPoints
import Verif.Props.PdIntegral
import Verif.Props.SyntheticCalls
import Verif.Props.ConditionText
import Verif.Props.Unscale

namespace PyPDP.RepoTests
open PyPDP PyPDP.Spec
variable {K G : Type}

/-- `Square.for_n_dimensions(d).config_space` -/
private def cube (d : Nat) : ConfigSpace ℝ := (List.range d).map fun i => ⟨"x" ++ toString (i + 1), .float (-5) 5 false⟩

private theorem cube_float (d : Nat) : ∀ hp ∈ cube d, ∃ l u b, hp.kind = .float l u b ∧ l < u ∧ (b = true → 0 < l) := by
  intro hp h
  obtain ⟨i, -, rfl⟩ := List.mem_map.1 h
  exact ⟨-5, 5, false, rfl, by norm_num, by simp⟩

private theorem cube_length (d : Nat) : (cube d).length = d := by simp [cube]

private theorem cube_ne {d : Nat} (h : d ≠ 0) : cube d ≠ [] := fun e => h (by rw [← cube_length d, e]; rfl)

/-! ### tests/sampler/test_grid_sampler.py -/

section grid
variable (o : Objective (List (Val ℝ)) K) (hno : ∀ t c, o.raises t c = none) (intGrid : Hp ℝ → Nat → List (Val ℝ))
  (shuffle : G → List (List (Val ℝ)) → List (List (Val ℝ)) × G) (hperm : ∀ r l, (shuffle r l).1.Perm l) (r : G)

open Classical in
/-- the state of a new `GridSampler` after `sample(n)` -/
private noncomputable def after (o : Objective (List (Val ℝ)) K) (intGrid : Hp ℝ → Nat → List (Val ℝ))
    (shuffle : G → List (List (Val ℝ)) → List (List (Val ℝ)) × G) (r : G) (d n : Nat) :=
  (gridSampler o (spaceGridEnv intGrid (cube d) (ceilRoot d) shuffle) ⟨[], [], [], 0, ⟨none, r⟩⟩ n).1

include hno hperm in
private theorem after_first {d n : Nat} (hd : d ≠ 0) (hn : 1 ≤ n) (h : n ≤ ceilRoot d n ^ d) :
    (after o intGrid shuffle r d n).configs.length = n ∧ ∃ left, (after o intGrid shuffle r d n).extra.grid = some left ∧ left.length = ceilRoot d n ^ d - n ∧
      ((after o intGrid shuffle r d n).configs ++ left).Perm (generateGrid intGrid (cube d) (ceilRoot d n)) := by
  have h := C27_first_call o hno intGrid (cube d) (cube_float d) (cube_ne hd) (ceilRoot d) shuffle hperm r n hn (by rwa [cube_length])
  obtain ⟨-, h1, ⟨left, h2, h4, h3⟩, -⟩ := h
  rw [cube_length] at h3
  exact ⟨h1, left, h2, h3, h4⟩

include hno hperm in
theorem test_sample_2D_single_point :
    (after o intGrid shuffle r 2 1).configs.length = 1 ∧ (after o intGrid shuffle r 2 1).extra.grid = some [] := by
  have e : ceilRoot 2 1 = 1 := by decide
  obtain ⟨h1, left, h2, h3, -⟩ := after_first o hno intGrid shuffle hperm r (d := 2) (n := 1) (by norm_num) le_rfl (by rw [e]; norm_num)
  rw [e] at h3
  exact ⟨h1, by rw [h2, List.length_eq_zero_iff.1 h3]⟩

include hno hperm in
theorem test_sample_2D_3x3_grid :
    (after o intGrid shuffle r 2 9).configs.length = 9 ∧ (after o intGrid shuffle r 2 9).extra.grid = some [] ∧
    ∀ c, c ∈ (after o intGrid shuffle r 2 9).configs ↔
      c ∈ ([(-5, -5), (-5, 5), (5, 5), (5, -5), (0, 0), (-5, 0), (5, 0), (0, -5), (0, 5)].map fun p : ℝ × ℝ => [Val.num p.1, Val.num p.2]) := by
  have e : ceilRoot 2 9 = 3 := by decide
  obtain ⟨h1, left, h2, h3, h4⟩ := after_first o hno intGrid shuffle hperm r (d := 2) (n := 9) (by norm_num) (by norm_num) (by rw [e]; norm_num)
  rw [e] at h3 h4
  rw [List.length_eq_zero_iff.1 h3] at h2 h4
  refine ⟨h1, h2, fun c => ?_⟩
  rw [List.append_nil] at h4
  rw [h4.mem_iff]
  have e1 : linspace (-5 : ℝ) 5 3 = [-5, 0, 5] := by
    simp only [linspace, List.range_succ, List.range_zero]
    norm_num
  simp only [generateGrid, cube, List.range_succ, List.range_zero, List.nil_append, List.cons_append, List.map_cons, List.map_nil, axisGrid, e1, cartesian]
  simp
  tauto

include hno hperm in
theorem test_sample_3D_big_grid :
    (after o intGrid shuffle r 3 240).configs.length = 240 ∧ ∃ left, (after o intGrid shuffle r 3 240).extra.grid = some left ∧ left.length = 103 := by
  have e : ceilRoot 3 240 = 7 := by decide +kernel
  obtain ⟨h1, left, h2, h3, -⟩ := after_first o hno intGrid shuffle hperm r (d := 3) (n := 240) (by norm_num) (by norm_num) (by rw [e]; norm_num)
  rw [e] at h3
  exact ⟨h1, left, h2, by omega⟩

end grid

/-! ### tests/utils/test_utils.py -/

theorem test_unscale_categorical : unscale DType.int (.d2 [[0], [2], [1], [3]]) [(⟨"x", .categorical ["A", "B", "C", "D"]⟩ : Hp ℝ)] =
    .ok (.d2 [[.str "A"], [.str "C"], [.str "B"], [.str "D"]]) := by
  simp [unscale, unscaleLoop, updArr, NdArr.map, zipWithPy, updRow, unscaleEntry, DType.int, choiceAt, pyGet]

/-! ### tests/algorithms/partitioner/test_split_condition.py -/

section condition
variable (fmt : ℝ → String) (cs : ConfigSpace ℝ) (hcs : Declares cs "x1" (-5) 5 false)

include hcs in
theorem test_float_value (h3 : fmt 3 = "3.0") :
    ∃ c, mkCond cs ⟨"x1", .float (-5) 5 false⟩ (some (.num 3)) none (some true) = .ok c ∧ c.nval = .flt 0.8 ∧ condValue cs c = .ok (.flt 3) ∧
      condStr fmt cs c = .ok "SplitCondition(x1 <= 3.0)" ∧
      ∀ cfg, (cfg.get? "x1" = some (.num (-1)) → isSatisfied cs c cfg = .ok true) ∧ (cfg.get? "x1" = some (.num 3) → isSatisfied cs c cfg = .ok true) ∧
        (cfg.get? "x1" = some (.num 5) → isSatisfied cs c cfg = .ok false) := by
  obtain ⟨c, e1, e2, e3⟩ := C145_value fmt (hp := ⟨"x1", .float (-5) 5 false⟩) hcs (v := 3) (by norm_num) (by norm_num) true
  obtain ⟨c', f1, f2, f3, f4, f5⟩ := C60_value (hp := ⟨"x1", .float (-5) 5 false⟩) hcs (v := 3) (by norm_num) (by norm_num) true
  obtain rfl : c = c' := Except.ok.inj (e1.symm.trans f1)
  have key : ∀ (cfg : Config ℝ) x, cfg.get? "x1" = some (.num x) → isSatisfied cs c cfg = .ok (decide (x ≤ 3)) := by
    intro cfg x hx
    obtain ⟨r, g1, g2⟩ := e3 cfg x hx
    rw [g1]
    simp only [if_true] at g2
    rw [← Bool.decide_coe r, decide_eq_decide.2 g2]
  refine ⟨c, e1, ?_, f2, ?_, fun cfg => ⟨fun h => ?_, fun h => ?_, fun h => ?_⟩⟩
  · have hs := scaleFloat_interpolate hcs (t := 0.8) (by norm_num) (by norm_num)
    have hi : interpolate (-5) 5 false 0.8 = 3 := by norm_num [interpolate]
    rw [hi] at hs
    simp only [mkCond, scaleArg, hs, Py.ok_bind, checkCond] at e1
    rw [← Except.ok.inj e1]
  · rw [e2, h3]; decide
  all_goals rw [key cfg _ h]; norm_num

include hcs in
theorem test_normalized_value (h1 : fmt (-1) = "-1.0") :
    ∃ c, mkCond cs ⟨"x1", .float (-5) 5 false⟩ none (some (.flt 0.4)) (some false) = .ok c ∧ c.nval = .flt 0.4 ∧ condValue cs c = .ok (.flt (-1)) ∧
      condStr fmt cs c = .ok "SplitCondition(x1 > -1.0)" ∧
      ∀ cfg, (cfg.get? "x1" = some (.num 3) → isSatisfied cs c cfg = .ok true) ∧ (cfg.get? "x1" = some (.num 0) → isSatisfied cs c cfg = .ok true) ∧
        (cfg.get? "x1" = some (.num (-1)) → isSatisfied cs c cfg = .ok false) ∧ (cfg.get? "x1" = some (.num (-5)) → isSatisfied cs c cfg = .ok false) := by
  obtain ⟨v, e1, -, -, e2, e3⟩ := C145_normalized fmt (hp := ⟨"x1", .float (-5) 5 false⟩) hcs (t := 0.4) (by norm_num) (by norm_num) false
  have hv : v = -1 := by rw [e2]; norm_num [interpolate]
  have hu := C01_unscale_is_interpolation hcs (t := 0.4) (by norm_num) (by norm_num)
  rw [← e2, hv] at hu
  rw [hv] at e1 e3
  have key : ∀ (cfg : Config ℝ) x, cfg.get? "x1" = some (.num x) →
      isSatisfied cs ⟨⟨"x1", .float (-5) 5 false⟩, .flt 0.4, some false⟩ cfg = .ok (decide (-1 < x)) := by
    intro cfg x hx
    obtain ⟨r, g1, g2⟩ := e3 cfg x hx
    rw [g1]
    simp only [Bool.false_eq_true, if_false] at g2
    rw [← Bool.decide_coe r, decide_eq_decide.2 g2]
  refine ⟨⟨⟨"x1", .float (-5) 5 false⟩, .flt 0.4, some false⟩, rfl, rfl, ?_, ?_, fun cfg => ⟨fun h => ?_, fun h => ?_, fun h => ?_, fun h => ?_⟩⟩
  · simp only [condValue, hu]; rfl
  · rw [e1, h1]; decide
  all_goals rw [key cfg _ h]; norm_num

end condition

/-! ### tests/blackbox_functions/test_synthetic.py -/

/-- `assertAlmostEqual(a, b)`: equal after rounding the difference to seven places -/
def AlmostEqual (a b : ℝ) : Prop := |a - b| ≤ 0.5 * 10 ^ (-7 : ℤ)

theorem test_minima {order : SpaceOrder ℝ} (horder : ∀ l, (order l).Perm l) (inv : Hp ℝ → Val ℝ → ℝ) {d : Nat} (hd : d ≤ 10) :
    ∃ f y, SynthClass.styblinskiTang.forN order d none none = .ok f ∧ f.call inv (constantArgs d (-2.90353401818596)) = .ok y ∧
      AlmostEqual y (d * -39.16616570377142) := by
  obtain ⟨cs, h1, h2⟩ := forN_eq horder .styblinskiTang d
  obtain ⟨c1, c2, c3⟩ := h2.constantArgs (a := -2.90353401818596) (by norm_num [SynthClass.defaultLower]) (by norm_num [SynthClass.defaultUpper])
  obtain ⟨ρ, e1, -, e3⟩ := h2.call inv (fun c c' => SynthClass.styblinskiTang.value_congr cs) c1 c2
  refine ⟨_, _, h1, e1.trans (C16_additive cs ρ).1, ?_⟩
  have hρ : ∀ hp ∈ cs, ρ hp.name = -2.90353401818596 := fun hp hm => (e3 _).1 c3 _ (h2.1.mem_iff.1 (List.mem_map_of_mem hm))
  have hs : (cs.map fun hp => ((ρ hp.name) ^ 4 - 16 * (ρ hp.name) ^ 2 + 5 * (ρ hp.name)) / 2) =
      List.replicate d (((-2.90353401818596 : ℝ) ^ 4 - 16 * (-2.90353401818596) ^ 2 + 5 * (-2.90353401818596)) / 2) := by
    rw [← h2.length, List.eq_replicate_iff]
    refine ⟨by simp, fun b hb => ?_⟩
    obtain ⟨hp, hm, rfl⟩ := List.mem_map.1 hb
    rw [hρ hp hm]
  rw [hs, List.sum_replicate, nsmul_eq_mul]
  unfold AlmostEqual
  rw [← mul_sub, abs_mul, Nat.abs_cast]
  have hd' : (d : ℝ) ≤ 10 := by exact_mod_cast hd
  have : |(((-2.90353401818596 : ℝ) ^ 4 - 16 * (-2.90353401818596) ^ 2 + 5 * (-2.90353401818596)) / 2) - -39.16616570377142| ≤ 10 ^ (-9 : ℤ) := by
    rw [abs_le]; norm_num
  calc (d : ℝ) * _ ≤ 10 * 10 ^ (-9 : ℤ) := mul_le_mul hd' this (abs_nonneg _) (by norm_num)
    _ ≤ _ := by norm_num

/-- The polynomial that the tests call `StyblinskiTang.for_n_dimensions(1)` -/
private noncomputable def st (x : ℝ) : ℝ := (x ^ 4 - 16 * x ^ 2 + 5 * x) / 2

/-- the closed form that `test_integral_1d` writes out -/
private noncomputable def int1D (x1 lower2 upper2 lower3 upper3 : ℝ) : ℝ :=
  let F := styblinskiTangIntegral
  let term1 := st x1 * upper2 * upper3 - st x1 * upper2 * lower3 - st x1 * lower2 * upper3 + st x1 * lower2 * lower3
  let term2 := F upper2 * upper3 - F upper2 * lower3 - F lower2 * upper3 + F lower2 * lower3
  let term3 := F upper3 * upper2 - F upper3 * lower2 - F lower3 * upper2 + F lower3 * lower2
  (term1 + term2 + term3) / ((upper2 - lower2) * (upper3 - lower3))

/-- the closed form that `test_integral_2d_x3` and `test_integral_2d_x2` write out -/
private noncomputable def int2D (a b lower upper : ℝ) : ℝ :=
  ((st a + st b) * upper + styblinskiTangIntegral upper - ((st a + st b) * lower + styblinskiTangIntegral lower)) / (upper - lower)

private theorem cube3 : cube 3 = [⟨"x1", .float (-5) 5 false⟩, ⟨"x2", .float (-5) 5 false⟩, ⟨"x3", .float (-5) 5 false⟩] := by
  have n1 : "x" ++ toString (0 + 1) = "x1" := by decide
  have n2 : "x" ++ toString (1 + 1) = "x2" := by decide
  have n3 : "x" ++ toString (2 + 1) = "x3" := by decide
  simp only [cube, List.range_succ, List.range_zero, List.nil_append, List.cons_append, List.map_cons, List.map_nil, n1, n2, n3]

/-- for every `x1`, not only for 100 of them -/
theorem test_integral_1d (ρ : Assignment) : ∃ f offset, styblinskiTangPdIntegral id (cube 3) [.name "x2", .name "x3"] = .ok (f, offset) ∧
    f.value (assignConfig f.cs ρ) = .ok (int1D (ρ "x1") (-5) 5 (-5) 5) := by
  rw [cube3]
  refine ⟨_, _, rfl, ?_⟩
  show (do return (← styblinskiTangValue [⟨"x1", .float (-5) 5 false⟩] (assignConfig [⟨"x1", .float (-5) 5 false⟩] ρ)) + _) = _
  rw [st_value ρ fun _ h => h, Py.ok_bind, Py.pure_eq]
  simp only [List.map_cons, List.map_nil, List.sum_cons, List.sum_nil, stTerm, int1D, st]
  congr 1
  simp only [List.reverse_cons, List.reverse_nil, List.nil_append, List.cons_append, List.sum_cons, List.sum_nil]
  ring

theorem test_integral_2d_x3 (ρ : Assignment) : ∃ f offset, styblinskiTangPdIntegral id (cube 3) [.name "x3"] = .ok (f, offset) ∧
    f.value (assignConfig f.cs ρ) = .ok (int2D (ρ "x1") (ρ "x2") (-5) 5) := by
  rw [cube3]
  refine ⟨_, _, rfl, ?_⟩
  show (do return (← styblinskiTangValue [⟨"x1", .float (-5) 5 false⟩, ⟨"x2", .float (-5) 5 false⟩]
    (assignConfig [⟨"x1", .float (-5) 5 false⟩, ⟨"x2", .float (-5) 5 false⟩] ρ)) + _) = _
  rw [st_value ρ fun _ h => h, Py.ok_bind, Py.pure_eq]
  simp only [List.map_cons, List.map_nil, List.sum_cons, List.sum_nil, stTerm, int2D, st]
  congr 1
  simp only [List.reverse_cons, List.reverse_nil, List.nil_append, List.sum_cons, List.sum_nil]
  ring

theorem test_integral_2d_x2 (ρ : Assignment) : ∃ f offset, styblinskiTangPdIntegral id (cube 3) [.name "x2"] = .ok (f, offset) ∧
    f.value (assignConfig f.cs ρ) = .ok (int2D (ρ "x1") (ρ "x3") (-5) 5) := by
  rw [cube3]
  refine ⟨_, _, rfl, ?_⟩
  show (do return (← styblinskiTangValue [⟨"x1", .float (-5) 5 false⟩, ⟨"x3", .float (-5) 5 false⟩]
    (assignConfig [⟨"x1", .float (-5) 5 false⟩, ⟨"x3", .float (-5) 5 false⟩] ρ)) + _) = _
  rw [st_value ρ fun _ h => h, Py.ok_bind, Py.pure_eq]
  simp only [List.map_cons, List.map_nil, List.sum_cons, List.sum_nil, stTerm, int2D, st]
  congr 1
  simp only [List.reverse_cons, List.reverse_nil, List.nil_append, List.sum_cons, List.sum_nil]
  ring

/-- sums of the polynomial over evenly spaced points -/
private theorem sum_st (x h : ℝ) (k : Nat) : ∑ i ∈ Finset.range k, st (x + i * h) =
    (x ^ 4 * k + 4 * x ^ 3 * h * (k * (k - 1) / 2) + 6 * x ^ 2 * h ^ 2 * (k * (k - 1) * (2 * k - 1) / 6) + 4 * x * h ^ 3 * (k * (k - 1) / 2) ^ 2 +
      h ^ 4 * (k * (k - 1) * (2 * k - 1) * (3 * k ^ 2 - 3 * k - 1) / 30) -
      16 * (x ^ 2 * k + 2 * x * h * (k * (k - 1) / 2) + h ^ 2 * (k * (k - 1) * (2 * k - 1) / 6)) + 5 * (x * k + h * (k * (k - 1) / 2))) / 2 := by
  induction k with
  | zero => simp
  | succ k ih => rw [Finset.sum_range_succ, ih, st]; push_cast; ring

/-- the numeric integral over 5000 rectangles agrees with both closed forms up to three places -/
theorem test_simple_integral_numerical :
    ∃ f offset y, styblinskiTangPdIntegral id [⟨"x1", .float (-5) 5 false⟩] [.name "x1"] = .ok (f, offset) ∧ f.value (assignConfig f.cs fun _ => 0) = .ok y ∧
      |(∑ i ∈ Finset.range 5000, st (-5 + ((i : ℝ) + 0.5) * (10 / 5000))) * (10 / 5000) - y * 10| ≤ 0.0005 ∧
      |(∑ i ∈ Finset.range 5000, st (-5 + ((i : ℝ) + 0.5) * (10 / 5000))) * (10 / 5000) - (styblinskiTangIntegral 5 - styblinskiTangIntegral (-5))| ≤ 0.0005 := by
  have e : ∀ i : Nat, -5 + ((i : ℝ) + 0.5) * (10 / 5000) = -4.999 + i * 0.002 := fun i => by ring
  have hs : ∀ n : Nat, (n : ℝ) = 5000 → ∑ i ∈ Finset.range n, st (-5 + ((i : ℝ) + 0.5) * (10 / 5000)) = -41666723333331 / 2000000000 := by
    intro n hn
    simp only [e]
    rw [sum_st, hn]
    norm_num
  rw [hs 5000 (by norm_num)]
  refine ⟨_, _, (styblinskiTangIntegral 5 - styblinskiTangIntegral (-5)) / 10, rfl, ?_, ?_, ?_⟩
  · show (do return (← styblinskiTangValue [] (assignConfig [] fun _ => 0)) + _) = _
    rw [st_value _ fun _ h => h, Py.ok_bind, Py.pure_eq]
    simp only [List.map_nil, List.sum_nil, List.reverse_cons, List.reverse_nil, List.nil_append, List.sum_cons]
    congr 1
    ring
  · rw [abs_le]
    norm_num [styblinskiTangIntegral]
  · rw [abs_le]
    norm_num [styblinskiTangIntegral]

/-! ### tests/blackbox_functions/test_synthetic.py: TestConfigspaceND (with rational bounds) -/

theorem test_same_bounds : ∃ cs, configSpaceNd (K := ℚ) id 4 (.scalar (-4)) (.scalar 5) (.scalar false) = .ok cs ∧ ∀ hp ∈ cs, hp.kind = .float (-4) 5 false := by
  refine ⟨[⟨"x1", .float (-4) 5 false⟩, ⟨"x2", .float (-4) 5 false⟩, ⟨"x3", .float (-4) 5 false⟩, ⟨"x4", .float (-4) 5 false⟩], by decide +kernel, by decide +kernel⟩

theorem test_prefix : (∃ cs, configSpaceNd (K := ℚ) id 4 (.scalar (-5)) (.scalar 5) (.scalar false) = .ok cs ∧ cs.map Hp.name = ["x1", "x2", "x3", "x4"]) ∧
    ∃ cs, configSpaceNd (K := ℚ) id 4 (.scalar (-5)) (.scalar 5) (.scalar false) "other_prefix_" = .ok cs ∧
      cs.map Hp.name = ["other_prefix_1", "other_prefix_2", "other_prefix_3", "other_prefix_4"] := by
  constructor
  · exact ⟨[⟨"x1", .float (-5) 5 false⟩, ⟨"x2", .float (-5) 5 false⟩, ⟨"x3", .float (-5) 5 false⟩, ⟨"x4", .float (-5) 5 false⟩], by decide +kernel, by decide +kernel⟩
  · exact ⟨[⟨"other_prefix_1", .float (-5) 5 false⟩, ⟨"other_prefix_2", .float (-5) 5 false⟩, ⟨"other_prefix_3", .float (-5) 5 false⟩,
      ⟨"other_prefix_4", .float (-5) 5 false⟩], by decide +kernel, by decide +kernel⟩

theorem test_different_bounds : configSpaceNd (K := ℚ) id 3 (.iter [0, -1.5, -2]) (.iter [5, 20, 32.3]) (.scalar false) =
    .ok [⟨"x1", .float 0 5 false⟩, ⟨"x2", .float (-1.5) 20 false⟩, ⟨"x3", .float (-2) 32.3 false⟩] := by
  decide +kernel

theorem test_constants : configSpaceNd (K := ℚ) id 3 (.iter [0, 5, -2.32]) (.iter [0, 5, -2.32]) (.scalar false) =
    .ok [⟨"x1", .constant (.num 0)⟩, ⟨"x2", .constant (.num 5)⟩, ⟨"x3", .constant (.num (-2.32))⟩] := by
  decide +kernel

end PyPDP.RepoTests
