/-
C201: the line of a PDP plot of random samples against the partial dependence of the blackbox function, with all three errors.
-/
import Verif.Spec.WholeError
import Verif.Props.Enough
import Verif.Props.IceLines

namespace PyPDP
open Spec MeasureTheory ProbabilityTheory
variable {Ω : Type} [MeasurableSpace Ω]

/-- setting one selected hyperparameter is setting its column -/
theorem atPoint_set {space : ConfigSpace ℝ} (hwf : space.WF) {hp : Hp ℝ} (hm : hp ∈ space) {f : Nat} (hf : IsFeature space hp f) {r : List ℝ} (hr : r.length = space.length) (t : ℝ) :
    atPoint space [hp] [t] r = r.set f t := by
  have hvc : ValidCfg (⟨space, [hp], [], 0, 1, 1, false, fun _ => .ok ([], [])⟩ : IceCfg ℝ) := ⟨hwf, by simpa using hm, by simp, by simp, by simp, rfl, rfl⟩
  have := assignRow_atPoint hvc (idx := [f]) ((C06_positions hwf [hp] [f]).2 (.cons hf .nil)) (t := [t]) hr rfl
  rw [← this]
  rfl

theorem UnitRow_set {F : Nat} {r : List ℝ} (h : UnitRow F r) (f : Nat) {t : ℝ} (ht : t ∈ Set.Icc (0 : ℝ) 1) : UnitRow F (r.set f t) := by
  refine ⟨by rw [List.length_set]; exact h.1, fun e he => ?_⟩
  rcases List.mem_or_eq_of_mem_set he with h1 | rfl
  · exact h.2 e h1
  · exact ht

/-- **C201** All errors of a PDP plot of one hyperparameter at once. Let `m` samples be drawn independently from one distribution of normalised vectors. Let the surrogate be off from the blackbox
function `h` by at most `B` predicted standard deviations, its means be in a range of width `w` and change by at most `C` times the change of the normalised hyperparameter. Then, with
probability at least `1 - 2 n exp(-2 m ε² / w²)` (`n` grid points), the plot consists of one line that is over every value between the bounds within `ε + C / (2 (n - 1))` plus `B` times the
expected standard deviation of the expectation of the blackbox function with the hyperparameter set to this value. -/
theorem C201_plot {P : Measure Ω} [IsProbabilityMeasure P] {space : ConfigSpace ℝ} (hwf : space.WF) (hdecl : ∀ hp ∈ space, ∃ l u g, Declares space hp.name l u g) {predict : Predict ℝ}
    {mu sd h : List ℝ → ℝ} (hrow : RowWise space.length predict mu sd) {sel : Selection ℝ} {hp : Hp ℝ} (hsel : convertHyperparameters sel space = .ok [hp]) (hmem : hp ∈ space) {l u : ℝ}
    {g : Bool} (hk : hp.kind = .float l u g ∨ hp.kind = .integer l u g) (hlu : l < u) (hg : g = true → 0 < l) {f : Nat} (hf : IsFeature space hp f) {n : Nat} (hn : 2 ≤ n)
    {ax ax' : Ax ℝ} (hax : checkAndSetAxis [hp] true "Prediction" ax = (ax', .ok ())) (hlin : g = false → ax.xlog = false) (color : String)
    {X : ℕ → Ω → Fin space.length → ℝ} (hX : IsRandomSample P X) (hind : iIndepFun X P) (hunit : ∀ᵐ ω ∂P, UnitRow space.length (List.ofFn (X 0 ω)))
    (mmu : Measurable fun x : Fin space.length → ℝ => mu (List.ofFn x)) (msd : Measurable fun x : Fin space.length → ℝ => sd (List.ofFn x))
    (mh : Measurable fun x : Fin space.length → ℝ => h (List.ofFn x)) {a w B C c : ℝ} (hw : 0 < w) (hB : 0 ≤ B)
    (hrange : ∀ r, UnitRow space.length r → a ≤ mu r ∧ mu r ≤ a + w) (hsd : ∀ r, UnitRow space.length r → |sd r| ≤ c)
    (hcov : ∀ r, UnitRow space.length r → |mu r - h r| ≤ B * sd r)
    (hC : ∀ r, UnitRow space.length r → ∀ t ∈ Set.Icc (0 : ℝ) 1, ∀ t' ∈ Set.Icc (0 : ℝ) 1, |mu (r.set f t) - mu (r.set f t')| ≤ C * |t - t'|)
    {m : Nat} (hm : 1 ≤ m) {ε : ℝ} (hε : 0 ≤ ε) :
    1 - 2 * n * Real.exp (-2 * m * ε ^ 2 / w ^ 2) ≤ P.real {ω | ∃ s s' xs ys, pdpInit space predict sel (firstSamples X m ω) n = .ok s ∧
      pdpPlotValues color s ax = (s', ax'.draw [.line color xs ys], .ok ()) ∧ ∀ t ∈ Set.Icc (0 : ℝ) 1, (∃ y, OnLine ax'.xlog xs ys (interpolate l u g t) y) ∧
        ∀ y, OnLine ax'.xlog xs ys (interpolate l u g t) y → |y - ∫ ω', h ((List.ofFn (X 0 ω')).set f t) ∂P| ≤
          ε + C / (2 * ((n : ℝ) - 1)) + B * ∫ ω', sd ((List.ofFn (X 0 ω')).set f t) ∂P} := by
  have hn1 : (0 : ℝ) < (n : ℝ) - 1 := by
    have : (2 : ℝ) ≤ n := by exact_mod_cast hn
    linarith
  have hset : ∀ t (x : Fin space.length → ℝ), atPoint space [hp] [t] (List.ofFn x) = (List.ofFn x).set f t := fun t x => atPoint_set hwf hmem hf (by simp) t
  -- all samples are normalised, almost surely
  have hall : ∀ᵐ ω ∂P, ∀ i, UnitRow space.length (List.ofFn (X i ω)) := by
    rw [ae_all_iff]
    intro i
    have hms : MeasurableSet {x : Fin space.length → ℝ | ∀ k, x k ∈ Set.Icc (0 : ℝ) 1} := by
      have : {x : Fin space.length → ℝ | ∀ k, x k ∈ Set.Icc (0 : ℝ) 1} = Set.pi Set.univ fun _ => Set.Icc (0 : ℝ) 1 := by ext x; simp only [Set.mem_ofPred_eq, Set.mem_pi, Set.mem_univ, true_imp_iff]
      rw [this]
      exact MeasurableSet.univ_pi fun _ => measurableSet_Icc
    have hiff : ∀ x : Fin space.length → ℝ, UnitRow space.length (List.ofFn x) ↔ ∀ k, x k ∈ Set.Icc (0 : ℝ) 1 := by
      intro x
      simp only [UnitRow, List.length_ofFn, true_and, List.mem_ofFn, Set.mem_Icc]
      exact ⟨fun h k => h _ ⟨k, rfl⟩, by rintro h _ ⟨k, rfl⟩; exact h k⟩
    simp only [hiff] at hunit ⊢
    have h0 := (ae_map_iff (hX.meas 0).aemeasurable hms).2 hunit
    rw [← hX.ident i] at h0
    exact (ae_map_iff (hX.meas i).aemeasurable hms).1 h0
  -- integrals
  have hmeas : ∀ {q : List ℝ → ℝ}, (Measurable fun x : Fin space.length → ℝ => q (List.ofFn x)) → ∀ t, Measurable fun ω => q ((List.ofFn (X 0 ω)).set f t) := by
    intro q hq t
    have := (hX.values [hp] [t] hq).1 0
    simpa only [hset] using this
  have hint : ∀ {q : List ℝ → ℝ}, (Measurable fun x : Fin space.length → ℝ => q (List.ofFn x)) → ∀ {b : ℝ}, (∀ r, UnitRow space.length r → |q r| ≤ b) → ∀ t ∈ Set.Icc (0 : ℝ) 1,
      Integrable (fun ω => q ((List.ofFn (X 0 ω)).set f t)) P := by
    intro q hq b hb t ht
    refine Integrable.of_bound (hmeas hq t).aestronglyMeasurable b ?_
    filter_upwards [hunit] with ω hω
    exact hb _ (UnitRow_set hω f ht)
  have bmu : ∀ r, UnitRow space.length r → |mu r| ≤ |a| + w := by
    intro r hr
    have h1 := hrange r hr
    rw [abs_le]
    constructor <;> linarith [neg_abs_le a, le_abs_self a]
  have bh : ∀ r, UnitRow space.length r → |h r| ≤ |a| + w + B * c := by
    intro r hr
    have h1 := abs_le.1 (hcov r hr)
    have h2 := abs_le.1 (bmu r hr)
    have h3 := mul_le_mul_of_nonneg_left ((le_abs_self _).trans (hsd r hr)) hB
    rw [abs_le]
    constructor <;> linarith
  obtain ⟨M, hM⟩ : ∃ M : ℝ → ℝ, M = fun t => ∫ ω', mu ((List.ofFn (X 0 ω')).set f t) ∂P := ⟨_, rfl⟩
  have hMt : ∀ t, M t = ∫ ω', mu ((List.ofFn (X 0 ω')).set f t) ∂P := fun t => by rw [hM]
  have hMC : ∀ t ∈ Set.Icc (0 : ℝ) 1, ∀ t' ∈ Set.Icc (0 : ℝ) 1, |M t - M t'| ≤ C * |t - t'| := by
    intro t ht t' ht'
    rw [hMt, hMt, ← integral_sub (hint mmu bmu t ht) (hint mmu bmu t' ht')]
    have := norm_integral_le_of_norm_le_const (μ := P) (f := fun ω => mu ((List.ofFn (X 0 ω)).set f t) - mu ((List.ofFn (X 0 ω)).set f t')) (C := C * |t - t'|) (by
      filter_upwards [hunit] with ω hω
      exact hC _ hω t ht t' ht')
    simpa using this
  have hMh : ∀ t ∈ Set.Icc (0 : ℝ) 1, |M t - ∫ ω', h ((List.ofFn (X 0 ω')).set f t) ∂P| ≤ B * ∫ ω', sd ((List.ofFn (X 0 ω')).set f t) ∂P := by
    intro t ht
    rw [hMt, ← integral_sub (hint mmu bmu t ht) (hint mh bh t ht), ← integral_const_mul]
    rw [← Real.norm_eq_abs]
    refine norm_integral_le_of_norm_le ((hint msd hsd t ht).const_mul B) ?_
    filter_upwards [hunit] with ω hω
    exact hcov _ (UnitRow_set hω f ht)
  -- the deviations of the averages
  obtain ⟨grid, hgdef⟩ : ∃ grid : List (List ℝ), grid = (List.range n).map fun i => [gridValue n i] := ⟨_, rfl⟩
  have hgv : ∀ i < n, gridValue n i ∈ Set.Icc (0 : ℝ) 1 := fun i hi => gridValue_unit hi
  have hdev := hX.deviations hind (selected := [hp]) (grid := grid) mmu hw (by
    intro t ht
    rw [hgdef] at ht
    obtain ⟨i, hi, rfl⟩ := List.mem_map.1 ht
    refine ⟨a, ?_⟩
    filter_upwards [hunit] with ω hω
    rw [hset]
    exact hrange _ (UnitRow_set hω f (hgv i (List.mem_range.1 hi)))) hm hε
  have hgl : grid.length = n := by simp [hgdef]
  rw [hgl] at hdev
  have hnull : P.real {ω | ¬ ∀ i, UnitRow space.length (List.ofFn (X i ω))} = 0 := by
    rw [measureReal_def, ae_iff.1 hall, ENNReal.toReal_zero]
  obtain ⟨G, hG⟩ : ∃ G : Set Ω, G = {ω | ∃ s s' xs ys, pdpInit space predict sel (firstSamples X m ω) n = .ok s ∧
    pdpPlotValues color s ax = (s', ax'.draw [.line color xs ys], .ok ()) ∧ ∀ t ∈ Set.Icc (0 : ℝ) 1, (∃ y, OnLine ax'.xlog xs ys (interpolate l u g t) y) ∧
      ∀ y, OnLine ax'.xlog xs ys (interpolate l u g t) y → |y - ∫ ω', h ((List.ofFn (X 0 ω')).set f t) ∂P| ≤
        ε + C / (2 * ((n : ℝ) - 1)) + B * ∫ ω', sd ((List.ofFn (X 0 ω')).set f t) ∂P} := ⟨_, rfl⟩
  rw [← hG]
  have hcover : (Set.univ : Set Ω) ⊆ G ∪ {ω | ∃ t ∈ grid, ε ≤ |(∑ i ∈ Finset.range m, mu (atPoint space [hp] t (List.ofFn (X i ω)))) / m
        - ∫ ω', mu (atPoint space [hp] t (List.ofFn (X 0 ω'))) ∂P|} ∪ {ω | ¬ ∀ i, UnitRow space.length (List.ofFn (X i ω))} := by
    intro ω _
    by_cases hu : ∀ i, UnitRow space.length (List.ofFn (X i ω))
    · left
      by_cases hω : ∃ t ∈ grid, ε ≤ |(∑ i ∈ Finset.range m, mu (atPoint space [hp] t (List.ofFn (X i ω)))) / m
        - ∫ ω', mu (atPoint space [hp] t (List.ofFn (X 0 ω'))) ∂P|
      · exact .inr hω
      · left
        rw [hG]
        obtain ⟨S, hS⟩ : ∃ S, S = firstSamples X m ω := ⟨_, rfl⟩
        have hSu : ∀ r ∈ S, UnitRow space.length r := by
          intro r hr
          rw [hS] at hr
          obtain ⟨i, -, rfl⟩ := List.mem_map.1 hr
          exact hu i
        have hSne : S ≠ [] := by rw [hS, firstSamples, Ne, List.map_eq_nil_iff, List.range_eq_nil]; omega
        have hmean : ∀ q : List ℝ → ℝ, meanOver S q = (∑ i ∈ Finset.range m, q (List.ofFn (X i ω))) / m := by
          intro q
          have h1 : (S.map q).sum = ∑ i ∈ Finset.range m, q (List.ofFn (X i ω)) := by
            rw [hS, firstSamples, List.map_map, Finset.sum_range, ← List.sum_ofFn, List.ofFn_eq_map, ← List.map_coe_finRange_eq_range, List.map_map]
            rfl
          have h2 : (S.length : ℝ) = m := by simp [hS, firstSamples]
          rw [meanOver, h1, h2]
        obtain ⟨cf, hcf⟩ : ∃ cf : IceCfg ℝ, cf = ⟨space, [hp], S, S.length, n, n ^ 1, false, predict⟩ := ⟨_, rfl⟩
        have hinit : algorithmInit space predict sel S n = .ok cf := by rw [algorithmInit, hsel, hcf]; rfl
        have hpl : Plottable cf mu sd := by
          rw [hcf]
          exact ⟨⟨hwf, by simpa using hmem, by simp, by simp, fun r hr => (hSu r hr).1, rfl, rfl⟩, hdecl, fun r hr => (hSu r hr).2, hSne, by dsimp only; omega, hrow⟩
        obtain ⟨s', xs, ys, p1, p2, -, p4⟩ := C83_pdp_one (s := ⟨cf, none, none, none, none⟩) ⟨rfl, rfl, rfl⟩ rfl hpl (hp := hp) (by rw [hcf]) hk (f := f)
          (by rw [hcf]; exact hf) hax color
        have hcn : cf.perAxis = n := by rw [hcf]
        have hcS : cf.samples = S := by rw [hcf]
        dsimp only at p2 p4
        rw [hcn] at p2 p4
        rw [hcS] at p4
        refine ⟨⟨cf, none, none, none, none⟩, s', xs, ys, by rw [← hS, pdpInit, hinit]; rfl, p1, ?_⟩
        rw [axis_scale hk hax hlin]
        intro t ht
        have hdevi : ∀ i < n, |(meanOver S fun r => mu (r.set f (gridValue n i))) - M (gridValue n i)| ≤ ε := by
          intro i hi
          by_contra hcon
          refine hω ⟨[gridValue n i], by rw [hgdef]; exact List.mem_map.2 ⟨i, List.mem_range.2 hi, rfl⟩, ?_⟩
          simp only [hset]
          rw [← hMt, ← hmean fun r => mu (r.set f (gridValue n i))]
          exact (not_le.1 hcon).le
        refine ⟨(line_points (F := fun t => meanOver S fun r => mu (r.set f t)) hlu hg hn p2 p4 ht).1, fun y hy => ?_⟩
        obtain ⟨i, v, hin, v0, v1, hT, rfl⟩ := on_grid_line (F := fun t => meanOver S fun r => mu (r.set f t)) hlu hg hn p2 p4 hy
        have d1 := abs_le.1 (hdevi i (by omega))
        have d2 := abs_le.1 (hdevi (i + 1) hin)
        have hv : ∀ i, gridValue n i = (i : ℝ) / ((n : ℝ) - 1) := fun i => by rw [gridValue, if_neg (by omega)]
        have hstep : gridValue n (i + 1) - gridValue n i = 1 / ((n : ℝ) - 1) := by
          rw [hv, hv]
          push_cast
          ring
        have hte : (1 - v) * gridValue n i + v * gridValue n (i + 1) = t := by
          rw [hv, hv, eq_comm]
          push_cast
          field_simp
          linear_combination hT
        have hsp : 0 < 1 / ((n : ℝ) - 1) := by positivity
        have d3 := chord_lipschitz hMC (hgv i (by omega)) (hgv (i + 1) hin) (by linarith) v0 v1
        rw [hte, hstep, show C * (1 / ((n : ℝ) - 1)) / 2 = C / (2 * ((n : ℝ) - 1)) by field_simp] at d3
        have d3 := abs_le.1 d3
        have d4 := abs_le.1 (hMh t ht)
        have v2 : 0 ≤ 1 - v := by linarith
        rw [abs_le]
        constructor
        · nlinarith [mul_le_mul_of_nonneg_left d1.1 v2, mul_le_mul_of_nonneg_left d2.1 v0, d3.1, d4.1]
        · nlinarith [mul_le_mul_of_nonneg_left d1.2 v2, mul_le_mul_of_nonneg_left d2.2 v0, d3.2, d4.2]
    · exact .inr hu
  have h3 := (measureReal_mono (μ := P) hcover).trans ((measureReal_union_le _ _).trans (add_le_add_left (measureReal_union_le _ _) _))
  rw [hnull, probReal_univ] at h3
  linarith

/-- The surrogate predicts `x₀ x₁` with the standard deviation 1/10 and is off by just that; eleven grid points, `m` uniform samples: with probability at least `1 - 22 exp(-m / 50)` the line of the
plot is over every value within 1/4 of the true partial dependence `t / 2 + 1 / 10` (`t` is the normalised value). With 400 samples the probability is more than 99 percent. -/
example {m : Nat} (hm : 1 ≤ m) : 1 - 22 * Real.exp (-(m : ℝ) / 50) ≤ (uniformSamples stSpace.length).real {ω | ∃ s s' xs ys,
    pdpInit stSpace (fun rows => .ok (rows.map fun r => r.getD 0 0 * r.getD 1 0, rows.map fun _ => 1 / 10)) (.name "x1") (firstSamples (fun i ω => ω i) m ω) 11 = .ok s ∧
    pdpPlotValues "black" s Ax.new = (s', ⟨"x1", "Prediction", false, false, some (-5, 5), none, [.line "black" xs ys]⟩, .ok ()) ∧ ∀ t ∈ Set.Icc (0 : ℝ) 1,
      (∃ y, OnLine false xs ys (10 * t - 5) y) ∧ ∀ y, OnLine false xs ys (10 * t - 5) y → |y - (t / 2 + 1 / 10)| ≤ 1 / 4} := by
  obtain ⟨hr, hu⟩ := uniformSamples_spec stSpace.length
  have hof : ∀ x : Fin stSpace.length → ℝ, List.ofFn x = [x ⟨0, by simp [stSpace]⟩, x ⟨1, by simp [stSpace]⟩] := fun _ => rfl
  have hint : Integrable (fun ω : ℕ → Fin stSpace.length → ℝ => ω 0 ⟨1, by simp [stSpace]⟩) (uniformSamples stSpace.length) ∧
      ∫ ω : ℕ → Fin stSpace.length → ℝ, ω 0 ⟨1, by simp [stSpace]⟩ ∂(uniformSamples stSpace.length) = 1 / 2 := by
    have hm : Measurable fun ω : ℕ → Fin stSpace.length → ℝ => ω 0 ⟨1, by simp [stSpace]⟩ := by fun_prop
    have h1 : Integrable (fun x : ℝ => x) ((uniformSamples stSpace.length).map fun ω => ω 0 ⟨1, by simp [stSpace]⟩) := by
      rw [hu]; exact continuous_id.continuousOn.integrableOn_compact isCompact_Icc
    refine ⟨h1.comp_measurable hm, ?_⟩
    rw [← integral_map (φ := fun ω : ℕ → Fin stSpace.length → ℝ => ω 0 ⟨1, by simp [stSpace]⟩) (f := fun x : ℝ => x) hm.aemeasurable (by fun_prop), hu, integral_Icc_eq_integral_Ioc,
      ← intervalIntegral.integral_of_le zero_le_one, integral_id]
    norm_num
  have hmeas : Measurable fun x : Fin stSpace.length → ℝ => (List.ofFn x).getD 0 0 * (List.ofFn x).getD 1 0 := by
    have : (fun x : Fin stSpace.length → ℝ => (List.ofFn x).getD 0 0 * (List.ofFn x).getD 1 0) = fun x =>
        x ⟨0, by simp [stSpace]⟩ * x ⟨1, by simp [stSpace]⟩ := by funext x; rw [hof]; rfl
    rw [this]; fun_prop
  have hind : iIndepFun (fun (i : ℕ) (ω : ℕ → Fin stSpace.length → ℝ) => ω i) (uniformSamples stSpace.length) :=
    iIndepFun_infinitePi (P := fun _ : ℕ => Measure.pi fun _ : Fin stSpace.length => volume.restrict (Set.Icc (0 : ℝ) 1)) (X := fun _ x => x) fun _ => measurable_id
  have hunit : ∀ᵐ ω ∂(uniformSamples stSpace.length), UnitRow stSpace.length (List.ofFn (ω 0)) := by
    have hb : ∀ᵐ ω ∂(uniformSamples stSpace.length), ∀ k, ω 0 k ∈ Set.Icc (0 : ℝ) 1 := by
      rw [ae_all_iff]
      intro k
      have hm : Measurable fun ω : ℕ → Fin stSpace.length → ℝ => ω 0 k := by fun_prop
      refine ae_of_ae_map (f := fun ω : ℕ → Fin stSpace.length → ℝ => ω 0 k) (p := fun x => x ∈ Set.Icc (0 : ℝ) 1) hm.aemeasurable ?_
      rw [hu]
      exact ae_restrict_mem measurableSet_Icc
    filter_upwards [hb] with ω hω
    refine ⟨by simp, fun e he => ?_⟩
    obtain ⟨k, rfl⟩ := List.mem_ofFn.1 he
    exact hω k
  have hrow : ∀ r, UnitRow stSpace.length r → ∃ a b, r = [a, b] ∧ (0 ≤ a ∧ a ≤ 1) ∧ 0 ≤ b ∧ b ≤ 1 := by
    intro r h
    obtain ⟨a, b, rfl⟩ := List.length_eq_two.1 h.1
    exact ⟨a, b, rfl, h.2 a (by simp), h.2 b (by simp)⟩
  have key := C201_plot (P := uniformSamples stSpace.length) stSpace_wf (by
      intro hp hm
      simp only [stSpace, List.mem_cons, List.not_mem_nil, or_false] at hm
      rcases hm with rfl | rfl
      · exact ⟨-5, 5, false, stSpace_wf, ⟨_, by simp [stSpace], rfl, .inl rfl⟩, by norm_num, by simp⟩
      · exact ⟨-5, 5, false, stSpace_wf, ⟨_, by simp [stSpace], rfl, .inl rfl⟩, by norm_num, by simp⟩)
    (predict := fun rows => .ok (rows.map fun r => r.getD 0 0 * r.getD 1 0, rows.map fun _ => 1 / 10)) (mu := fun r => r.getD 0 0 * r.getD 1 0) (sd := fun _ => 1 / 10)
    (h := fun r => r.getD 0 0 * r.getD 1 0 + 1 / 10) (fun _ _ _ => rfl) (sel := .name "x1") (hp := ⟨"x1", .float (-5) 5 false⟩) rfl (by simp [stSpace]) (.inl rfl) (by norm_num) (by simp)
    (f := 0) ⟨_, rfl, rfl⟩ (n := 11) (by norm_num) (ax := Ax.new) (ax' := ⟨"x1", "Prediction", false, false, some (-5, 5), none, []⟩) rfl (fun _ => rfl) "black"
    (X := fun i ω => ω i) hr hind hunit hmeas measurable_const (hmeas.add_const _) (a := 0) (w := 1) (B := 1) (C := 1) (c := 1 / 10) one_pos zero_le_one (by
      intro r h
      obtain ⟨a, b, rfl, ha, hb⟩ := hrow r h
      exact ⟨mul_nonneg ha.1 hb.1, by rw [zero_add]; exact mul_le_one₀ ha.2 hb.1 hb.2⟩) (by intro r _; rw [abs_of_pos (by norm_num)]) (by
      intro r _
      rw [sub_add_cancel_left, abs_neg, abs_of_pos (by norm_num), one_mul]) (by
      intro r h t _ t' _
      obtain ⟨a, b, rfl, ha, hb⟩ := hrow r h
      simp only [List.set_cons_zero, List.getD_cons_zero, List.getD_cons_succ]
      rw [← sub_mul, abs_mul, one_mul, abs_of_nonneg hb.1]
      exact mul_le_of_le_one_right (abs_nonneg _) hb.2) hm (ε := 1 / 10) (by norm_num)
  rw [show -2 * (m : ℝ) * (1 / 10) ^ 2 / 1 ^ 2 = -(m : ℝ) / 50 by ring] at key
  refine le_trans (le_of_eq (by norm_num)) (key.trans (measureReal_mono ?_))
  rintro ω ⟨s, s', xs, ys, h1, h2, h3⟩
  refine ⟨s, s', xs, ys, h1, h2, fun t ht => ?_⟩
  have ei : interpolate (-5) 5 false t = 10 * t - 5 := by simp [interpolate]; ring
  obtain ⟨h4, h5⟩ := h3 t ht
  rw [ei] at h4 h5
  refine ⟨h4, fun y hy => ?_⟩
  have h6 := h5 y hy
  have eh : (fun ω' : ℕ → Fin stSpace.length → ℝ => ((List.ofFn (ω' 0)).set 0 t).getD 0 0 * ((List.ofFn (ω' 0)).set 0 t).getD 1 0 + 1 / 10)
      = fun ω' => t * ω' 0 ⟨1, by simp [stSpace]⟩ + 1 / 10 := rfl
  rw [eh, integral_add (hint.1.const_mul t) (integrable_const _), integral_const_mul, hint.2, integral_const, probReal_univ] at h6
  norm_num at h6 ⊢
  refine le_trans (le_of_eq ?_) h6
  congr 1; ring

end PyPDP
