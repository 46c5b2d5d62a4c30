/-
C203: the bands of a PDP plot of random samples and the partial dependence of the blackbox function.
-/
import Verif.Props.WholeError
import Verif.Props.TrueMinimum

namespace PyPDP
open Spec MeasureTheory ProbabilityTheory
variable {Ω : Type} [MeasurableSpace Ω]

/-- **C203** The bands of `plot_confidences` do not know about the sampling error, but widened by it they contain the truth. Let `m` samples be drawn independently from one distribution of normalised
vectors, let the surrogate be off from the blackbox function `h` by at most `B` predicted standard deviations, let the values of `h` be in a range of width `w` and change by at most `C` times the
change of the normalised hyperparameter. Then, with probability at least `1 - 2 n exp(-2 m ε² / w²)` (`n` grid points), over every value between the bounds the expectation of the
blackbox function with the hyperparameter set to this value lies between the lines of the plot at `k` standard deviations (`k` is 1 or 2 and at least `B`), up to `ε + C / (2 (n - 1))`. -/
theorem C203_band {P : Measure Ω} [IsProbabilityMeasure P] {space : ConfigSpace ℝ} (hwf : space.WF) (hdecl : ∀ hp ∈ space, ∃ l u g, Declares space hp.name l u g) {predict : Predict ℝ}
    {mu sd h : List ℝ → ℝ} (hrow : RowWise space.length predict mu sd) {sel : Selection ℝ} {hp : Hp ℝ} (hsel : convertHyperparameters sel space = .ok [hp]) (hmem : hp ∈ space) {l u : ℝ}
    {g : Bool} (hk : hp.kind = .float l u g ∨ hp.kind = .integer l u g) (hlu : l < u) (hg : g = true → 0 < l) {f : Nat} (hf : IsFeature space hp f) {n : Nat} (hn : 2 ≤ n)
    {ax ax' : Ax ℝ} (hax : checkAndSetAxis [hp] true "Prediction" ax = (ax', .ok ())) (hlin : g = false → ax.xlog = false) (color gradientColor : String) {maxSigma : ℝ} (hmax : 0 < maxSigma)
    {X : ℕ → Ω → Fin space.length → ℝ} (hX : IsRandomSample P X) (hind : iIndepFun X P) (hunit : ∀ᵐ ω ∂P, UnitRow space.length (List.ofFn (X 0 ω)))
    (mh : Measurable fun x : Fin space.length → ℝ => h (List.ofFn x)) {a w B C : ℝ} (hw : 0 < w) (hB : 0 ≤ B)
    (hrange : ∀ r, UnitRow space.length r → a ≤ h r ∧ h r ≤ a + w) (hcov : ∀ r, UnitRow space.length r → |mu r - h r| ≤ B * sd r)
    (hC : ∀ r, UnitRow space.length r → ∀ t ∈ Set.Icc (0 : ℝ) 1, ∀ t' ∈ Set.Icc (0 : ℝ) 1, |h (r.set f t) - h (r.set f t')| ≤ C * |t - t'|)
    {m : Nat} (hm : 1 ≤ m) {ε : ℝ} (hε : 0 ≤ ε) :
    1 - 2 * n * Real.exp (-2 * m * ε ^ 2 / w ^ 2) ≤ P.real {ω | ∃ (s s' : PdpState ℝ) (bands : List (Shape ℝ)) (xs lo1 hi1 lo2 hi2 : List ℝ),
      pdpInit space predict sel (firstSamples X m ω) n = .ok s ∧ pdpPlotConfidences color gradientColor maxSigma s ax =
        (s', ax'.draw (bands ++ [.line color xs lo1, .line color xs hi1, .line color xs lo2, .line color xs hi2]), .ok ()) ∧ bands.length = 100 ∧
      ∀ k lo hi, (k, lo, hi) ∈ [((1 : ℝ), lo1, hi1), (2, lo2, hi2)] → B ≤ k → ∀ t ∈ Set.Icc (0 : ℝ) 1,
        (∃ y, OnLine ax'.xlog xs lo (interpolate l u g t) y) ∧ (∃ y, OnLine ax'.xlog xs hi (interpolate l u g t) y) ∧
        (∀ y, OnLine ax'.xlog xs lo (interpolate l u g t) y → y - (ε + C / (2 * ((n : ℝ) - 1))) ≤ ∫ ω', h ((List.ofFn (X 0 ω')).set f t) ∂P) ∧
        ∀ y, OnLine ax'.xlog xs hi (interpolate l u g t) y → ∫ ω', h ((List.ofFn (X 0 ω')).set f t) ∂P ≤ y + (ε + C / (2 * ((n : ℝ) - 1)))} := by
  have hn1 : (0 : ℝ) < (n : ℝ) - 1 := by
    have : (2 : ℝ) ≤ n := by exact_mod_cast hn
    linarith
  have hset : ∀ t (x : Fin space.length → ℝ), atPoint space [hp] [t] (List.ofFn x) = (List.ofFn x).set f t := fun t x => atPoint_set hwf hmem hf (by simp) t
  -- all samples are normalised, almost surely
  have hall : ∀ᵐ ω ∂P, ∀ i, UnitRow space.length (List.ofFn (X i ω)) := by
    rw [ae_all_iff]
    intro i
    have hms : MeasurableSet {x : Fin space.length → ℝ | ∀ k, x k ∈ Set.Icc (0 : ℝ) 1} := by
      have : {x : Fin space.length → ℝ | ∀ k, x k ∈ Set.Icc (0 : ℝ) 1} = Set.pi Set.univ fun _ => Set.Icc (0 : ℝ) 1 := by ext x; simp only [Set.mem_ofPred_eq, Set.mem_pi, Set.mem_univ, true_imp_iff]
      rw [this]
      exact MeasurableSet.univ_pi fun _ => measurableSet_Icc
    have hiff : ∀ x : Fin space.length → ℝ, UnitRow space.length (List.ofFn x) ↔ ∀ k, x k ∈ Set.Icc (0 : ℝ) 1 := by
      intro x
      simp only [UnitRow, List.length_ofFn, true_and, List.mem_ofFn, Set.mem_Icc]
      exact ⟨fun h k => h _ ⟨k, rfl⟩, by rintro h _ ⟨k, rfl⟩; exact h k⟩
    simp only [hiff] at hunit ⊢
    have h0 := (ae_map_iff (hX.meas 0).aemeasurable hms).2 hunit
    rw [← hX.ident i] at h0
    exact (ae_map_iff (hX.meas i).aemeasurable hms).1 h0
  -- the true partial dependence
  have hint : ∀ t ∈ Set.Icc (0 : ℝ) 1, Integrable (fun ω => h ((List.ofFn (X 0 ω)).set f t)) P := by
    intro t ht
    have hmeas : Measurable fun ω => h ((List.ofFn (X 0 ω)).set f t) := by
      have := (hX.values [hp] [t] mh).1 0
      simpa only [hset] using this
    refine Integrable.of_bound hmeas.aestronglyMeasurable (|a| + w) ?_
    filter_upwards [hunit] with ω hω
    have h1 := hrange _ (UnitRow_set hω f ht)
    rw [Real.norm_eq_abs, abs_le]
    constructor <;> linarith [neg_abs_le a, le_abs_self a]
  obtain ⟨M, hM⟩ : ∃ M : ℝ → ℝ, M = fun t => ∫ ω', h ((List.ofFn (X 0 ω')).set f t) ∂P := ⟨_, rfl⟩
  have hMt : ∀ t, M t = ∫ ω', h ((List.ofFn (X 0 ω')).set f t) ∂P := fun t => by rw [hM]
  have hMC : ∀ t ∈ Set.Icc (0 : ℝ) 1, ∀ t' ∈ Set.Icc (0 : ℝ) 1, |M t - M t'| ≤ C * |t - t'| := by
    intro t ht t' ht'
    rw [hMt, hMt, ← integral_sub (hint t ht) (hint t' ht')]
    have := norm_integral_le_of_norm_le_const (μ := P) (f := fun ω => h ((List.ofFn (X 0 ω)).set f t) - h ((List.ofFn (X 0 ω)).set f t')) (C := C * |t - t'|) (by
      filter_upwards [hunit] with ω hω
      exact hC _ hω t ht t' ht')
    simpa using this
  simp only [← hMt]
  -- the deviations of the averages
  obtain ⟨grid, hgdef⟩ : ∃ grid : List (List ℝ), grid = (List.range n).map fun i => [gridValue n i] := ⟨_, rfl⟩
  have hgv : ∀ i < n, gridValue n i ∈ Set.Icc (0 : ℝ) 1 := fun i hi => gridValue_unit hi
  have hdev := hX.deviations hind (selected := [hp]) (grid := grid) mh hw (by
    intro t ht
    rw [hgdef] at ht
    obtain ⟨i, hi, rfl⟩ := List.mem_map.1 ht
    refine ⟨a, ?_⟩
    filter_upwards [hunit] with ω hω
    rw [hset]
    exact hrange _ (UnitRow_set hω f (hgv i (List.mem_range.1 hi)))) hm hε
  have hgl : grid.length = n := by simp [hgdef]
  rw [hgl] at hdev
  have hnull : P.real {ω | ¬ ∀ i, UnitRow space.length (List.ofFn (X i ω))} = 0 := by
    rw [measureReal_def, ae_iff.1 hall, ENNReal.toReal_zero]
  obtain ⟨G, hG⟩ : ∃ G : Set Ω, G = {ω | ∃ (s s' : PdpState ℝ) (bands : List (Shape ℝ)) (xs lo1 hi1 lo2 hi2 : List ℝ),
      pdpInit space predict sel (firstSamples X m ω) n = .ok s ∧ pdpPlotConfidences color gradientColor maxSigma s ax =
        (s', ax'.draw (bands ++ [.line color xs lo1, .line color xs hi1, .line color xs lo2, .line color xs hi2]), .ok ()) ∧ bands.length = 100 ∧
      ∀ k lo hi, (k, lo, hi) ∈ [((1 : ℝ), lo1, hi1), (2, lo2, hi2)] → B ≤ k → ∀ t ∈ Set.Icc (0 : ℝ) 1,
        (∃ y, OnLine ax'.xlog xs lo (interpolate l u g t) y) ∧ (∃ y, OnLine ax'.xlog xs hi (interpolate l u g t) y) ∧
        (∀ y, OnLine ax'.xlog xs lo (interpolate l u g t) y → y - (ε + C / (2 * ((n : ℝ) - 1))) ≤ M t) ∧
        ∀ y, OnLine ax'.xlog xs hi (interpolate l u g t) y → M t ≤ y + (ε + C / (2 * ((n : ℝ) - 1)))} := ⟨_, rfl⟩
  rw [← hG]
  have hcover : (Set.univ : Set Ω) ⊆ G ∪ {ω | ∃ t ∈ grid, ε ≤ |(∑ i ∈ Finset.range m, h (atPoint space [hp] t (List.ofFn (X i ω)))) / m
        - ∫ ω', h (atPoint space [hp] t (List.ofFn (X 0 ω'))) ∂P|} ∪ {ω | ¬ ∀ i, UnitRow space.length (List.ofFn (X i ω))} := by
    intro ω _
    by_cases hu : ∀ i, UnitRow space.length (List.ofFn (X i ω))
    · left
      by_cases hω : ∃ t ∈ grid, ε ≤ |(∑ i ∈ Finset.range m, h (atPoint space [hp] t (List.ofFn (X i ω)))) / m
        - ∫ ω', h (atPoint space [hp] t (List.ofFn (X 0 ω'))) ∂P|
      · exact .inr hω
      · left
        rw [hG]
        obtain ⟨S, hS⟩ : ∃ S, S = firstSamples X m ω := ⟨_, rfl⟩
        have hSu : ∀ r ∈ S, UnitRow space.length r := by
          intro r hr
          rw [hS] at hr
          obtain ⟨i, -, rfl⟩ := List.mem_map.1 hr
          exact hu i
        have hSne : S ≠ [] := by rw [hS, firstSamples, Ne, List.map_eq_nil_iff, List.range_eq_nil]; omega
        have hmean : ∀ q : List ℝ → ℝ, meanOver S q = (∑ i ∈ Finset.range m, q (List.ofFn (X i ω))) / m := by
          intro q
          have h1 : (S.map q).sum = ∑ i ∈ Finset.range m, q (List.ofFn (X i ω)) := by
            rw [hS, firstSamples, List.map_map, Finset.sum_range, ← List.sum_ofFn, List.ofFn_eq_map, ← List.map_coe_finRange_eq_range, List.map_map]
            rfl
          have h2 : (S.length : ℝ) = m := by simp [hS, firstSamples]
          rw [meanOver, h1, h2]
        obtain ⟨cf, hcf⟩ : ∃ cf : IceCfg ℝ, cf = ⟨space, [hp], S, S.length, n, n ^ 1, false, predict⟩ := ⟨_, rfl⟩
        have hinit : algorithmInit space predict sel S n = .ok cf := by rw [algorithmInit, hsel, hcf]; rfl
        have hpl : Plottable cf mu sd := by
          rw [hcf]
          exact ⟨⟨hwf, by simpa using hmem, by simp, by simp, fun r hr => (hSu r hr).1, rfl, rfl⟩, hdecl, fun r hr => (hSu r hr).2, hSne, by dsimp only; omega, hrow⟩
        have hcn : cf.perAxis = n := by rw [hcf]
        have hcS : cf.samples = S := by rw [hcf]
        obtain ⟨s', xs, ys, σ, shapes, p1, p2, p3, p4, p5, fs, bands, one, two, rfl, hb, hfl, -, hfs, -, ⟨lo1, hi1, rfl, l1, u1⟩, ⟨lo2, hi2, rfl, l2, u2⟩⟩ :=
          C84_pdp_one (s := ⟨cf, none, none, none, none⟩) ⟨rfl, rfl, rfl⟩ rfl hpl (hp := hp) (by rw [hcf]) hk (f := f) (by rw [hcf]; exact hf) hax color gradientColor hmax
        dsimp only at p2 p3 p4 p5
        rw [hcn] at p2 p5
        rw [hcS] at p5
        rw [axis_scale hk hax hlin]
        refine ⟨⟨cf, none, none, none, none⟩, s', bands, xs, lo1, hi1, lo2, hi2, by rw [← hS, pdpInit, hinit]; rfl, by simpa using p1, hb.length_eq.symm.trans hfl, ?_⟩
        have hdevi : ∀ i < n, |dependenceAt S h f (gridValue n i) - M (gridValue n i)| ≤ ε := by
          intro i hi
          by_contra hcon
          refine hω ⟨[gridValue n i], by rw [hgdef]; exact List.mem_map.2 ⟨i, List.mem_range.2 hi, rfl⟩, ?_⟩
          simp only [hset]
          rw [← hMt, ← hmean fun r => h (r.set f (gridValue n i))]
          exact (not_le.1 hcon).le
        have hvals : ∀ k zs, OffsetOf k ys σ zs → ∀ i < n, xs[i]? = some (interpolate l u g (gridValue n i)) ∧
            zs[i]? = some ((fun t => dependenceAt S mu f t + k * deviationAt S sd f t) (gridValue n i)) := by
          intro k zs hz i hi
          obtain ⟨a1, a2, t, a3, a4, a5⟩ := p5 i hi
          refine ⟨a1, ?_⟩
          rw [hz.2 i _ _ a2 a3]
          dsimp only [dependenceAt, deviationAt]
          rw [← a5, Real.sqrt_mul_self a4]
        have herr : ∀ i < n, |dependenceAt S mu f (gridValue n i) - dependenceAt S h f (gridValue n i)| ≤ B * deviationAt S sd f (gridValue n i) := fun i hi =>
          dependence_error hSne hB fun r hr => hcov _ (UnitRow_set (hSu r hr) f (hgv i hi))
        have hv : ∀ i, gridValue n i = (i : ℝ) / ((n : ℝ) - 1) := fun i => by rw [gridValue, if_neg (by omega)]
        have hsp : 0 < 1 / ((n : ℝ) - 1) := by positivity
        have near : ∀ {i : Nat} {v t : ℝ}, i + 1 < n → 0 ≤ v → v ≤ 1 → t * ((n : ℝ) - 1) = i + v →
            |(1 - v) * M (gridValue n i) + v * M (gridValue n (i + 1)) - M t| ≤ C / (2 * ((n : ℝ) - 1)) := by
          intro i v t hin v0 v1 hT
          have hstep : gridValue n (i + 1) - gridValue n i = 1 / ((n : ℝ) - 1) := by
            rw [hv, hv]
            push_cast
            ring
          have hte : (1 - v) * gridValue n i + v * gridValue n (i + 1) = t := by
            rw [hv, hv, eq_comm]
            push_cast
            field_simp
            linear_combination hT
          have d3 := chord_lipschitz hMC (hgv i (by omega)) (hgv (i + 1) hin) (by linarith) v0 v1
          rwa [hte, hstep, show C * (1 / ((n : ℝ) - 1)) / 2 = C / (2 * ((n : ℝ) - 1)) by field_simp] at d3
        have both : ∀ k lo hi, OffsetOf (-k) ys σ lo → OffsetOf k ys σ hi → B ≤ k → ∀ t ∈ Set.Icc (0 : ℝ) 1,
            (∃ y, OnLine g xs lo (interpolate l u g t) y) ∧ (∃ y, OnLine g xs hi (interpolate l u g t) y) ∧
            (∀ y, OnLine g xs lo (interpolate l u g t) y → y - (ε + C / (2 * ((n : ℝ) - 1))) ≤ M t) ∧
            ∀ y, OnLine g xs hi (interpolate l u g t) y → M t ≤ y + (ε + C / (2 * ((n : ℝ) - 1))) := by
          intro k lo hi hlo hhi hBk t ht
          have hBd : ∀ i, B * deviationAt S sd f (gridValue n i) ≤ k * deviationAt S sd f (gridValue n i) := fun i => mul_le_mul_of_nonneg_right hBk (Real.sqrt_nonneg _)
          refine ⟨(line_points (F := fun t => dependenceAt S mu f t + -k * deviationAt S sd f t) hlu hg hn p2 (hvals _ _ hlo) ht).1,
            (line_points (F := fun t => dependenceAt S mu f t + k * deviationAt S sd f t) hlu hg hn p2 (hvals _ _ hhi) ht).1, fun y hy => ?_, fun y hy => ?_⟩
          · obtain ⟨i, v, hin, v0, v1, hT, rfl⟩ := on_grid_line (F := fun t => dependenceAt S mu f t + -k * deviationAt S sd f t) hlu hg hn p2 (hvals _ _ hlo) hy
            have d := abs_le.1 (near hin v0 v1 hT)
            have b : ∀ j < n, dependenceAt S mu f (gridValue n j) + -k * deviationAt S sd f (gridValue n j) ≤ M (gridValue n j) + ε := by
              intro j hj
              linarith [(abs_le.1 (herr j hj)).2, hBd j, (abs_le.1 (hdevi j hj)).2]
            have v2 : 0 ≤ 1 - v := by linarith
            nlinarith [mul_le_mul_of_nonneg_left (b i (by omega)) v2, mul_le_mul_of_nonneg_left (b (i + 1) hin) v0, d.2]
          · obtain ⟨i, v, hin, v0, v1, hT, rfl⟩ := on_grid_line (F := fun t => dependenceAt S mu f t + k * deviationAt S sd f t) hlu hg hn p2 (hvals _ _ hhi) hy
            have d := abs_le.1 (near hin v0 v1 hT)
            have b : ∀ j < n, M (gridValue n j) - ε ≤ dependenceAt S mu f (gridValue n j) + k * deviationAt S sd f (gridValue n j) := by
              intro j hj
              linarith [(abs_le.1 (herr j hj)).1, hBd j, (abs_le.1 (hdevi j hj)).1]
            have v2 : 0 ≤ 1 - v := by linarith
            nlinarith [mul_le_mul_of_nonneg_left (b i (by omega)) v2, mul_le_mul_of_nonneg_left (b (i + 1) hin) v0, d.1]
        intro k lo hi hin
        simp only [List.mem_cons, Prod.mk.injEq, List.not_mem_nil, or_false] at hin
        rcases hin with ⟨rfl, rfl, rfl⟩ | ⟨rfl, rfl, rfl⟩
        · exact both 1 _ _ l1 u1
        · exact both 2 _ _ l2 u2
    · exact .inr hu
  have h3 := (measureReal_mono (μ := P) hcover).trans ((measureReal_union_le _ _).trans (add_le_add_left (measureReal_union_le _ _) _))
  rw [hnull, probReal_univ] at h3
  linarith

/-- The surrogate predicts `x₀ x₁` with the standard deviation 1/10 and is off by just that; eleven grid points, `m` uniform samples: with probability at least `1 - 22 exp(-m / 50)` the true
partial dependence `t / 2 + 1 / 10` (`t` is the normalised value) is over every value at most 3/20 above the upper line at one standard deviation, and at most 3/20 below the lower one. -/
example {m : Nat} (hm : 1 ≤ m) : 1 - 22 * Real.exp (-(m : ℝ) / 50) ≤ (uniformSamples stSpace.length).real {ω | ∃ (s s' : PdpState ℝ) (bands : List (Shape ℝ)) (xs lo hi lo2 hi2 : List ℝ),
    pdpInit stSpace (fun rows => .ok (rows.map fun r => r.getD 0 0 * r.getD 1 0, rows.map fun _ => 1 / 10)) (.name "x1") (firstSamples (fun i ω => ω i) m ω) 11 = .ok s ∧
    pdpPlotConfidences "black" "blue" 3 s Ax.new = (s', (⟨"x1", "Prediction", false, false, some (-5, 5), none, []⟩ : Ax ℝ).draw
      (bands ++ [.line "black" xs lo, .line "black" xs hi, .line "black" xs lo2, .line "black" xs hi2]), .ok ()) ∧ bands.length = 100 ∧ ∀ t ∈ Set.Icc (0 : ℝ) 1,
      ∃ y y', OnLine false xs lo (10 * t - 5) y ∧ OnLine false xs hi (10 * t - 5) y' ∧ y - 3 / 20 ≤ t / 2 + 1 / 10 ∧ t / 2 + 1 / 10 ≤ y' + 3 / 20} := by
  obtain ⟨hr, hu⟩ := uniformSamples_spec stSpace.length
  have hof : ∀ x : Fin stSpace.length → ℝ, List.ofFn x = [x ⟨0, by simp [stSpace]⟩, x ⟨1, by simp [stSpace]⟩] := fun _ => rfl
  have hint : Integrable (fun ω : ℕ → Fin stSpace.length → ℝ => ω 0 ⟨1, by simp [stSpace]⟩) (uniformSamples stSpace.length) ∧
      ∫ ω : ℕ → Fin stSpace.length → ℝ, ω 0 ⟨1, by simp [stSpace]⟩ ∂(uniformSamples stSpace.length) = 1 / 2 := by
    have hm : Measurable fun ω : ℕ → Fin stSpace.length → ℝ => ω 0 ⟨1, by simp [stSpace]⟩ := by fun_prop
    have h1 : Integrable (fun x : ℝ => x) ((uniformSamples stSpace.length).map fun ω => ω 0 ⟨1, by simp [stSpace]⟩) := by
      rw [hu]; exact continuous_id.continuousOn.integrableOn_compact isCompact_Icc
    refine ⟨h1.comp_measurable hm, ?_⟩
    rw [← integral_map (φ := fun ω : ℕ → Fin stSpace.length → ℝ => ω 0 ⟨1, by simp [stSpace]⟩) (f := fun x : ℝ => x) hm.aemeasurable (by fun_prop), hu, integral_Icc_eq_integral_Ioc,
      ← intervalIntegral.integral_of_le zero_le_one, integral_id]
    norm_num
  have hmeas : Measurable fun x : Fin stSpace.length → ℝ => (List.ofFn x).getD 0 0 * (List.ofFn x).getD 1 0 := by
    have : (fun x : Fin stSpace.length → ℝ => (List.ofFn x).getD 0 0 * (List.ofFn x).getD 1 0) = fun x =>
        x ⟨0, by simp [stSpace]⟩ * x ⟨1, by simp [stSpace]⟩ := by funext x; rw [hof]; rfl
    rw [this]; fun_prop
  have hind : iIndepFun (fun (i : ℕ) (ω : ℕ → Fin stSpace.length → ℝ) => ω i) (uniformSamples stSpace.length) :=
    iIndepFun_infinitePi (P := fun _ : ℕ => Measure.pi fun _ : Fin stSpace.length => volume.restrict (Set.Icc (0 : ℝ) 1)) (X := fun _ x => x) fun _ => measurable_id
  have hunit : ∀ᵐ ω ∂(uniformSamples stSpace.length), UnitRow stSpace.length (List.ofFn (ω 0)) := by
    have hb : ∀ᵐ ω ∂(uniformSamples stSpace.length), ∀ k, ω 0 k ∈ Set.Icc (0 : ℝ) 1 := by
      rw [ae_all_iff]
      intro k
      have hm : Measurable fun ω : ℕ → Fin stSpace.length → ℝ => ω 0 k := by fun_prop
      refine ae_of_ae_map (f := fun ω : ℕ → Fin stSpace.length → ℝ => ω 0 k) (p := fun x => x ∈ Set.Icc (0 : ℝ) 1) hm.aemeasurable ?_
      rw [hu]
      exact ae_restrict_mem measurableSet_Icc
    filter_upwards [hb] with ω hω
    refine ⟨by simp, fun e he => ?_⟩
    obtain ⟨k, rfl⟩ := List.mem_ofFn.1 he
    exact hω k
  have hrow : ∀ r, UnitRow stSpace.length r → ∃ a b, r = [a, b] ∧ (0 ≤ a ∧ a ≤ 1) ∧ 0 ≤ b ∧ b ≤ 1 := by
    intro r h
    obtain ⟨a, b, rfl⟩ := List.length_eq_two.1 h.1
    exact ⟨a, b, rfl, h.2 a (by simp), h.2 b (by simp)⟩
  have key := C203_band (P := uniformSamples stSpace.length) stSpace_wf (by
      intro hp hm
      simp only [stSpace, List.mem_cons, List.not_mem_nil, or_false] at hm
      rcases hm with rfl | rfl
      · exact ⟨-5, 5, false, stSpace_wf, ⟨_, by simp [stSpace], rfl, .inl rfl⟩, by norm_num, by simp⟩
      · exact ⟨-5, 5, false, stSpace_wf, ⟨_, by simp [stSpace], rfl, .inl rfl⟩, by norm_num, by simp⟩)
    (predict := fun rows => .ok (rows.map fun r => r.getD 0 0 * r.getD 1 0, rows.map fun _ => 1 / 10)) (mu := fun r => r.getD 0 0 * r.getD 1 0) (sd := fun _ => 1 / 10)
    (h := fun r => r.getD 0 0 * r.getD 1 0 + 1 / 10) (fun _ _ _ => rfl) (sel := .name "x1") (hp := ⟨"x1", .float (-5) 5 false⟩) rfl (by simp [stSpace]) (.inl rfl) (by norm_num) (by simp)
    (f := 0) ⟨_, rfl, rfl⟩ (n := 11) (by norm_num) (ax := Ax.new) (ax' := ⟨"x1", "Prediction", false, false, some (-5, 5), none, []⟩) rfl (fun _ => rfl) "black" "blue" (maxSigma := 3) (by norm_num)
    (X := fun i ω => ω i) hr hind hunit (hmeas.add_const _) (a := 1 / 10) (w := 1) (B := 1) (C := 1) one_pos zero_le_one (by
      intro r h
      obtain ⟨a, b, rfl, ha, hb⟩ := hrow r h
      have h1 : a * b ≤ 1 := mul_le_one₀ ha.2 hb.1 hb.2
      have h2 : 0 ≤ a * b := mul_nonneg ha.1 hb.1
      simp only [List.getD_cons_zero, List.getD_cons_succ]
      constructor <;> linarith) (by
      intro r _
      rw [sub_add_cancel_left, abs_neg, abs_of_pos (by norm_num), one_mul]) (by
      intro r h t _ t' _
      obtain ⟨a, b, rfl, ha, hb⟩ := hrow r h
      simp only [List.set_cons_zero, List.getD_cons_zero, List.getD_cons_succ]
      rw [add_sub_add_right_eq_sub, ← sub_mul, abs_mul, one_mul, abs_of_nonneg hb.1]
      exact mul_le_of_le_one_right (abs_nonneg _) hb.2) hm (ε := 1 / 10) (by norm_num)
  rw [show -2 * (m : ℝ) * (1 / 10) ^ 2 / 1 ^ 2 = -(m : ℝ) / 50 by ring] at key
  refine le_trans (le_of_eq (by norm_num)) (key.trans (measureReal_mono ?_))
  rintro ω ⟨s, s', bands, xs, lo1, hi1, lo2, hi2, h1, h2, h3, h4⟩
  refine ⟨s, s', bands, xs, lo1, hi1, lo2, hi2, h1, h2, h3, fun t ht => ?_⟩
  have ei : interpolate (-5) 5 false t = 10 * t - 5 := by simp [interpolate]; ring
  obtain ⟨⟨y, hy⟩, ⟨y', hy'⟩, h5, h6⟩ := h4 1 lo1 hi1 (by simp) le_rfl t ht
  have h7 := h5 y hy
  have h8 := h6 y' hy'
  rw [ei] at hy hy'
  have eh : (fun ω' : ℕ → Fin stSpace.length → ℝ => ((List.ofFn (ω' 0)).set 0 t).getD 0 0 * ((List.ofFn (ω' 0)).set 0 t).getD 1 0 + 1 / 10)
      = fun ω' => t * ω' 0 ⟨1, by simp [stSpace]⟩ + 1 / 10 := rfl
  rw [eh, integral_add (hint.1.const_mul t) (integrable_const _), integral_const_mul, hint.2, integral_const, probReal_univ] at h7 h8
  norm_num at h7 h8
  exact ⟨y, y', hy, hy', by linarith, by linarith⟩

end PyPDP
