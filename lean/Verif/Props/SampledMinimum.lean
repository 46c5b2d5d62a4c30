/-
C204: the minimum that a PDP of random samples marks, against the minimum of the partial dependence of the blackbox function.
-/
import Verif.Props.WholeError
import Verif.Props.MarkedMinimum

namespace PyPDP
open Spec MeasureTheory ProbabilityTheory
variable {Ω : Type} [MeasurableSpace Ω]

/-- the vertical line of `plot_incumbent` is at a grid point with the smallest average -/
theorem incumbent_on_grid {s : PdpState ℝ} (hs : PdpFresh s) (hi : s.ice = none) {mu sd : List ℝ → ℝ} (hc : Plottable s.cfg mu sd) {hp : Hp ℝ}
    (hsel : s.cfg.selected = [hp]) {l u : ℝ} {g : Bool} (hk : hp.kind = .float l u g ∨ hp.kind = .integer l u g) {f : Nat}
    (hf : IsFeature s.cfg.space hp f) (hn : 2 ≤ s.cfg.perAxis) {ax ax' : Ax ℝ} (hax : checkAndSetAxis [hp] true "Prediction" ax = (ax', .ok ())) (color : String) :
    ∃ c i, (pdpCurve s).2 = .ok c ∧ i < s.cfg.perAxis ∧ curveIncumbent color c ax = (ax'.draw [.vline color (interpolate l u g (gridValue s.cfg.perAxis i))], .ok ()) ∧
      ∀ j < s.cfg.perAxis, (meanOver s.cfg.samples fun r => mu (r.set f (gridValue s.cfg.perAxis i))) ≤ meanOver s.cfg.samples fun r => mu (r.set f (gridValue s.cfg.perAxis j)) := by
  obtain ⟨idx, grid, x, y, v, hidx, hgr, -, hcurve, hvalid, -, hl, hat⟩ := pdp_core hs hi hc
  rw [hsel] at hidx hgr
  obtain rfl := idx_one hc.valid.wf hf hidx
  rw [List.length_singleton, gridPoints_one] at hgr
  obtain rfl := Except.ok.inj hgr
  rw [List.length_map, linspace_length] at hl
  have hne : x ≠ [] := by
    rintro rfl
    simp at hl
    omega
  have hyl : y.length = s.cfg.perAxis := (hvalid.values).trans hl
  obtain ⟨i, m, row, z, hbest, hrow, hz, hdraw⟩ := C74_one hvalid hne hsel hax color
  dsimp only at hbest hrow
  have hil : i < s.cfg.perAxis := by rw [← hyl]; exact (List.getElem?_eq_some_iff.1 hbest.1).1
  have hval : ∀ j < s.cfg.perAxis, y[j]? = some (meanOver s.cfg.samples fun r => mu (r.set f (gridValue s.cfg.perAxis j))) := by
    intro j hj
    obtain ⟨-, h2, -⟩ := hat j [gridValue s.cfg.perAxis j] (by rw [List.getElem?_map, linspace_gridValue hj]; rfl)
    exact h2
  obtain ⟨F, hF⟩ : ∃ F : ℝ → ℝ, F = fun t => meanOver s.cfg.samples fun r => mu (r.set f t) := ⟨_, rfl⟩
  have hFt : ∀ t, (meanOver s.cfg.samples fun r => mu (r.set f t)) = F t := fun t => by rw [hF]
  simp only [hFt] at hval ⊢
  have hm : m = F (gridValue s.cfg.perAxis i) := Option.some.inj (hbest.1.symm.trans (hval i hil))
  have hmin : ∀ j < s.cfg.perAxis, F (gridValue s.cfg.perAxis i) ≤ F (gridValue s.cfg.perAxis j) := fun j hj => by
    rw [← hm]; exact FirstBest.le hbest (hval j hj)
  have hzt : z = interpolate l u g (gridValue s.cfg.perAxis i) := by
    obtain ⟨h1, -, -⟩ := hat i [gridValue s.cfg.perAxis i] (by rw [List.getElem?_map, linspace_gridValue hil]; rfl)
    have h3 := h1 0 hp f (by rw [hsel]; rfl) hf
    obtain ⟨f', l', u', g', e, hf', hk', he, rfl⟩ := hz
    have h4 := h1 0 hp f' (by rw [hsel]; rfl) hf'
    rw [at2, hrow, Option.bind_some, he] at h4
    obtain rfl : e = gridValue s.cfg.perAxis i := by simpa using Option.some.inj h4
    have : l' = l ∧ u' = u ∧ g' = g := by
      rcases hk with hk | hk <;> rcases hk' with hk' | hk' <;> rw [hk] at hk' <;> cases hk' <;> exact ⟨rfl, rfl, rfl⟩
    obtain ⟨rfl, rfl, rfl⟩ := this
    rfl
  exact ⟨_, i, hcurve, hil, by rw [hdraw, hzt], hmin⟩

/-- **C204** The value that `plot_incumbent` marks on the curve of a PDP of random samples is nearly the best one. Under the assumptions of C201, with probability at least
`1 - 2 n exp(-2 m ε² / w²)`, the expectation of the blackbox function with the hyperparameter set to the marked value exceeds that for any other value between the bounds by at most
`2 ε + C / (2 (n - 1))` plus `B` times the sum of the expected standard deviations at both values. -/
theorem C204_incumbent {P : Measure Ω} [IsProbabilityMeasure P] {space : ConfigSpace ℝ} (hwf : space.WF) (hdecl : ∀ hp ∈ space, ∃ l u g, Declares space hp.name l u g) {predict : Predict ℝ}
    {mu sd h : List ℝ → ℝ} (hrow : RowWise space.length predict mu sd) {sel : Selection ℝ} {hp : Hp ℝ} (hsel : convertHyperparameters sel space = .ok [hp]) (hmem : hp ∈ space) {l u : ℝ}
    {g : Bool} (hk : hp.kind = .float l u g ∨ hp.kind = .integer l u g) {f : Nat} (hf : IsFeature space hp f) {n : Nat} (hn : 2 ≤ n)
    {ax ax' : Ax ℝ} (hax : checkAndSetAxis [hp] true "Prediction" ax = (ax', .ok ())) (color : String)
    {X : ℕ → Ω → Fin space.length → ℝ} (hX : IsRandomSample P X) (hind : iIndepFun X P) (hunit : ∀ᵐ ω ∂P, UnitRow space.length (List.ofFn (X 0 ω)))
    (mmu : Measurable fun x : Fin space.length → ℝ => mu (List.ofFn x)) (msd : Measurable fun x : Fin space.length → ℝ => sd (List.ofFn x))
    (mh : Measurable fun x : Fin space.length → ℝ => h (List.ofFn x)) {a w B C c : ℝ} (hw : 0 < w) (hB : 0 ≤ B)
    (hrange : ∀ r, UnitRow space.length r → a ≤ mu r ∧ mu r ≤ a + w) (hsd : ∀ r, UnitRow space.length r → |sd r| ≤ c)
    (hcov : ∀ r, UnitRow space.length r → |mu r - h r| ≤ B * sd r)
    (hC : ∀ r, UnitRow space.length r → ∀ t ∈ Set.Icc (0 : ℝ) 1, ∀ t' ∈ Set.Icc (0 : ℝ) 1, |mu (r.set f t) - mu (r.set f t')| ≤ C * |t - t'|)
    {m : Nat} (hm : 1 ≤ m) {ε : ℝ} (hε : 0 ≤ ε) :
    1 - 2 * n * Real.exp (-2 * m * ε ^ 2 / w ^ 2) ≤ P.real {ω | ∃ s c t, pdpInit space predict sel (firstSamples X m ω) n = .ok s ∧ (pdpCurve s).2 = .ok c ∧ t ∈ Set.Icc (0 : ℝ) 1 ∧
      curveIncumbent color c ax = (ax'.draw [.vline color (interpolate l u g t)], .ok ()) ∧ ∀ t' ∈ Set.Icc (0 : ℝ) 1,
        ∫ ω', h ((List.ofFn (X 0 ω')).set f t) ∂P ≤ ∫ ω', h ((List.ofFn (X 0 ω')).set f t') ∂P + 2 * ε + C / (2 * ((n : ℝ) - 1)) +
          B * (∫ ω', sd ((List.ofFn (X 0 ω')).set f t) ∂P + ∫ ω', sd ((List.ofFn (X 0 ω')).set f t') ∂P)} := by
  have hn1 : (0 : ℝ) < (n : ℝ) - 1 := by
    have : (2 : ℝ) ≤ n := by exact_mod_cast hn
    linarith
  have hset : ∀ t (x : Fin space.length → ℝ), atPoint space [hp] [t] (List.ofFn x) = (List.ofFn x).set f t := fun t x => atPoint_set hwf hmem hf (by simp) t
  -- all samples are normalised, almost surely
  have hall : ∀ᵐ ω ∂P, ∀ i, UnitRow space.length (List.ofFn (X i ω)) := by
    rw [ae_all_iff]
    intro i
    have hms : MeasurableSet {x : Fin space.length → ℝ | ∀ k, x k ∈ Set.Icc (0 : ℝ) 1} := by
      have : {x : Fin space.length → ℝ | ∀ k, x k ∈ Set.Icc (0 : ℝ) 1} = Set.pi Set.univ fun _ => Set.Icc (0 : ℝ) 1 := by ext x; simp only [Set.mem_ofPred_eq, Set.mem_pi, Set.mem_univ, true_imp_iff]
      rw [this]
      exact MeasurableSet.univ_pi fun _ => measurableSet_Icc
    have hiff : ∀ x : Fin space.length → ℝ, UnitRow space.length (List.ofFn x) ↔ ∀ k, x k ∈ Set.Icc (0 : ℝ) 1 := by
      intro x
      simp only [UnitRow, List.length_ofFn, true_and, List.mem_ofFn, Set.mem_Icc]
      exact ⟨fun h k => h _ ⟨k, rfl⟩, by rintro h _ ⟨k, rfl⟩; exact h k⟩
    simp only [hiff] at hunit ⊢
    have h0 := (ae_map_iff (hX.meas 0).aemeasurable hms).2 hunit
    rw [← hX.ident i] at h0
    exact (ae_map_iff (hX.meas i).aemeasurable hms).1 h0
  -- integrals
  have hmeas : ∀ {q : List ℝ → ℝ}, (Measurable fun x : Fin space.length → ℝ => q (List.ofFn x)) → ∀ t, Measurable fun ω => q ((List.ofFn (X 0 ω)).set f t) := by
    intro q hq t
    have := (hX.values [hp] [t] hq).1 0
    simpa only [hset] using this
  have hint : ∀ {q : List ℝ → ℝ}, (Measurable fun x : Fin space.length → ℝ => q (List.ofFn x)) → ∀ {b : ℝ}, (∀ r, UnitRow space.length r → |q r| ≤ b) → ∀ t ∈ Set.Icc (0 : ℝ) 1,
      Integrable (fun ω => q ((List.ofFn (X 0 ω)).set f t)) P := by
    intro q hq b hb t ht
    refine Integrable.of_bound (hmeas hq t).aestronglyMeasurable b ?_
    filter_upwards [hunit] with ω hω
    exact hb _ (UnitRow_set hω f ht)
  have bmu : ∀ r, UnitRow space.length r → |mu r| ≤ |a| + w := by
    intro r hr
    have h1 := hrange r hr
    rw [abs_le]
    constructor <;> linarith [neg_abs_le a, le_abs_self a]
  have bh : ∀ r, UnitRow space.length r → |h r| ≤ |a| + w + B * c := by
    intro r hr
    have h1 := abs_le.1 (hcov r hr)
    have h2 := abs_le.1 (bmu r hr)
    have h3 := mul_le_mul_of_nonneg_left ((le_abs_self _).trans (hsd r hr)) hB
    rw [abs_le]
    constructor <;> linarith
  obtain ⟨M, hM⟩ : ∃ M : ℝ → ℝ, M = fun t => ∫ ω', mu ((List.ofFn (X 0 ω')).set f t) ∂P := ⟨_, rfl⟩
  have hMt : ∀ t, M t = ∫ ω', mu ((List.ofFn (X 0 ω')).set f t) ∂P := fun t => by rw [hM]
  have hMC : ∀ t ∈ Set.Icc (0 : ℝ) 1, ∀ t' ∈ Set.Icc (0 : ℝ) 1, |M t - M t'| ≤ C * |t - t'| := by
    intro t ht t' ht'
    rw [hMt, hMt, ← integral_sub (hint mmu bmu t ht) (hint mmu bmu t' ht')]
    have := norm_integral_le_of_norm_le_const (μ := P) (f := fun ω => mu ((List.ofFn (X 0 ω)).set f t) - mu ((List.ofFn (X 0 ω)).set f t')) (C := C * |t - t'|) (by
      filter_upwards [hunit] with ω hω
      exact hC _ hω t ht t' ht')
    simpa using this
  have hMh : ∀ t ∈ Set.Icc (0 : ℝ) 1, |M t - ∫ ω', h ((List.ofFn (X 0 ω')).set f t) ∂P| ≤ B * ∫ ω', sd ((List.ofFn (X 0 ω')).set f t) ∂P := by
    intro t ht
    rw [hMt, ← integral_sub (hint mmu bmu t ht) (hint mh bh t ht), ← integral_const_mul]
    rw [← Real.norm_eq_abs]
    refine norm_integral_le_of_norm_le ((hint msd hsd t ht).const_mul B) ?_
    filter_upwards [hunit] with ω hω
    exact hcov _ (UnitRow_set hω f ht)
  -- the deviations of the averages
  obtain ⟨grid, hgdef⟩ : ∃ grid : List (List ℝ), grid = (List.range n).map fun i => [gridValue n i] := ⟨_, rfl⟩
  have hgv : ∀ i < n, gridValue n i ∈ Set.Icc (0 : ℝ) 1 := fun i hi => gridValue_unit hi
  have hdev := hX.deviations hind (selected := [hp]) (grid := grid) mmu hw (by
    intro t ht
    rw [hgdef] at ht
    obtain ⟨i, hi, rfl⟩ := List.mem_map.1 ht
    refine ⟨a, ?_⟩
    filter_upwards [hunit] with ω hω
    rw [hset]
    exact hrange _ (UnitRow_set hω f (hgv i (List.mem_range.1 hi)))) hm hε
  have hgl : grid.length = n := by simp [hgdef]
  rw [hgl] at hdev
  have hnull : P.real {ω | ¬ ∀ i, UnitRow space.length (List.ofFn (X i ω))} = 0 := by
    rw [measureReal_def, ae_iff.1 hall, ENNReal.toReal_zero]
  obtain ⟨G, hG⟩ : ∃ G : Set Ω, G = {ω | ∃ s c t, pdpInit space predict sel (firstSamples X m ω) n = .ok s ∧ (pdpCurve s).2 = .ok c ∧ t ∈ Set.Icc (0 : ℝ) 1 ∧
      curveIncumbent color c ax = (ax'.draw [.vline color (interpolate l u g t)], .ok ()) ∧ ∀ t' ∈ Set.Icc (0 : ℝ) 1,
        ∫ ω', h ((List.ofFn (X 0 ω')).set f t) ∂P ≤ ∫ ω', h ((List.ofFn (X 0 ω')).set f t') ∂P + 2 * ε + C / (2 * ((n : ℝ) - 1)) +
          B * (∫ ω', sd ((List.ofFn (X 0 ω')).set f t) ∂P + ∫ ω', sd ((List.ofFn (X 0 ω')).set f t') ∂P)} := ⟨_, rfl⟩
  rw [← hG]
  have hcover : (Set.univ : Set Ω) ⊆ G ∪ {ω | ∃ t ∈ grid, ε ≤ |(∑ i ∈ Finset.range m, mu (atPoint space [hp] t (List.ofFn (X i ω)))) / m
        - ∫ ω', mu (atPoint space [hp] t (List.ofFn (X 0 ω'))) ∂P|} ∪ {ω | ¬ ∀ i, UnitRow space.length (List.ofFn (X i ω))} := by
    intro ω _
    by_cases hu : ∀ i, UnitRow space.length (List.ofFn (X i ω))
    · left
      by_cases hω : ∃ t ∈ grid, ε ≤ |(∑ i ∈ Finset.range m, mu (atPoint space [hp] t (List.ofFn (X i ω)))) / m
        - ∫ ω', mu (atPoint space [hp] t (List.ofFn (X 0 ω'))) ∂P|
      · exact .inr hω
      · left
        rw [hG]
        obtain ⟨S, hS⟩ : ∃ S, S = firstSamples X m ω := ⟨_, rfl⟩
        have hSu : ∀ r ∈ S, UnitRow space.length r := by
          intro r hr
          rw [hS] at hr
          obtain ⟨i, -, rfl⟩ := List.mem_map.1 hr
          exact hu i
        have hSne : S ≠ [] := by rw [hS, firstSamples, Ne, List.map_eq_nil_iff, List.range_eq_nil]; omega
        have hmean : ∀ q : List ℝ → ℝ, meanOver S q = (∑ i ∈ Finset.range m, q (List.ofFn (X i ω))) / m := by
          intro q
          have h1 : (S.map q).sum = ∑ i ∈ Finset.range m, q (List.ofFn (X i ω)) := by
            rw [hS, firstSamples, List.map_map, Finset.sum_range, ← List.sum_ofFn, List.ofFn_eq_map, ← List.map_coe_finRange_eq_range, List.map_map]
            rfl
          have h2 : (S.length : ℝ) = m := by simp [hS, firstSamples]
          rw [meanOver, h1, h2]
        obtain ⟨cf, hcf⟩ : ∃ cf : IceCfg ℝ, cf = ⟨space, [hp], S, S.length, n, n ^ 1, false, predict⟩ := ⟨_, rfl⟩
        have hinit : algorithmInit space predict sel S n = .ok cf := by rw [algorithmInit, hsel, hcf]; rfl
        have hpl : Plottable cf mu sd := by
          rw [hcf]
          exact ⟨⟨hwf, by simpa using hmem, by simp, by simp, fun r hr => (hSu r hr).1, rfl, rfl⟩, hdecl, fun r hr => (hSu r hr).2, hSne, by dsimp only; omega, hrow⟩
        have hcn : cf.perAxis = n := by rw [hcf]
        have hcS : cf.samples = S := by rw [hcf]
        obtain ⟨c, i, p1, p2, p3, p4⟩ := incumbent_on_grid (s := ⟨cf, none, none, none, none⟩) ⟨rfl, rfl, rfl⟩ rfl hpl (hp := hp) (by rw [hcf]) hk (f := f)
          (by rw [hcf]; exact hf) (by rw [hcf]; exact hn) hax color
        dsimp only at p2 p3 p4
        rw [hcn] at p2 p3 p4
        rw [hcS] at p4
        have hdevi : ∀ i < n, |(meanOver S fun r => mu (r.set f (gridValue n i))) - M (gridValue n i)| ≤ ε := by
          intro i hi
          by_contra hcon
          refine hω ⟨[gridValue n i], by rw [hgdef]; exact List.mem_map.2 ⟨i, List.mem_range.2 hi, rfl⟩, ?_⟩
          simp only [hset]
          rw [← hMt, ← hmean fun r => mu (r.set f (gridValue n i))]
          exact (not_le.1 hcon).le
        refine ⟨⟨cf, none, none, none, none⟩, c, gridValue n i, by rw [← hS, pdpInit, hinit]; rfl, p1, hgv i p2, p3, fun t' ht' => ?_⟩
        have hmin : ∀ j < n, M (gridValue n i) - 2 * ε ≤ M (gridValue n j) := by
          intro j hj
          linarith [(abs_le.1 (hdevi i p2)).1, (abs_le.1 (hdevi j hj)).2, p4 j hj]
        obtain ⟨a', b', v, ha, hb, hab, v0, v1, hte, hle⟩ := grid_chord hn hmin ht'
        have hpos : 0 < b' - a' := by rw [hab]; positivity
        have d3 := chord_lipschitz hMC ha hb (by linarith) v0 v1
        rw [← hte, hab, show C * (1 / ((n : ℝ) - 1)) / 2 = C / (2 * ((n : ℝ) - 1)) by field_simp] at d3
        have d3 := abs_le.1 d3
        have d4 := abs_le.1 (hMh t' ht')
        have d5 := abs_le.1 (hMh _ (hgv i p2))
        linarith
    · exact .inr hu
  have h3 := (measureReal_mono (μ := P) hcover).trans ((measureReal_union_le _ _).trans (add_le_add_left (measureReal_union_le _ _) _))
  rw [hnull, probReal_univ] at h3
  linarith

/-- The surrogate predicts `x₀ x₁` with the standard deviation 1/100 and is off by just that; eleven grid points, `m` uniform samples: with probability at least `1 - 22 exp(-m / 200)` the true
partial dependence at the marked value is at most 17/100 above that at -5, the best of the values from -5 to 5; so the marked value is at most -8/5. -/
example {m : Nat} (hm : 1 ≤ m) : 1 - 22 * Real.exp (-(m : ℝ) / 200) ≤ (uniformSamples stSpace.length).real {ω | ∃ s c x,
    pdpInit stSpace (fun rows => .ok (rows.map fun r => r.getD 0 0 * r.getD 1 0, rows.map fun _ => 1 / 100)) (.name "x1") (firstSamples (fun i ω => ω i) m ω) 11 = .ok s ∧
    (pdpCurve s).2 = .ok c ∧ curveIncumbent "black" c Ax.new = (⟨"x1", "Prediction", false, false, some (-5, 5), none, [.vline "black" x]⟩, .ok ()) ∧ -5 ≤ x ∧ x ≤ -8 / 5} := by
  obtain ⟨hr, hu⟩ := uniformSamples_spec stSpace.length
  have hof : ∀ x : Fin stSpace.length → ℝ, List.ofFn x = [x ⟨0, by simp [stSpace]⟩, x ⟨1, by simp [stSpace]⟩] := fun _ => rfl
  have hint : Integrable (fun ω : ℕ → Fin stSpace.length → ℝ => ω 0 ⟨1, by simp [stSpace]⟩) (uniformSamples stSpace.length) ∧
      ∫ ω : ℕ → Fin stSpace.length → ℝ, ω 0 ⟨1, by simp [stSpace]⟩ ∂(uniformSamples stSpace.length) = 1 / 2 := by
    have hm : Measurable fun ω : ℕ → Fin stSpace.length → ℝ => ω 0 ⟨1, by simp [stSpace]⟩ := by fun_prop
    have h1 : Integrable (fun x : ℝ => x) ((uniformSamples stSpace.length).map fun ω => ω 0 ⟨1, by simp [stSpace]⟩) := by
      rw [hu]; exact continuous_id.continuousOn.integrableOn_compact isCompact_Icc
    refine ⟨h1.comp_measurable hm, ?_⟩
    rw [← integral_map (φ := fun ω : ℕ → Fin stSpace.length → ℝ => ω 0 ⟨1, by simp [stSpace]⟩) (f := fun x : ℝ => x) hm.aemeasurable (by fun_prop), hu, integral_Icc_eq_integral_Ioc,
      ← intervalIntegral.integral_of_le zero_le_one, integral_id]
    norm_num
  have hmeas : Measurable fun x : Fin stSpace.length → ℝ => (List.ofFn x).getD 0 0 * (List.ofFn x).getD 1 0 := by
    have : (fun x : Fin stSpace.length → ℝ => (List.ofFn x).getD 0 0 * (List.ofFn x).getD 1 0) = fun x =>
        x ⟨0, by simp [stSpace]⟩ * x ⟨1, by simp [stSpace]⟩ := by funext x; rw [hof]; rfl
    rw [this]; fun_prop
  have hind : iIndepFun (fun (i : ℕ) (ω : ℕ → Fin stSpace.length → ℝ) => ω i) (uniformSamples stSpace.length) :=
    iIndepFun_infinitePi (P := fun _ : ℕ => Measure.pi fun _ : Fin stSpace.length => volume.restrict (Set.Icc (0 : ℝ) 1)) (X := fun _ x => x) fun _ => measurable_id
  have hunit : ∀ᵐ ω ∂(uniformSamples stSpace.length), UnitRow stSpace.length (List.ofFn (ω 0)) := by
    have hb : ∀ᵐ ω ∂(uniformSamples stSpace.length), ∀ k, ω 0 k ∈ Set.Icc (0 : ℝ) 1 := by
      rw [ae_all_iff]
      intro k
      have hm : Measurable fun ω : ℕ → Fin stSpace.length → ℝ => ω 0 k := by fun_prop
      refine ae_of_ae_map (f := fun ω : ℕ → Fin stSpace.length → ℝ => ω 0 k) (p := fun x => x ∈ Set.Icc (0 : ℝ) 1) hm.aemeasurable ?_
      rw [hu]
      exact ae_restrict_mem measurableSet_Icc
    filter_upwards [hb] with ω hω
    refine ⟨by simp, fun e he => ?_⟩
    obtain ⟨k, rfl⟩ := List.mem_ofFn.1 he
    exact hω k
  have hrow : ∀ r, UnitRow stSpace.length r → ∃ a b, r = [a, b] ∧ (0 ≤ a ∧ a ≤ 1) ∧ 0 ≤ b ∧ b ≤ 1 := by
    intro r h
    obtain ⟨a, b, rfl⟩ := List.length_eq_two.1 h.1
    exact ⟨a, b, rfl, h.2 a (by simp), h.2 b (by simp)⟩
  have key := C204_incumbent (P := uniformSamples stSpace.length) stSpace_wf (by
      intro hp hm
      simp only [stSpace, List.mem_cons, List.not_mem_nil, or_false] at hm
      rcases hm with rfl | rfl
      · exact ⟨-5, 5, false, stSpace_wf, ⟨_, by simp [stSpace], rfl, .inl rfl⟩, by norm_num, by simp⟩
      · exact ⟨-5, 5, false, stSpace_wf, ⟨_, by simp [stSpace], rfl, .inl rfl⟩, by norm_num, by simp⟩)
    (predict := fun rows => .ok (rows.map fun r => r.getD 0 0 * r.getD 1 0, rows.map fun _ => 1 / 100)) (mu := fun r => r.getD 0 0 * r.getD 1 0) (sd := fun _ => 1 / 100)
    (h := fun r => r.getD 0 0 * r.getD 1 0 + 1 / 100) (fun _ _ _ => rfl) (sel := .name "x1") (hp := ⟨"x1", .float (-5) 5 false⟩) rfl (by simp [stSpace]) (.inl rfl)
    (f := 0) ⟨_, rfl, rfl⟩ (n := 11) (by norm_num) (ax := Ax.new) (ax' := ⟨"x1", "Prediction", false, false, some (-5, 5), none, []⟩) rfl "black"
    (X := fun i ω => ω i) hr hind hunit hmeas measurable_const (hmeas.add_const _) (a := 0) (w := 1) (B := 1) (C := 1) (c := 1 / 100) one_pos zero_le_one (by
      intro r h
      obtain ⟨a, b, rfl, ha, hb⟩ := hrow r h
      exact ⟨mul_nonneg ha.1 hb.1, by rw [zero_add]; exact mul_le_one₀ ha.2 hb.1 hb.2⟩) (by intro r _; rw [abs_of_pos (by norm_num)]) (by
      intro r _
      rw [sub_add_cancel_left, abs_neg, abs_of_pos (by norm_num), one_mul]) (by
      intro r h t _ t' _
      obtain ⟨a, b, rfl, ha, hb⟩ := hrow r h
      simp only [List.set_cons_zero, List.getD_cons_zero, List.getD_cons_succ]
      rw [← sub_mul, abs_mul, one_mul, abs_of_nonneg hb.1]
      exact mul_le_of_le_one_right (abs_nonneg _) hb.2) hm (ε := 1 / 20) (by norm_num)
  rw [show -2 * (m : ℝ) * (1 / 20) ^ 2 / 1 ^ 2 = -(m : ℝ) / 200 by ring] at key
  refine le_trans (le_of_eq (by norm_num)) (key.trans (measureReal_mono ?_))
  rintro ω ⟨s, c, t, h1, h2, ht, h3, h4⟩
  have ei : interpolate (-5) 5 false t = 10 * t - 5 := by simp [interpolate]; ring
  rw [ei] at h3
  have h5 := h4 0 (by simp)
  have eh : ∀ t : ℝ, (fun ω' : ℕ → Fin stSpace.length → ℝ => ((List.ofFn (ω' 0)).set 0 t).getD 0 0 * ((List.ofFn (ω' 0)).set 0 t).getD 1 0 + 1 / 100)
      = fun ω' => t * ω' 0 ⟨1, by simp [stSpace]⟩ + 1 / 100 := fun _ => rfl
  have ev : ∀ t : ℝ, ∫ ω' : ℕ → Fin stSpace.length → ℝ, (((List.ofFn (ω' 0)).set 0 t).getD 0 0 * ((List.ofFn (ω' 0)).set 0 t).getD 1 0 + 1 / 100) ∂(uniformSamples stSpace.length) = t / 2 + 1 / 100 := by
    intro t
    rw [eh, integral_add (hint.1.const_mul t) (integrable_const _), integral_const_mul, hint.2, integral_const, probReal_univ]
    norm_num
    ring
  rw [ev, ev, integral_const, probReal_univ] at h5
  norm_num at h5
  exact ⟨s, c, 10 * t - 5, h1, h2, h3, by linarith [ht.1], by linarith⟩

end PyPDP
