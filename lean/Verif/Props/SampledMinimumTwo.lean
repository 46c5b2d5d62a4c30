/-
C205: the pair of values that a PDP of random samples marks as its minimum, against the minimum of the partial dependence of the blackbox function.
-/
import Verif.Props.SampledMinimum

namespace PyPDP
open Spec MeasureTheory ProbabilityTheory
variable {Ω : Type} [MeasurableSpace Ω]

/-- the point of `plot_incumbent` is at a grid point with the smallest average -/
theorem incumbent_on_grid_two {s : PdpState ℝ} (hs : PdpFresh s) (hi : s.ice = none) {mu sd : List ℝ → ℝ} (hc : Plottable s.cfg mu sd) {p q : Hp ℝ}
    (hsel : s.cfg.selected = [p, q]) (hn : 2 ≤ s.cfg.perAxis) {l u l' u' : ℝ} {g g' : Bool}
    (hk : p.kind = .float l u g ∨ p.kind = .integer l u g) (hk' : q.kind = .float l' u' g' ∨ q.kind = .integer l' u' g') {f f' : Nat}
    (hf : IsFeature s.cfg.space p f) (hf' : IsFeature s.cfg.space q f') {ax ax' : Ax ℝ}
    (hax : checkAndSetAxis [p, q] true "Prediction" ax = (ax', .ok ())) (color : String) :
    ∃ c i j, (pdpCurve s).2 = .ok c ∧ i < s.cfg.perAxis ∧ j < s.cfg.perAxis ∧
      curveIncumbent color c ax = (ax'.draw [.points color [interpolate l u g (gridValue s.cfg.perAxis i)] [interpolate l' u' g' (gridValue s.cfg.perAxis j)]], .ok ()) ∧
      ∀ i' < s.cfg.perAxis, ∀ j' < s.cfg.perAxis, (meanOver s.cfg.samples fun r => mu ((r.set f (gridValue s.cfg.perAxis i)).set f' (gridValue s.cfg.perAxis j))) ≤
        meanOver s.cfg.samples fun r => mu ((r.set f (gridValue s.cfg.perAxis i')).set f' (gridValue s.cfg.perAxis j')) := by
  obtain ⟨idx, grid, x, y, v, hidx, hgr, hfull, hcurve, hvalid, -, hl, hat⟩ := pdp_core hs hi hc
  rw [hsel] at hidx hgr hfull
  obtain rfl := idx_two hc.valid.wf hf hf' hidx
  have hn1 : (0 : ℝ) < (s.cfg.perAxis : ℝ) - 1 := by
    have : (2 : ℝ) ≤ s.cfg.perAxis := by exact_mod_cast hn
    linarith
  have hmem : ∀ i < s.cfg.perAxis, ∀ j < s.cfg.perAxis, [gridValue s.cfg.perAxis i, gridValue s.cfg.perAxis j] ∈ grid := by
    intro i hi j hj
    refine (hfull.2 _).2 ⟨rfl, ?_⟩
    simp only [List.mem_cons, List.not_mem_nil, or_false, forall_eq_or_imp, forall_eq]
    exact ⟨⟨i, hi, rfl⟩, ⟨j, hj, rfl⟩⟩
  have hne : x ≠ [] := by
    rintro rfl
    have : grid = [] := List.length_eq_zero_iff.1 (by simpa using hl.symm)
    have h0 := hmem 0 (by omega) 0 (by omega)
    rw [this] at h0
    simp at h0
  have hyl : y.length = grid.length := (hvalid.values).trans hl
  obtain ⟨i, m, row, z, z', hbest, hrow, hz, hz', hdraw⟩ := C74_two hvalid hne hsel hax color
  dsimp only at hbest hrow
  have hil : i < grid.length := by rw [← hyl]; exact (List.getElem?_eq_some_iff.1 hbest.1).1
  obtain ⟨a, b, ⟨ia, hia, rfl⟩, ⟨ib, hib, rfl⟩, hgi⟩ : ∃ a b, (∃ i < s.cfg.perAxis, a = gridValue s.cfg.perAxis i) ∧ (∃ i < s.cfg.perAxis, b = gridValue s.cfg.perAxis i) ∧
      grid[i]? = some [a, b] := by
    obtain ⟨h1, h2⟩ := (hfull.2 grid[i]).1 (List.getElem_mem hil)
    rw [List.getElem?_eq_getElem hil]
    match grid[i], h1, h2 with
    | [a, b], _, h2 =>
      simp only [List.mem_cons, List.not_mem_nil, or_false, forall_eq_or_imp, forall_eq] at h2
      obtain ⟨⟨i1, hi1, rfl⟩, ⟨i2, hi2, rfl⟩⟩ := h2
      exact ⟨_, _, ⟨i1, hi1, rfl⟩, ⟨i2, hi2, rfl⟩, rfl⟩
  have hval : ∀ (j : Nat) a b, grid[j]? = some [a, b] → y[j]? = some (meanOver s.cfg.samples fun r => mu ((r.set f a).set f' b)) := by
    intro j a b hj
    obtain ⟨-, h2, -⟩ := hat j [a, b] hj
    exact h2
  have hnat : ∀ {hp : Hp ℝ} {l u : ℝ} {g : Bool} {k : Nat} {e : ℝ}, (hp.kind = .float l u g ∨ hp.kind = .integer l u g) → s.cfg.selected[k]? = some hp →
      [gridValue s.cfg.perAxis ia, gridValue s.cfg.perAxis ib][k]? = some e → ∀ {z}, NaturalAt s.cfg.space hp row z → z = interpolate l u g e := by
    intro hp l u g k e hk hsk hek z hz
    obtain ⟨h1, -, -⟩ := hat i _ hgi
    obtain ⟨f', l', u', g', e', hf', hk', he, rfl⟩ := hz
    have h4 := h1 k hp f' hsk hf'
    rw [at2, hrow, Option.bind_some, he, hek] at h4
    obtain rfl := Option.some.inj h4
    have : l' = l ∧ u' = u ∧ g' = g := by
      rcases hk with hk | hk <;> rcases hk' with hk' | hk' <;> rw [hk] at hk' <;> cases hk' <;> exact ⟨rfl, rfl, rfl⟩
    obtain ⟨rfl, rfl, rfl⟩ := this
    rfl
  refine ⟨_, ia, ib, hcurve, hia, hib, ?_, fun i1 hi1 i2 hi2 => ?_⟩
  · rw [hdraw, hnat hk (k := 0) (by rw [hsel]; rfl) rfl hz, hnat hk' (k := 1) (by rw [hsel]; rfl) rfl hz']
  · obtain ⟨j, hj⟩ := List.getElem?_of_mem (hmem i1 hi1 i2 hi2)
    have h1 := FirstBest.le hbest (hval j _ _ hj)
    rwa [Option.some.inj (hbest.1.symm.trans (hval i _ _ hgi))] at h1

/-- setting two selected hyperparameters is setting their columns -/
theorem atPoint_set_two {space : ConfigSpace ℝ} (hwf : space.WF) {p q : Hp ℝ} (hp : p ∈ space) (hq : q ∈ space) (hpq : p.name ≠ q.name) {f f' : Nat} (hf : IsFeature space p f)
    (hf' : IsFeature space q f') {r : List ℝ} (hr : r.length = space.length) (t t' : ℝ) :
    atPoint space [p, q] [t, t'] r = (r.set f t).set f' t' := by
  have hvc : ValidCfg (⟨space, [p, q], [], 0, 1, 1, false, fun _ => .ok ([], [])⟩ : IceCfg ℝ) :=
    ⟨hwf, by simpa using ⟨hp, hq⟩, by simpa using hpq, by simp, by simp, rfl, rfl⟩
  have := assignRow_atPoint hvc (idx := [f, f']) ((C06_positions hwf [p, q] [f, f']).2 (.cons hf (.cons hf' .nil))) (t := [t, t']) hr rfl
  rw [← this]
  rfl

/-- **C205** The point that `plot_incumbent` marks on the curve of a PDP of two hyperparameters and random samples is nearly the best pair of values. Let `m` samples be drawn independently from one
distribution of normalised vectors, let the surrogate's means be in a range of width `w`, change by at most `C` times the larger of the changes of the two normalised hyperparameters and be off from
the blackbox function by at most `B` standard deviations. With probability at least `1 - 2 n² exp(-2 m ε² / w²)` (`n` grid points per axis), the expectation of the blackbox function with
both hyperparameters set to the marked values exceeds that for any other pair of values between the bounds by at most `2 ε + C / (2 (n - 1))` plus `B` times the sum of the
expected standard deviations at both pairs. -/
theorem C205_incumbent {P : Measure Ω} [IsProbabilityMeasure P] {space : ConfigSpace ℝ} (hwf : space.WF) (hdecl : ∀ hp ∈ space, ∃ l u g, Declares space hp.name l u g) {predict : Predict ℝ}
    {mu sd h : List ℝ → ℝ} (hrow : RowWise space.length predict mu sd) {sel : Selection ℝ} {p q : Hp ℝ} (hsel : convertHyperparameters sel space = .ok [p, q]) (hpm : p ∈ space) (hqm : q ∈ space)
    (hpq : p.name ≠ q.name) {l u l' u' : ℝ} {g g' : Bool} (hk : p.kind = .float l u g ∨ p.kind = .integer l u g) (hk' : q.kind = .float l' u' g' ∨ q.kind = .integer l' u' g') {f f' : Nat}
    (hf : IsFeature space p f) (hf' : IsFeature space q f') {n : Nat} (hn : 2 ≤ n)
    {ax ax' : Ax ℝ} (hax : checkAndSetAxis [p, q] true "Prediction" ax = (ax', .ok ())) (color : String)
    {X : ℕ → Ω → Fin space.length → ℝ} (hX : IsRandomSample P X) (hind : iIndepFun X P) (hunit : ∀ᵐ ω ∂P, UnitRow space.length (List.ofFn (X 0 ω)))
    (mmu : Measurable fun x : Fin space.length → ℝ => mu (List.ofFn x)) (msd : Measurable fun x : Fin space.length → ℝ => sd (List.ofFn x))
    (mh : Measurable fun x : Fin space.length → ℝ => h (List.ofFn x)) {a w B C c : ℝ} (hw : 0 < w) (hB : 0 ≤ B)
    (hrange : ∀ r, UnitRow space.length r → a ≤ mu r ∧ mu r ≤ a + w) (hsd : ∀ r, UnitRow space.length r → |sd r| ≤ c)
    (hcov : ∀ r, UnitRow space.length r → |mu r - h r| ≤ B * sd r) (hC0 : 0 ≤ C)
    (hC : ∀ r, UnitRow space.length r → ∀ a ∈ Set.Icc (0 : ℝ) 1, ∀ a' ∈ Set.Icc (0 : ℝ) 1, ∀ b ∈ Set.Icc (0 : ℝ) 1, ∀ b' ∈ Set.Icc (0 : ℝ) 1,
      |mu ((r.set f a).set f' b) - mu ((r.set f a').set f' b')| ≤ C * max |a - a'| |b - b'|)
    {m : Nat} (hm : 1 ≤ m) {ε : ℝ} (hε : 0 ≤ ε) :
    1 - 2 * n ^ 2 * Real.exp (-2 * m * ε ^ 2 / w ^ 2) ≤ P.real {ω | ∃ s c a b, pdpInit space predict sel (firstSamples X m ω) n = .ok s ∧ (pdpCurve s).2 = .ok c ∧ a ∈ Set.Icc (0 : ℝ) 1 ∧ b ∈ Set.Icc (0 : ℝ) 1 ∧
      curveIncumbent color c ax = (ax'.draw [.points color [interpolate l u g a] [interpolate l' u' g' b]], .ok ()) ∧ ∀ a' ∈ Set.Icc (0 : ℝ) 1, ∀ b' ∈ Set.Icc (0 : ℝ) 1,
        ∫ ω', h (((List.ofFn (X 0 ω')).set f a).set f' b) ∂P ≤ ∫ ω', h (((List.ofFn (X 0 ω')).set f a').set f' b') ∂P + 2 * ε + C / (2 * ((n : ℝ) - 1)) +
          B * (∫ ω', sd (((List.ofFn (X 0 ω')).set f a).set f' b) ∂P + ∫ ω', sd (((List.ofFn (X 0 ω')).set f a').set f' b') ∂P)} := by
  have hn1 : (0 : ℝ) < (n : ℝ) - 1 := by
    have : (2 : ℝ) ≤ n := by exact_mod_cast hn
    linarith
  have hset : ∀ t t' (x : Fin space.length → ℝ), atPoint space [p, q] [t, t'] (List.ofFn x) = ((List.ofFn x).set f t).set f' t' := fun t t' x =>
    atPoint_set_two hwf hpm hqm hpq hf hf' (by simp) t t'
  -- all samples are normalised, almost surely
  have hall : ∀ᵐ ω ∂P, ∀ i, UnitRow space.length (List.ofFn (X i ω)) := by
    rw [ae_all_iff]
    intro i
    have hms : MeasurableSet {x : Fin space.length → ℝ | ∀ k, x k ∈ Set.Icc (0 : ℝ) 1} := by
      have : {x : Fin space.length → ℝ | ∀ k, x k ∈ Set.Icc (0 : ℝ) 1} = Set.pi Set.univ fun _ => Set.Icc (0 : ℝ) 1 := by ext x; simp only [Set.mem_ofPred_eq, Set.mem_pi, Set.mem_univ, true_imp_iff]
      rw [this]
      exact MeasurableSet.univ_pi fun _ => measurableSet_Icc
    have hiff : ∀ x : Fin space.length → ℝ, UnitRow space.length (List.ofFn x) ↔ ∀ k, x k ∈ Set.Icc (0 : ℝ) 1 := by
      intro x
      simp only [UnitRow, List.length_ofFn, true_and, List.mem_ofFn, Set.mem_Icc]
      exact ⟨fun h k => h _ ⟨k, rfl⟩, by rintro h _ ⟨k, rfl⟩; exact h k⟩
    simp only [hiff] at hunit ⊢
    have h0 := (ae_map_iff (hX.meas 0).aemeasurable hms).2 hunit
    rw [← hX.ident i] at h0
    exact (ae_map_iff (hX.meas i).aemeasurable hms).1 h0
  -- integrals
  have hmeas : ∀ {z : List ℝ → ℝ}, (Measurable fun x : Fin space.length → ℝ => z (List.ofFn x)) → ∀ t t', Measurable fun ω => z (((List.ofFn (X 0 ω)).set f t).set f' t') := by
    intro z hz t t'
    have := (hX.values [p, q] [t, t'] hz).1 0
    simpa only [hset] using this
  have hint : ∀ {z : List ℝ → ℝ}, (Measurable fun x : Fin space.length → ℝ => z (List.ofFn x)) → ∀ {b : ℝ}, (∀ r, UnitRow space.length r → |z r| ≤ b) → ∀ t ∈ Set.Icc (0 : ℝ) 1,
      ∀ t' ∈ Set.Icc (0 : ℝ) 1, Integrable (fun ω => z (((List.ofFn (X 0 ω)).set f t).set f' t')) P := by
    intro z hz b hb t ht t' ht'
    refine Integrable.of_bound (hmeas hz t t').aestronglyMeasurable b ?_
    filter_upwards [hunit] with ω hω
    exact hb _ (UnitRow_set (UnitRow_set hω f ht) f' ht')
  have bmu : ∀ r, UnitRow space.length r → |mu r| ≤ |a| + w := by
    intro r hr
    have h1 := hrange r hr
    rw [abs_le]
    constructor <;> linarith [neg_abs_le a, le_abs_self a]
  have bh : ∀ r, UnitRow space.length r → |h r| ≤ |a| + w + B * c := by
    intro r hr
    have h1 := abs_le.1 (hcov r hr)
    have h2 := abs_le.1 (bmu r hr)
    have h3 := mul_le_mul_of_nonneg_left ((le_abs_self _).trans (hsd r hr)) hB
    rw [abs_le]
    constructor <;> linarith
  obtain ⟨M, hM⟩ : ∃ M : ℝ → ℝ → ℝ, M = fun t t' => ∫ ω', mu (((List.ofFn (X 0 ω')).set f t).set f' t') ∂P := ⟨_, rfl⟩
  have hMt : ∀ t t', M t t' = ∫ ω', mu (((List.ofFn (X 0 ω')).set f t).set f' t') ∂P := fun t t' => by rw [hM]
  have hMC : ∀ a ∈ Set.Icc (0 : ℝ) 1, ∀ a' ∈ Set.Icc (0 : ℝ) 1, ∀ b ∈ Set.Icc (0 : ℝ) 1, ∀ b' ∈ Set.Icc (0 : ℝ) 1, |M a b - M a' b'| ≤ C * max |a - a'| |b - b'| := by
    intro a ha a' ha' b hb b' hb'
    rw [hMt, hMt, ← integral_sub (hint mmu bmu a ha b hb) (hint mmu bmu a' ha' b' hb')]
    have := norm_integral_le_of_norm_le_const (μ := P) (f := fun ω => mu (((List.ofFn (X 0 ω)).set f a).set f' b) - mu (((List.ofFn (X 0 ω)).set f a').set f' b'))
      (C := C * max |a - a'| |b - b'|) (by
      filter_upwards [hunit] with ω hω
      exact hC _ hω a ha a' ha' b hb b' hb')
    simpa using this
  have hMh : ∀ a ∈ Set.Icc (0 : ℝ) 1, ∀ b ∈ Set.Icc (0 : ℝ) 1,
      |M a b - ∫ ω', h (((List.ofFn (X 0 ω')).set f a).set f' b) ∂P| ≤ B * ∫ ω', sd (((List.ofFn (X 0 ω')).set f a).set f' b) ∂P := by
    intro a ha b hb
    rw [hMt, ← integral_sub (hint mmu bmu a ha b hb) (hint mh bh a ha b hb), ← integral_const_mul]
    rw [← Real.norm_eq_abs]
    refine norm_integral_le_of_norm_le ((hint msd hsd a ha b hb).const_mul B) ?_
    filter_upwards [hunit] with ω hω
    exact hcov _ (UnitRow_set (UnitRow_set hω f ha) f' hb)
  -- the deviations of the averages
  obtain ⟨grid, hgdef⟩ : ∃ grid : List (List ℝ), grid = (List.range n ×ˢ List.range n).map fun i => [gridValue n i.1, gridValue n i.2] := ⟨_, rfl⟩
  have hgv : ∀ i < n, gridValue n i ∈ Set.Icc (0 : ℝ) 1 := fun i hi => gridValue_unit hi
  have hdev := hX.deviations hind (selected := [p, q]) (grid := grid) mmu hw (by
    intro t ht
    rw [hgdef] at ht
    obtain ⟨i, hi, rfl⟩ := List.mem_map.1 ht
    obtain ⟨hi1, hi2⟩ := List.mem_product.1 hi
    refine ⟨a, ?_⟩
    filter_upwards [hunit] with ω hω
    rw [hset]
    exact hrange _ (UnitRow_set (UnitRow_set hω f (hgv _ (List.mem_range.1 hi1))) f' (hgv _ (List.mem_range.1 hi2)))) hm hε
  have hgl : (grid.length : ℝ) = (n : ℝ) ^ 2 := by rw [hgdef, List.length_map, List.length_product, List.length_range]; push_cast; ring
  rw [hgl] at hdev
  have hnull : P.real {ω | ¬ ∀ i, UnitRow space.length (List.ofFn (X i ω))} = 0 := by
    rw [measureReal_def, ae_iff.1 hall, ENNReal.toReal_zero]
  obtain ⟨G, hG⟩ : ∃ G : Set Ω, G = {ω | ∃ s c a b, pdpInit space predict sel (firstSamples X m ω) n = .ok s ∧ (pdpCurve s).2 = .ok c ∧ a ∈ Set.Icc (0 : ℝ) 1 ∧ b ∈ Set.Icc (0 : ℝ) 1 ∧
      curveIncumbent color c ax = (ax'.draw [.points color [interpolate l u g a] [interpolate l' u' g' b]], .ok ()) ∧ ∀ a' ∈ Set.Icc (0 : ℝ) 1, ∀ b' ∈ Set.Icc (0 : ℝ) 1,
        ∫ ω', h (((List.ofFn (X 0 ω')).set f a).set f' b) ∂P ≤ ∫ ω', h (((List.ofFn (X 0 ω')).set f a').set f' b') ∂P + 2 * ε + C / (2 * ((n : ℝ) - 1)) +
          B * (∫ ω', sd (((List.ofFn (X 0 ω')).set f a).set f' b) ∂P + ∫ ω', sd (((List.ofFn (X 0 ω')).set f a').set f' b') ∂P)} := ⟨_, rfl⟩
  rw [← hG]
  have hcover : (Set.univ : Set Ω) ⊆ G ∪ {ω | ∃ t ∈ grid, ε ≤ |(∑ i ∈ Finset.range m, mu (atPoint space [p, q] t (List.ofFn (X i ω)))) / m
        - ∫ ω', mu (atPoint space [p, q] t (List.ofFn (X 0 ω'))) ∂P|} ∪ {ω | ¬ ∀ i, UnitRow space.length (List.ofFn (X i ω))} := by
    intro ω _
    by_cases hu : ∀ i, UnitRow space.length (List.ofFn (X i ω))
    · left
      by_cases hω : ∃ t ∈ grid, ε ≤ |(∑ i ∈ Finset.range m, mu (atPoint space [p, q] t (List.ofFn (X i ω)))) / m
        - ∫ ω', mu (atPoint space [p, q] t (List.ofFn (X 0 ω'))) ∂P|
      · exact .inr hω
      · left
        rw [hG]
        obtain ⟨S, hS⟩ : ∃ S, S = firstSamples X m ω := ⟨_, rfl⟩
        have hSu : ∀ r ∈ S, UnitRow space.length r := by
          intro r hr
          rw [hS] at hr
          obtain ⟨i, -, rfl⟩ := List.mem_map.1 hr
          exact hu i
        have hSne : S ≠ [] := by rw [hS, firstSamples, Ne, List.map_eq_nil_iff, List.range_eq_nil]; omega
        have hmean : ∀ q : List ℝ → ℝ, meanOver S q = (∑ i ∈ Finset.range m, q (List.ofFn (X i ω))) / m := by
          intro q
          have h1 : (S.map q).sum = ∑ i ∈ Finset.range m, q (List.ofFn (X i ω)) := by
            rw [hS, firstSamples, List.map_map, Finset.sum_range, ← List.sum_ofFn, List.ofFn_eq_map, ← List.map_coe_finRange_eq_range, List.map_map]
            rfl
          have h2 : (S.length : ℝ) = m := by simp [hS, firstSamples]
          rw [meanOver, h1, h2]
        obtain ⟨cf, hcf⟩ : ∃ cf : IceCfg ℝ, cf = ⟨space, [p, q], S, S.length, n, n ^ 2, false, predict⟩ := ⟨_, rfl⟩
        have hinit : algorithmInit space predict sel S n = .ok cf := by rw [algorithmInit, hsel, hcf]; rfl
        have hpl : Plottable cf mu sd := by
          rw [hcf]
          exact ⟨⟨hwf, by simpa using ⟨hpm, hqm⟩, by simpa using hpq, by simp, fun r hr => (hSu r hr).1, rfl, rfl⟩, hdecl, fun r hr => (hSu r hr).2, hSne, by dsimp only; omega, hrow⟩
        have hcn : cf.perAxis = n := by rw [hcf]
        have hcS : cf.samples = S := by rw [hcf]
        obtain ⟨c, i, j, p1, p2, p2', p3, p4⟩ := incumbent_on_grid_two (s := ⟨cf, none, none, none, none⟩) ⟨rfl, rfl, rfl⟩ rfl hpl (p := p) (q := q) (by rw [hcf]) (by rw [hcf]; exact hn) hk hk'
          (f := f) (f' := f') (by rw [hcf]; exact hf) (by rw [hcf]; exact hf') hax color
        dsimp only at p2 p2' p3 p4
        rw [hcn] at p2 p2' p3 p4
        rw [hcS] at p4
        have hdevi : ∀ i < n, ∀ j < n, |(meanOver S fun r => mu ((r.set f (gridValue n i)).set f' (gridValue n j))) - M (gridValue n i) (gridValue n j)| ≤ ε := by
          intro i hi j hj
          by_contra hcon
          refine hω ⟨[gridValue n i, gridValue n j], by
            rw [hgdef]; exact List.mem_map.2 ⟨(i, j), List.mem_product.2 ⟨List.mem_range.2 hi, List.mem_range.2 hj⟩, rfl⟩, ?_⟩
          simp only [hset]
          rw [← hMt, ← hmean fun r => mu ((r.set f (gridValue n i)).set f' (gridValue n j))]
          exact (not_le.1 hcon).le
        refine ⟨⟨cf, none, none, none, none⟩, c, gridValue n i, gridValue n j, by rw [← hS, pdpInit, hinit]; rfl, p1, hgv i p2, hgv j p2', p3, fun a' ha' b' hb' => ?_⟩
        obtain ⟨i1, hi1, d1⟩ := nearest_step hn ha'.1 ha'.2
        obtain ⟨i2, hi2, d2⟩ := nearest_step hn hb'.1 hb'.2
        have hgv' : ∀ j : Nat, (j : ℝ) / ((n : ℝ) - 1) = gridValue n j := fun j => by rw [gridValue, if_neg (by omega)]
        rw [hgv'] at d1 d2
        have d3 := (hMC _ (hgv i1 hi1) _ ha' _ (hgv i2 hi2) _ hb').trans (show _ ≤ C / (2 * ((n : ℝ) - 1)) by
          rw [abs_sub_comm, abs_sub_comm _ b', div_eq_mul_one_div]
          exact mul_le_mul_of_nonneg_left (max_le d1 d2) hC0)
        have d3 := abs_le.1 d3
        have d4 := abs_le.1 (hMh a' ha' b' hb')
        have d5 := abs_le.1 (hMh _ (hgv i p2) _ (hgv j p2'))
        have d6 := abs_le.1 (hdevi i p2 j p2')
        have d7 := abs_le.1 (hdevi i1 hi1 i2 hi2)
        linarith [p4 i1 hi1 i2 hi2]
    · exact .inr hu
  have h3 := (measureReal_mono (μ := P) hcover).trans ((measureReal_union_le _ _).trans (add_le_add_left (measureReal_union_le _ _) _))
  rw [hnull, probReal_univ] at h3
  linarith

section ex

private def threeSpace : ConfigSpace ℝ := [⟨"x1", .float (-5) 5 false⟩, ⟨"x2", .float (-5) 5 false⟩, ⟨"x3", .float (-5) 5 false⟩]

/-- Three hyperparameters, the surrogate predicts `(x₁ + x₂) x₃ / 2` (normalised) with the standard deviation 1/100 and is off by just that; eleven grid points per axis, `m` uniform samples: with
probability at least `1 - 242 exp(-m / 200)` the sum of the marked values of the first two is at most -16/5; the best would be -10. -/
example {m : Nat} (hm : 1 ≤ m) : 1 - 242 * Real.exp (-(m : ℝ) / 200) ≤ (uniformSamples threeSpace.length).real {ω | ∃ s c x y,
    pdpInit threeSpace (fun rows => .ok (rows.map fun r => (r.getD 0 0 + r.getD 1 0) * r.getD 2 0 / 2, rows.map fun _ => 1 / 100)) (.many [.name "x1", .name "x2"])
      (firstSamples (fun i ω => ω i) m ω) 11 = .ok s ∧ (pdpCurve s).2 = .ok c ∧
    curveIncumbent "black" c Ax.new = (⟨"x1", "x2", false, false, some (-5, 5), some (-5, 5), [.points "black" [x] [y]]⟩, .ok ()) ∧ x + y ≤ -16 / 5} := by
  obtain ⟨hr, hu⟩ := uniformSamples_spec threeSpace.length
  have hwf : threeSpace.WF := by simp [ConfigSpace.WF, threeSpace]
  have hof : ∀ x : Fin threeSpace.length → ℝ, List.ofFn x = [x ⟨0, by simp [threeSpace]⟩, x ⟨1, by simp [threeSpace]⟩, x ⟨2, by simp [threeSpace]⟩] := fun _ => rfl
  have hint : Integrable (fun ω : ℕ → Fin threeSpace.length → ℝ => ω 0 ⟨2, by simp [threeSpace]⟩) (uniformSamples threeSpace.length) ∧
      ∫ ω : ℕ → Fin threeSpace.length → ℝ, ω 0 ⟨2, by simp [threeSpace]⟩ ∂(uniformSamples threeSpace.length) = 1 / 2 := by
    have hm : Measurable fun ω : ℕ → Fin threeSpace.length → ℝ => ω 0 ⟨2, by simp [threeSpace]⟩ := by fun_prop
    have h1 : Integrable (fun x : ℝ => x) ((uniformSamples threeSpace.length).map fun ω => ω 0 ⟨2, by simp [threeSpace]⟩) := by
      rw [hu]; exact continuous_id.continuousOn.integrableOn_compact isCompact_Icc
    refine ⟨h1.comp_measurable hm, ?_⟩
    rw [← integral_map (φ := fun ω : ℕ → Fin threeSpace.length → ℝ => ω 0 ⟨2, by simp [threeSpace]⟩) (f := fun x : ℝ => x) hm.aemeasurable (by fun_prop), hu, integral_Icc_eq_integral_Ioc,
      ← intervalIntegral.integral_of_le zero_le_one, integral_id]
    norm_num
  have hmeas : Measurable fun x : Fin threeSpace.length → ℝ => ((List.ofFn x).getD 0 0 + (List.ofFn x).getD 1 0) * (List.ofFn x).getD 2 0 / 2 := by
    have : (fun x : Fin threeSpace.length → ℝ => ((List.ofFn x).getD 0 0 + (List.ofFn x).getD 1 0) * (List.ofFn x).getD 2 0 / 2) = fun x =>
        (x ⟨0, by simp [threeSpace]⟩ + x ⟨1, by simp [threeSpace]⟩) * x ⟨2, by simp [threeSpace]⟩ / 2 := by funext x; rw [hof]; rfl
    rw [this]; fun_prop
  have hind : iIndepFun (fun (i : ℕ) (ω : ℕ → Fin threeSpace.length → ℝ) => ω i) (uniformSamples threeSpace.length) :=
    iIndepFun_infinitePi (P := fun _ : ℕ => Measure.pi fun _ : Fin threeSpace.length => volume.restrict (Set.Icc (0 : ℝ) 1)) (X := fun _ x => x) fun _ => measurable_id
  have hunit : ∀ᵐ ω ∂(uniformSamples threeSpace.length), UnitRow threeSpace.length (List.ofFn (ω 0)) := by
    have hb : ∀ᵐ ω ∂(uniformSamples threeSpace.length), ∀ k, ω 0 k ∈ Set.Icc (0 : ℝ) 1 := by
      rw [ae_all_iff]
      intro k
      have hm : Measurable fun ω : ℕ → Fin threeSpace.length → ℝ => ω 0 k := by fun_prop
      refine ae_of_ae_map (f := fun ω : ℕ → Fin threeSpace.length → ℝ => ω 0 k) (p := fun x => x ∈ Set.Icc (0 : ℝ) 1) hm.aemeasurable ?_
      rw [hu]
      exact ae_restrict_mem measurableSet_Icc
    filter_upwards [hb] with ω hω
    refine ⟨by simp, fun e he => ?_⟩
    obtain ⟨k, rfl⟩ := List.mem_ofFn.1 he
    exact hω k
  have hrow : ∀ r, UnitRow threeSpace.length r → ∃ a b d, r = [a, b, d] ∧ (0 ≤ a ∧ a ≤ 1) ∧ (0 ≤ b ∧ b ≤ 1) ∧ 0 ≤ d ∧ d ≤ 1 := by
    intro r h
    obtain ⟨a, b, d, rfl⟩ := List.length_eq_three.1 h.1
    exact ⟨a, b, d, rfl, h.2 a (by simp), h.2 b (by simp), h.2 d (by simp)⟩
  have key := C205_incumbent (P := uniformSamples threeSpace.length) hwf (by
      intro hp hm
      simp only [threeSpace, List.mem_cons, List.not_mem_nil, or_false] at hm
      rcases hm with rfl | rfl | rfl
      · exact ⟨-5, 5, false, hwf, ⟨_, by simp [threeSpace], rfl, .inl rfl⟩, by norm_num, by simp⟩
      · exact ⟨-5, 5, false, hwf, ⟨_, by simp [threeSpace], rfl, .inl rfl⟩, by norm_num, by simp⟩
      · exact ⟨-5, 5, false, hwf, ⟨_, by simp [threeSpace], rfl, .inl rfl⟩, by norm_num, by simp⟩)
    (predict := fun rows => .ok (rows.map fun r => (r.getD 0 0 + r.getD 1 0) * r.getD 2 0 / 2, rows.map fun _ => 1 / 100)) (mu := fun r => (r.getD 0 0 + r.getD 1 0) * r.getD 2 0 / 2)
    (sd := fun _ => 1 / 100) (h := fun r => (r.getD 0 0 + r.getD 1 0) * r.getD 2 0 / 2 + 1 / 100) (fun _ _ _ => rfl)
    (sel := .many [.name "x1", .name "x2"]) (p := ⟨"x1", .float (-5) 5 false⟩) (q := ⟨"x2", .float (-5) 5 false⟩) rfl (by simp [threeSpace])
    (by simp [threeSpace]) (by simp) (.inl rfl) (.inl rfl) (f := 0) (f' := 1) ⟨_, rfl, rfl⟩ ⟨_, rfl, rfl⟩ (n := 11) (by norm_num) (ax := Ax.new)
    (ax' := ⟨"x1", "x2", false, false, some (-5, 5), some (-5, 5), []⟩) rfl "black"
    (X := fun i ω => ω i) hr hind hunit hmeas measurable_const (hmeas.add_const _) (a := 0) (w := 1) (B := 1) (C := 1) (c := 1 / 100) one_pos zero_le_one (by
      intro r h
      obtain ⟨a, b, d, rfl, ha, hb, hd⟩ := hrow r h
      simp only [List.getD_cons_zero, List.getD_cons_succ]
      constructor
      · exact div_nonneg (mul_nonneg (add_nonneg ha.1 hb.1) hd.1) (by norm_num)
      · nlinarith [mul_nonneg (add_nonneg ha.1 hb.1) (sub_nonneg.2 hd.2), ha.2, hb.2]) (by intro r _; rw [abs_of_pos (by norm_num)]) (by
      intro r _
      rw [sub_add_cancel_left, abs_neg, abs_of_pos (by norm_num), one_mul]) zero_le_one (by
      intro r h a _ a' _ b _ b' _
      obtain ⟨z, z', d, rfl, -, -, hd⟩ := hrow r h
      simp only [List.set_cons_zero, List.set_cons_succ, List.getD_cons_zero, List.getD_cons_succ]
      rw [show (a + b) * d / 2 - (a' + b') * d / 2 = d * (((a - a') + (b - b')) / 2) by ring, abs_mul, abs_of_nonneg hd.1, abs_div, abs_of_pos (by norm_num : (0 : ℝ) < 2), one_mul]
      have h1 := abs_add_le (a - a') (b - b')
      have h2 : |(a - a') + (b - b')| / 2 ≤ max |a - a'| |b - b'| := by
        linarith [le_max_left |a - a'| |b - b'|, le_max_right |a - a'| |b - b'|]
      exact (mul_le_of_le_one_left (by positivity) hd.2).trans h2) hm (ε := 1 / 20) (by norm_num)
  rw [show -2 * (m : ℝ) * (1 / 20) ^ 2 / 1 ^ 2 = -(m : ℝ) / 200 by ring] at key
  refine le_trans (le_of_eq (by norm_num)) (key.trans (measureReal_mono ?_))
  rintro ω ⟨s, c, a, b, h1, h2, ha, hb, h3, h4⟩
  have ei : ∀ t : ℝ, interpolate (-5) 5 false t = 10 * t - 5 := fun t => by simp [interpolate]; ring
  rw [ei, ei] at h3
  have h5 := h4 0 (by simp) 0 (by simp)
  have ev : ∀ a b : ℝ, ∫ ω' : ℕ → Fin threeSpace.length → ℝ, (((((List.ofFn (ω' 0)).set 0 a).set 1 b).getD 0 0 + (((List.ofFn (ω' 0)).set 0 a).set 1 b).getD 1 0) *
      (((List.ofFn (ω' 0)).set 0 a).set 1 b).getD 2 0 / 2 + 1 / 100) ∂(uniformSamples threeSpace.length) = (a + b) / 4 + 1 / 100 := by
    intro a b
    have eh : (fun ω' : ℕ → Fin threeSpace.length → ℝ => ((((List.ofFn (ω' 0)).set 0 a).set 1 b).getD 0 0 + (((List.ofFn (ω' 0)).set 0 a).set 1 b).getD 1 0) *
      (((List.ofFn (ω' 0)).set 0 a).set 1 b).getD 2 0 / 2 + 1 / 100) = fun ω' => (a + b) / 2 * ω' 0 ⟨2, by simp [threeSpace]⟩ + 1 / 100 := by
      funext ω'
      rw [hof]
      simp only [List.set_cons_zero, List.set_cons_succ, List.getD_cons_zero, List.getD_cons_succ]
      ring
    rw [eh, integral_add (hint.1.const_mul _) (integrable_const _), integral_const_mul, hint.2, integral_const, probReal_univ]
    norm_num
    ring
  rw [ev, ev, integral_const, probReal_univ] at h5
  norm_num at h5
  exact ⟨s, c, 10 * a - 5, 10 * b - 5, h1, h2, h3, by linarith⟩

end ex

end PyPDP
