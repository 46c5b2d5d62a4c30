/-
C157: how far the PDP of finitely many samples can be from the partial dependence.
-/
import Verif.Props.PdpTruth
import Mathlib.Probability.Moments.SubGaussian

namespace PyPDP
open Spec MeasureTheory ProbabilityTheory
variable {Ω : Type} [MeasurableSpace Ω]

/-- Hoeffding's inequality at one grid point, in both directions -/
theorem Spec.IsRandomSample.deviation {P : Measure Ω} [IsProbabilityMeasure P] {space : ConfigSpace ℝ} {X : ℕ → Ω → Fin space.length → ℝ}
    (hX : IsRandomSample P X) (hind : iIndepFun X P) (selected : List (Hp ℝ)) (t : List ℝ) {q : List ℝ → ℝ}
    (hq : Measurable fun x : Fin space.length → ℝ => q (List.ofFn x)) {a b : ℝ} (hab : a < b)
    (hb : ∀ᵐ ω ∂P, a ≤ q (atPoint space selected t (List.ofFn (X 0 ω))) ∧ q (atPoint space selected t (List.ofFn (X 0 ω))) ≤ b)
    {n : Nat} (hn : 1 ≤ n) {ε : ℝ} (hε : 0 ≤ ε) :
    P.real {ω | ε ≤ |(∑ i ∈ Finset.range n, q (atPoint space selected t (List.ofFn (X i ω)))) / n
        - ∫ ω', q (atPoint space selected t (List.ofFn (X 0 ω'))) ∂P|} ≤ 2 * Real.exp (-2 * n * ε ^ 2 / (b - a) ^ 2) := by
  obtain ⟨h1, -, h3⟩ := hX.values selected t hq
  obtain ⟨Y, hY⟩ : ∃ Y : ℕ → Ω → ℝ, Y = fun i ω => q (atPoint space selected t (List.ofFn (X i ω))) := ⟨_, rfl⟩
  have hmeas : ∀ i, Measurable (Y i) := by subst hY; exact h1
  have hid : ∀ i, IdentDistrib (Y i) (Y 0) P P := by subst hY; exact h3
  have hindY : iIndepFun Y P := by
    obtain ⟨φ, hφ, h⟩ := atPoint_map space selected t
    have := hind.comp (fun _ x => q (List.ofFn (φ x))) fun _ => hq.comp hφ
    subst hY
    simp only [h]
    exact this
  have hbd : ∀ i, ∀ᵐ ω ∂P, Y i ω ∈ Set.Icc a b := by
    intro i
    refine (hid i).symm.ae_mem_snd measurableSet_Icc ?_
    subst hY
    exact hb
  obtain ⟨m, hm⟩ : ∃ m : ℝ, m = ∫ ω, Y 0 ω ∂P := ⟨_, rfl⟩
  have hint : ∀ i, ∫ ω, Y i ω ∂P = m := fun i => by rw [hm]; exact (hid i).integral_eq
  have hsub : ∀ i, HasSubgaussianMGF (fun ω => Y i ω - m) ((‖b - a‖₊ / 2) ^ 2) P := by
    intro i
    have := hasSubgaussianMGF_of_mem_Icc (μ := P) (hmeas i).aemeasurable (hbd i)
    rwa [hint i] at this
  have hn0 : (0 : ℝ) < n := by exact_mod_cast hn
  have hba : (0 : ℝ) < b - a := by linarith
  have hc : (((‖b - a‖₊ / 2) ^ 2 : NNReal) : ℝ) = ((b - a) / 2) ^ 2 := by
    push_cast
    rw [Real.norm_eq_abs, abs_of_pos hba]
  have hexp : -(n * ε) ^ 2 / (2 * n * (((‖b - a‖₊ / 2) ^ 2 : NNReal) : ℝ)) = -2 * n * ε ^ 2 / (b - a) ^ 2 := by
    rw [hc]; field_simp
  have up := HasSubgaussianMGF.measure_sum_range_ge_le_of_iIndepFun (X := fun i ω => Y i ω - m) (μ := P)
    (hindY.comp (fun _ x => x - m) fun _ => measurable_id.sub_const m) (n := n) (fun i _ => hsub i) (ε := n * ε) (by positivity)
  have down := HasSubgaussianMGF.measure_sum_range_ge_le_of_iIndepFun (X := fun i ω => -(Y i ω - m)) (μ := P)
    (hindY.comp (fun _ x => -(x - m)) fun _ => (measurable_id.sub_const m).neg) (n := n) (fun i _ => (hsub i).neg) (ε := n * ε) (by positivity)
  rw [hexp] at up down
  have hset : {ω | ε ≤ |(∑ i ∈ Finset.range n, Y i ω) / n - m|} ⊆
      {ω | n * ε ≤ ∑ i ∈ Finset.range n, (Y i ω - m)} ∪ {ω | n * ε ≤ ∑ i ∈ Finset.range n, -(Y i ω - m)} := by
    intro ω hω
    have hs : ∑ i ∈ Finset.range n, (Y i ω - m) = n * ((∑ i ∈ Finset.range n, Y i ω) / n - m) := by
      rw [Finset.sum_sub_distrib, Finset.sum_const, Finset.card_range, nsmul_eq_mul]; field_simp
    have hω : ε ≤ |(∑ i ∈ Finset.range n, Y i ω) / n - m| := hω
    change n * ε ≤ ∑ i ∈ Finset.range n, (Y i ω - m) ∨ n * ε ≤ ∑ i ∈ Finset.range n, -(Y i ω - m)
    rw [Finset.sum_neg_distrib, hs]
    rcases le_abs.1 hω with h | h
    · exact Or.inl (mul_le_mul_of_nonneg_left h hn0.le)
    · right
      rw [← mul_neg]
      exact mul_le_mul_of_nonneg_left h hn0.le
  have := (measureReal_mono (μ := P) hset).trans (measureReal_union_le _ _)
  subst hY
  rw [← hm]
  linarith

/-- the same at all grid points -/
theorem Spec.IsRandomSample.deviations {P : Measure Ω} [IsProbabilityMeasure P] {space : ConfigSpace ℝ} {X : ℕ → Ω → Fin space.length → ℝ}
    (hX : IsRandomSample P X) (hind : iIndepFun X P) {selected : List (Hp ℝ)} {grid : List (List ℝ)} {q : List ℝ → ℝ}
    (hq : Measurable fun x : Fin space.length → ℝ => q (List.ofFn x)) {w : ℝ} (hw : 0 < w)
    (hb : ∀ t ∈ grid, ∃ a, ∀ᵐ ω ∂P, a ≤ q (atPoint space selected t (List.ofFn (X 0 ω))) ∧ q (atPoint space selected t (List.ofFn (X 0 ω))) ≤ a + w)
    {n : Nat} (hn : 1 ≤ n) {ε : ℝ} (hε : 0 ≤ ε) :
    P.real {ω | ∃ t ∈ grid, ε ≤ |(∑ i ∈ Finset.range n, q (atPoint space selected t (List.ofFn (X i ω)))) / n
        - ∫ ω', q (atPoint space selected t (List.ofFn (X 0 ω'))) ∂P|} ≤ 2 * grid.length * Real.exp (-2 * n * ε ^ 2 / w ^ 2) := by
  induction grid with
  | nil => simp
  | cons t grid ih =>
    obtain ⟨a, ha⟩ := hb t (by simp)
    have h1 := hX.deviation hind selected t hq (by linarith) ha hn hε
    rw [add_sub_cancel_left] at h1
    have h2 := ih fun t ht => hb t (by simp [ht])
    have hset : {ω | ∃ s ∈ t :: grid, ε ≤ |(∑ i ∈ Finset.range n, q (atPoint space selected s (List.ofFn (X i ω)))) / n
        - ∫ ω', q (atPoint space selected s (List.ofFn (X 0 ω'))) ∂P|} ⊆
        {ω | ε ≤ |(∑ i ∈ Finset.range n, q (atPoint space selected t (List.ofFn (X i ω)))) / n
        - ∫ ω', q (atPoint space selected t (List.ofFn (X 0 ω'))) ∂P|} ∪
        {ω | ∃ s ∈ grid, ε ≤ |(∑ i ∈ Finset.range n, q (atPoint space selected s (List.ofFn (X i ω)))) / n
        - ∫ ω', q (atPoint space selected s (List.ofFn (X 0 ω'))) ∂P|} := by
      rintro ω ⟨s, hs, h⟩
      rcases List.mem_cons.1 hs with rfl | hs
      · exact Or.inl h
      · exact Or.inr ⟨s, hs, h⟩
    have := (measureReal_mono (μ := P) hset).trans (measureReal_union_le _ _)
    rw [List.length_cons]
    push_cast
    linarith

/-! ### C157 -/

/-- **C157** Independent samples from one distribution, at each grid point the surrogate's mean in a range of width `w`, its variance at most `c`: the probability that the PDP is anywhere on the grid `ε` or more
away from the partial dependence of the surrogate falls exponentially with the number of samples. -/
theorem C157_concentrated {P : Measure Ω} [IsProbabilityMeasure P] {space : ConfigSpace ℝ} {predict : Predict ℝ} {sel : Selection ℝ} {selected : List (Hp ℝ)} {g : Nat}
    {grid : List (List ℝ)} {mu sd : List ℝ → ℝ} (h : PdpSetting space predict sel selected g grid mu sd)
    {X : ℕ → Ω → Fin space.length → ℝ} (hX : IsRandomSample P X) (hind : iIndepFun X P)
    (hmu : Measurable fun x : Fin space.length → ℝ => mu (List.ofFn x)) (hsd : Measurable fun x : Fin space.length → ℝ => sd (List.ofFn x))
    {w c : ℝ} (hw : 0 < w) (hc : 0 < c)
    (bmu : ∀ t ∈ grid, ∃ a, ∀ᵐ ω ∂P, a ≤ mu (atPoint space selected t (List.ofFn (X 0 ω))) ∧ mu (atPoint space selected t (List.ofFn (X 0 ω))) ≤ a + w)
    (bsd : ∀ t ∈ grid, ∀ᵐ ω ∂P, sd (atPoint space selected t (List.ofFn (X 0 ω))) ^ 2 ≤ c) {n : Nat} (hn : 1 ≤ n) :
    ∃ y v : Ω → List ℝ, (∀ ω, yPdp space predict sel (firstSamples X n ω) g = .ok (y ω) ∧ vPdp space predict sel (firstSamples X n ω) g = .ok (v ω) ∧
        (y ω).length = grid.length ∧ (v ω).length = grid.length) ∧
      ∀ ε : ℝ, 0 ≤ ε →
        P.real {ω | ∃ (p : Nat) (t : List ℝ), grid[p]? = some t ∧ ε ≤ |(y ω).getD p 0 - ∫ ω', mu (atPoint space selected t (List.ofFn (X 0 ω'))) ∂P|}
          ≤ 2 * g ^ selected.length * Real.exp (-2 * n * ε ^ 2 / w ^ 2) ∧
        P.real {ω | ∃ (p : Nat) (t : List ℝ), grid[p]? = some t ∧ ε ≤ |(v ω).getD p 0 - ∫ ω', sd (atPoint space selected t (List.ofFn (X 0 ω'))) ^ 2 ∂P|}
          ≤ 2 * g ^ selected.length * Real.exp (-2 * n * ε ^ 2 / c ^ 2) := by
  have hget : ∀ (p : Nat) (t : List ℝ) (f : List ℝ → ℝ), grid[p]? = some t → (grid.map f).getD p 0 = f t := by
    intro p t f ht; rw [List.getD_eq_getElem?_getD, List.getElem?_map, ht]; rfl
  have hlen : (grid.length : ℝ) = (g : ℝ) ^ selected.length := by
    have := (gridPoints_ok h.grid_eq).1
    exact_mod_cast this
  refine ⟨_, _, fun ω => ⟨(pdp_first h X hn ω).1, (pdp_first h X hn ω).2, by simp, by simp⟩, fun ε hε => ⟨?_, ?_⟩⟩
  · rw [← hlen]
    refine le_trans (measureReal_mono ?_) (hX.deviations hind hmu hw bmu hn hε)
    rintro ω ⟨p, t, ht, hd⟩
    rw [hget p t _ ht] at hd
    exact ⟨t, List.mem_of_getElem? ht, hd⟩
  · rw [← hlen]
    have := hX.deviations hind (q := fun r => sd r ^ 2) (hsd.pow_const 2) hc (fun t ht => ⟨0, (bsd t ht).mono fun ω h => ⟨sq_nonneg _, by rw [zero_add]; exact h⟩⟩) hn hε
    refine le_trans (measureReal_mono ?_) this
    rintro ω ⟨p, t, ht, hd⟩
    rw [hget p t _ ht] at hd
    exact ⟨t, List.mem_of_getElem? ht, hd⟩

/-- **C157** How many samples are enough: with at least `w² log(2 G / δ) / (2 ε²)` of them (`G` grid points), the PDP is within `ε` of the partial dependence at all grid points at once, with
probability at least `1 - δ`. -/
theorem C157_enough {P : Measure Ω} [IsProbabilityMeasure P] {space : ConfigSpace ℝ} {predict : Predict ℝ} {sel : Selection ℝ} {selected : List (Hp ℝ)} {g : Nat}
    {grid : List (List ℝ)} {mu sd : List ℝ → ℝ} (h : PdpSetting space predict sel selected g grid mu sd)
    {X : ℕ → Ω → Fin space.length → ℝ} (hX : IsRandomSample P X) (hind : iIndepFun X P)
    (hmu : Measurable fun x : Fin space.length → ℝ => mu (List.ofFn x)) {w : ℝ} (hw : 0 < w)
    (bmu : ∀ t ∈ grid, ∃ a, ∀ᵐ ω ∂P, a ≤ mu (atPoint space selected t (List.ofFn (X 0 ω))) ∧ mu (atPoint space selected t (List.ofFn (X 0 ω))) ≤ a + w)
    {ε δ : ℝ} (hε : 0 < ε) (hδ : 0 < δ) {n : Nat} (hn1 : 1 ≤ n)
    (hn : w ^ 2 * Real.log (2 * g ^ selected.length / δ) / (2 * ε ^ 2) ≤ n) :
    ∃ y : Ω → List ℝ, (∀ ω, yPdp space predict sel (firstSamples X n ω) g = .ok (y ω) ∧ (y ω).length = grid.length) ∧
      1 - δ ≤ P.real {ω | ∀ (p : Nat) (t : List ℝ), grid[p]? = some t →
        |(y ω).getD p 0 - ∫ ω', mu (atPoint space selected t (List.ofFn (X 0 ω'))) ∂P| < ε} := by
  have hget : ∀ (p : Nat) (t : List ℝ) (f : List ℝ → ℝ), grid[p]? = some t → (grid.map f).getD p 0 = f t := by
    intro p t f ht; rw [List.getD_eq_getElem?_getD, List.getElem?_map, ht]; rfl
  have hlen : (grid.length : ℝ) = (g : ℝ) ^ selected.length := by
    have := (gridPoints_ok h.grid_eq).1
    exact_mod_cast this
  refine ⟨_, fun ω => ⟨(pdp_first h X hn1 ω).1, by simp⟩, ?_⟩
  have hdev := hX.deviations hind hmu hw bmu hn1 hε.le
  have hG : (0 : ℝ) < 2 * (g : ℝ) ^ selected.length := by
    have : (0 : ℝ) < g := by exact_mod_cast Nat.pos_of_ne_zero h.grid_pos
    positivity
  have hle : 2 * (grid.length : ℝ) * Real.exp (-2 * n * ε ^ 2 / w ^ 2) ≤ δ := by
    have hba : (0 : ℝ) < w ^ 2 := by positivity
    have h1 : Real.log (2 * g ^ selected.length / δ) ≤ 2 * n * ε ^ 2 / w ^ 2 := by
      rw [le_div_iff₀ hba]
      rw [div_le_iff₀ (by positivity)] at hn
      linarith
    have h2 := Real.exp_le_exp.2 h1
    rw [Real.exp_log (by positivity)] at h2
    rw [hlen, show -2 * (n : ℝ) * ε ^ 2 / w ^ 2 = -(2 * n * ε ^ 2 / w ^ 2) by ring, Real.exp_neg, ← div_eq_mul_inv, div_le_iff₀ (Real.exp_pos _)]
    rw [div_le_iff₀ hδ] at h2
    linarith
  have hcover : Set.univ ⊆ {ω | ∀ (p : Nat) (t : List ℝ), grid[p]? = some t →
        |(grid.map fun t => (∑ i ∈ Finset.range n, mu (atPoint space selected t (List.ofFn (X i ω)))) / n).getD p 0 -
          ∫ ω', mu (atPoint space selected t (List.ofFn (X 0 ω'))) ∂P| < ε} ∪
      {ω | ∃ t ∈ grid, ε ≤ |(∑ i ∈ Finset.range n, mu (atPoint space selected t (List.ofFn (X i ω)))) / n
        - ∫ ω', mu (atPoint space selected t (List.ofFn (X 0 ω'))) ∂P|} := by
    intro ω _
    by_cases hω : ∃ t ∈ grid, ε ≤ |(∑ i ∈ Finset.range n, mu (atPoint space selected t (List.ofFn (X i ω)))) / n
        - ∫ ω', mu (atPoint space selected t (List.ofFn (X 0 ω'))) ∂P|
    · exact Or.inr hω
    · left
      intro p t ht
      rw [hget p t _ ht]
      by_contra hcon
      exact hω ⟨t, List.mem_of_getElem? ht, not_lt.1 hcon⟩
  have hone := (measureReal_mono (μ := P) hcover).trans (measureReal_union_le _ _)
  rw [probReal_univ] at hone
  linarith

/-- **C157** No single sample matters much: exchanging one of `n` samples for another moves the PDP by at most `w / n` at every grid point, if the surrogate's means of the two differ by at most `w` there. -/
theorem C157_one_sample {K : Type} [Field K] [LinearOrder K] [IsStrictOrderedRing K] {space : ConfigSpace K} {predict : Predict K} {sel : Selection K} {selected : List (Hp K)}
    {g : Nat} {grid : List (List K)} {mu sd : List K → K} {pre post : List (List K)} {r r' : List K}
    (h : DependenceInput space sel selected (pre ++ r :: post) g grid) (hr' : r'.length = space.length) (hp : RowWise space.length predict mu sd) {w : K}
    (hb : ∀ t ∈ grid, |mu (atPoint space selected t r) - mu (atPoint space selected t r')| ≤ w) :
    ∃ y y', yPdp space predict sel (pre ++ r :: post) g = .ok y ∧ yPdp space predict sel (pre ++ r' :: post) g = .ok y' ∧
      y.length = grid.length ∧ y'.length = grid.length ∧
      ∀ p < grid.length, |y.getD p 0 - y'.getD p 0| ≤ w / (pre ++ r :: post).length := by
  have h1 := (pdp_values h.wf h.sel_eq h.mem h.ne h.distinct hp h.samples_ne h.rows h.grid_pos h.grid_eq).1
  have h2 := (pdp_values h.wf h.sel_eq h.mem h.ne h.distinct hp (samples := pre ++ r' :: post) (by simp) (by
    intro s hs
    simp only [List.mem_append, List.mem_cons] at hs
    rcases hs with hs | rfl | hs
    · exact h.rows s (by simp [hs])
    · exact hr'
    · exact h.rows s (by simp [hs])) h.grid_pos h.grid_eq).1
  refine ⟨_, _, h1, h2, by simp, by simp, fun p hpl => ?_⟩
  have hget : ∀ f : List K → K, (grid.map f).getD p 0 = f grid[p] := by
    intro f; rw [List.getD_eq_getElem?_getD, List.getElem?_map, List.getElem?_eq_getElem hpl]; rfl
  rw [hget, hget]
  have hn : (0 : K) < ((pre ++ r :: post).length : K) := by
    have : 0 < (pre ++ r :: post).length := by simp
    exact_mod_cast this
  rw [show (pre ++ r' :: post).length = (pre ++ r :: post).length by simp, ← sub_div, abs_div, abs_of_pos hn]
  refine div_le_div_of_nonneg_right ?_ hn.le
  have ha := hb grid[p] (List.getElem_mem _)
  simp only [List.map_append, List.map_cons, List.sum_append, List.sum_cons]
  rw [abs_le] at ha ⊢
  constructor <;> linarith [ha.1, ha.2]

/-- **C157** One more sample moves the PDP of `n` samples by at most `w / (n + 1)`, if the surrogate's mean at it differs by at most `w` from those at the samples. -/
theorem C157_further_sample {K : Type} [Field K] [LinearOrder K] [IsStrictOrderedRing K] {space : ConfigSpace K} {predict : Predict K} {sel : Selection K} {selected : List (Hp K)}
    {g : Nat} {grid : List (List K)} {mu sd : List K → K} {samples : List (List K)} {r : List K}
    (h : DependenceInput space sel selected samples g grid) (hr : r.length = space.length) (hp : RowWise space.length predict mu sd) {w : K}
    (hb : ∀ t ∈ grid, ∀ s ∈ samples, |mu (atPoint space selected t r) - mu (atPoint space selected t s)| ≤ w) :
    ∃ y y', yPdp space predict sel samples g = .ok y ∧ yPdp space predict sel (samples ++ [r]) g = .ok y' ∧
      y.length = grid.length ∧ y'.length = grid.length ∧
      ∀ p < grid.length, |y'.getD p 0 - y.getD p 0| ≤ w / (samples.length + 1) := by
  have h1 := (pdp_values h.wf h.sel_eq h.mem h.ne h.distinct hp h.samples_ne h.rows h.grid_pos h.grid_eq).1
  have h2 := (pdp_values h.wf h.sel_eq h.mem h.ne h.distinct hp (samples := samples ++ [r]) (by simp) (by
    intro s hs
    rcases List.mem_append.1 hs with hs | hs
    · exact h.rows s hs
    · rw [List.mem_singleton.1 hs]; exact hr) h.grid_pos h.grid_eq).1
  refine ⟨_, _, h1, h2, by simp, by simp, fun p hpl => ?_⟩
  have hget : ∀ f : List K → K, (grid.map f).getD p 0 = f grid[p] := by
    intro f; rw [List.getD_eq_getElem?_getD, List.getElem?_map, List.getElem?_eq_getElem hpl]; rfl
  rw [hget, hget]
  have hn : (0 : K) < (samples.length : K) := by exact_mod_cast List.length_pos_iff.2 h.samples_ne
  obtain ⟨S, hS⟩ : ∃ S, S = (samples.map fun s => mu (atPoint space selected grid[p] s)).sum := ⟨_, rfl⟩
  obtain ⟨q, hq⟩ : ∃ q, q = mu (atPoint space selected grid[p] r) := ⟨_, rfl⟩
  have hlow : samples.length * (q - w) ≤ S := by
    rw [hS, ← nsmul_eq_mul]
    have := List.card_nsmul_le_sum (samples.map fun s => mu (atPoint space selected grid[p] s)) (q - w) (by
      intro x hx; obtain ⟨s, hs, rfl⟩ := List.mem_map.1 hx; have := (abs_le.1 (hb _ (List.getElem_mem hpl) s hs)).2; rw [← hq] at this; linarith)
    simpa using this
  have hupp : S ≤ samples.length * (q + w) := by
    rw [hS, ← nsmul_eq_mul]
    have := List.sum_le_card_nsmul (samples.map fun s => mu (atPoint space selected grid[p] s)) (q + w) (by
      intro x hx; obtain ⟨s, hs, rfl⟩ := List.mem_map.1 hx; have := (abs_le.1 (hb _ (List.getElem_mem hpl) s hs)).1; rw [← hq] at this; linarith)
    simpa using this
  have hl : ((samples ++ [r]).length : K) = samples.length + 1 := by simp
  rw [hl, List.map_append, List.sum_append, List.map_singleton, List.sum_singleton, ← hS, ← hq]
  obtain ⟨n, hn'⟩ : ∃ n : K, n = samples.length := ⟨_, rfl⟩
  rw [← hn'] at hn hlow hupp ⊢
  have hn1 : (0 : K) < n + 1 := by linarith
  have : (S + q) / (n + 1) - S / n = (q - S / n) / (n + 1) := by field_simp; ring
  rw [this, abs_div, abs_of_pos hn1]
  refine div_le_div_of_nonneg_right ?_ hn1.le
  have hm1 : q - w ≤ S / n := by rw [le_div_iff₀ hn]; linarith
  have hm2 : S / n ≤ q + w := by rw [div_le_iff₀ hn]; linarith
  rw [abs_le]
  constructor <;> linarith

/-- **C157** is not vacuous: for every distribution of vectors there are independent samples from it. -/
theorem C157_samples_exist {F : Nat} (Q : Measure (Fin F → ℝ)) [IsProbabilityMeasure Q] :
    ∃ (P : Measure (ℕ → Fin F → ℝ)) (X : ℕ → (ℕ → Fin F → ℝ) → Fin F → ℝ), IsProbabilityMeasure P ∧ IsRandomSample P X ∧ iIndepFun X P ∧ P.map (X 0) = Q := by
  have hmap : ∀ i, (Measure.infinitePi fun _ : ℕ => Q).map (fun ω => ω i) = Q := fun i => (measurePreserving_eval_infinitePi (fun _ : ℕ => Q) i).map_eq
  have hind : iIndepFun (fun (i : ℕ) (ω : ℕ → Fin F → ℝ) => ω i) (Measure.infinitePi fun _ : ℕ => Q) :=
    iIndepFun_infinitePi (P := fun _ : ℕ => Q) (X := fun _ x => x) fun _ => measurable_id
  exact ⟨Measure.infinitePi fun _ => Q, fun i ω => ω i, inferInstance,
    ⟨fun i => measurable_pi_apply i, fun i j hij => hind.indepFun hij, fun i => by rw [hmap i, hmap 0]⟩, hind, hmap 0⟩

/-- the surrogate of `PdpTruth` that predicts `x₀ x₁` on uniform samples: its PDP at `x₀ = 1/2` is 1/10 or more away from `1/4` with probability at most `6 exp(-n / 50)` -/
example {n : Nat} (hn : 1 ≤ n) : ∃ y : (ℕ → Fin stSpace.length → ℝ) → List ℝ,
    (∀ ω, yPdp stSpace (fun rows => .ok (rows.map fun r => r.getD 0 0 * r.getD 1 0, rows.map fun _ => 1)) (.many [.name "x1"])
      (firstSamples (fun i ω => ω i) n ω) 3 = .ok (y ω)) ∧
    (uniformSamples stSpace.length).real {ω | 1 / 10 ≤ |(y ω).getD 1 0 - 1 / 4|} ≤ 6 * Real.exp (-(n : ℝ) / 50) := by
  have hset : PdpSetting stSpace (fun rows => .ok (rows.map fun r => r.getD 0 0 * r.getD 1 0, rows.map fun _ => 1)) (.many [.name "x1"])
      [⟨"x1", .float (-5) 5 false⟩] 3 ([0, 1 / 2, 1].map fun v => [v]) (fun r => r.getD 0 0 * r.getD 1 0) (fun _ => 1) :=
    { stSetting with rowWise := fun _ _ _ => rfl }
  obtain ⟨hr, hu⟩ := uniformSamples_spec stSpace.length
  have hof : ∀ x : Fin stSpace.length → ℝ, List.ofFn x = [x ⟨0, by simp [stSpace]⟩, x ⟨1, by simp [stSpace]⟩] := fun _ => rfl
  have hrep : ∀ (v : ℝ) (x : Fin stSpace.length → ℝ), atPoint stSpace [⟨"x1", .float (-5) 5 false⟩] [v] (List.ofFn x) = [v, x ⟨1, by simp [stSpace]⟩] := by
    intro v x; rw [hof]; simp [atPoint, stSpace]
  have hint : Integrable (fun ω : ℕ → Fin stSpace.length → ℝ => ω 0 ⟨1, by simp [stSpace]⟩) (uniformSamples stSpace.length) ∧ ∫ ω : ℕ → Fin stSpace.length → ℝ, ω 0 ⟨1, by simp [stSpace]⟩ ∂(uniformSamples stSpace.length) = 1 / 2 := by
    have hm : Measurable fun ω : ℕ → Fin stSpace.length → ℝ => ω 0 ⟨1, by simp [stSpace]⟩ := by fun_prop
    have h1 : Integrable (fun x : ℝ => x) ((uniformSamples stSpace.length).map fun ω => ω 0 ⟨1, by simp [stSpace]⟩) := by
      rw [hu]; exact continuous_id.continuousOn.integrableOn_compact isCompact_Icc
    refine ⟨h1.comp_measurable hm, ?_⟩
    rw [← integral_map (φ := fun ω : ℕ → Fin stSpace.length → ℝ => ω 0 ⟨1, by simp [stSpace]⟩) (f := fun x : ℝ => x) hm.aemeasurable (by fun_prop), hu, integral_Icc_eq_integral_Ioc,
      ← intervalIntegral.integral_of_le zero_le_one, integral_id]
    norm_num
  have hmeas : Measurable fun x : Fin stSpace.length → ℝ => (List.ofFn x).getD 0 0 * (List.ofFn x).getD 1 0 := by
    have : (fun x : Fin stSpace.length → ℝ => (List.ofFn x).getD 0 0 * (List.ofFn x).getD 1 0) = fun x =>
        x ⟨0, by simp [stSpace]⟩ * x ⟨1, by simp [stSpace]⟩ := by funext x; rw [hof]; rfl
    rw [this]; fun_prop
  have hind : iIndepFun (fun (i : ℕ) (ω : ℕ → Fin stSpace.length → ℝ) => ω i) (uniformSamples stSpace.length) :=
    iIndepFun_infinitePi (P := fun _ : ℕ => Measure.pi fun _ : Fin stSpace.length => volume.restrict (Set.Icc (0 : ℝ) 1)) (X := fun _ x => x) fun _ => measurable_id
  have hb : ∀ᵐ ω ∂(uniformSamples stSpace.length), ω 0 ⟨1, by simp [stSpace]⟩ ∈ Set.Icc (0 : ℝ) 1 := by
    have hm : Measurable fun ω : ℕ → Fin stSpace.length → ℝ => ω 0 ⟨1, by simp [stSpace]⟩ := by fun_prop
    refine ae_of_ae_map (f := fun ω : ℕ → Fin stSpace.length → ℝ => ω 0 ⟨1, by simp [stSpace]⟩) (p := fun x => x ∈ Set.Icc (0 : ℝ) 1) hm.aemeasurable ?_
    rw [hu]
    exact ae_restrict_mem measurableSet_Icc
  obtain ⟨y, v, h1, h2⟩ := C157_concentrated (P := uniformSamples stSpace.length) hset (X := fun i ω => ω i) hr hind hmeas measurable_const (w := 1) (c := 1)
    one_pos one_pos (fun t ht => ⟨0, by
      obtain ⟨v, hv, rfl⟩ := List.mem_map.1 ht
      have hv : 0 ≤ v ∧ v ≤ 1 := by
        simp only [List.mem_cons, List.not_mem_nil, or_false] at hv
        rcases hv with rfl | rfl | rfl <;> norm_num
      filter_upwards [hb] with ω hω
      rw [hrep]
      refine ⟨mul_nonneg hv.1 hω.1, ?_⟩
      rw [zero_add]
      exact mul_le_one₀ hv.2 hω.1 hω.2⟩) (fun t ht => by simp) hn
  refine ⟨y, fun ω => (h1 ω).1, ?_⟩
  have h3 := (h2 (1 / 10) (by norm_num)).1
  refine le_trans (measureReal_mono ?_) (h3.trans (le_of_eq ?_))
  · intro ω hω
    refine ⟨1, [1 / 2], by simp, ?_⟩
    simp only [hrep]
    have : (fun ω' : ℕ → Fin stSpace.length → ℝ => ([(1 : ℝ) / 2, ω' 0 ⟨1, by simp [stSpace]⟩] : List ℝ).getD 0 0 * ([(1 : ℝ) / 2, ω' 0 ⟨1, by simp [stSpace]⟩] : List ℝ).getD 1 0)
        = fun ω' => 1 / 2 * ω' 0 ⟨1, by simp [stSpace]⟩ := rfl
    rw [this, integral_const_mul, hint.2]
    have hω : 1 / 10 ≤ |(y ω).getD 1 0 - 1 / 4| := hω
    norm_num at hω ⊢
    exact hω
  · rw [show -2 * (n : ℝ) * (1 / 10) ^ 2 / 1 ^ 2 = -(n : ℝ) / 50 by ring]
    norm_num

end PyPDP
