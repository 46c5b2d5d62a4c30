/-
C192: the sampling error of a PDP is asymptotically normal, and the ICE curves tell how large it is.
-/
import Verif.Props.PdpTruth
import Verif.Props.Inherit
import Mathlib.Probability.CentralLimitTheorem

namespace PyPDP
open Spec MeasureTheory ProbabilityTheory Filter Topology

section limits
variable {Ω : Type} [MeasurableSpace Ω] {P : Measure Ω} [IsProbabilityMeasure P]

/-- the probabilities of events converge with the distributions -/
theorem event_limit {Ω' : Type} [MeasurableSpace Ω'] {P' : Measure Ω'} [IsProbabilityMeasure P'] {X : ℕ → Ω → ℝ} {Z : Ω' → ℝ}
    (h : TendstoInDistribution X atTop Z (fun _ => P) P') {x : ℝ} (h0 : P' {ω | Z ω = x} = 0) :
    Tendsto (fun n => P {ω | X n ω ≤ x}) atTop (𝓝 (P' {ω | Z ω ≤ x})) := by
  have h1 := ProbabilityMeasure.tendsto_measure_of_null_frontier_of_tendsto' h.tendsto (E := Set.Iic x) (by
    rw [frontier_Iic]
    change (P'.map Z) {x} = 0
    rw [Measure.map_apply_of_aemeasurable h.aemeasurable_limit (measurableSet_singleton _)]
    exact h0)
  have e : ∀ n, P {ω | X n ω ≤ x} = (P.map (X n)) (Set.Iic x) := fun n => by
    rw [Measure.map_apply_of_aemeasurable (h.forall_aemeasurable n) measurableSet_Iic]
    rfl
  have e' : P' {ω | Z ω ≤ x} = (P'.map Z) (Set.Iic x) := by
    rw [Measure.map_apply_of_aemeasurable h.aemeasurable_limit measurableSet_Iic]
    rfl
  simp only [e, e']
  exact h1

variable {q : ℕ → Ω → ℝ}

/-- a standard normal variable, scaled -/
theorem scaled_normal {v : ℝ} (hv : 0 ≤ v) : HasLaw (fun x : ℝ => √v * x) (gaussianReal 0 v.toNNReal) (gaussianReal 0 1) := by
  refine ⟨by fun_prop, ?_⟩
  rw [gaussianReal_map_const_mul]
  congr 1
  · simp
  · ext
    simp [hv]

theorem normal_limit (hq : MemLp (q 0) 2 P) (hind : iIndepFun q P) (hid : ∀ i, IdentDistrib (q i) (q 0) P P) (hv : Var[q 0; P] ≠ 0) (z : ℝ) :
    Tendsto (fun n : ℕ => P {ω | (∑ i ∈ Finset.range n, q i ω) / n - ∫ ω, q 0 ω ∂P ≤ z * √(Var[q 0; P]) / √n}) atTop (𝓝 (gaussianReal 0 1 (Set.Iic z))) := by
  have hσ : 0 < √(Var[q 0; P]) := Real.sqrt_pos.2 (lt_of_le_of_ne (variance_nonneg _ _) hv.symm)
  have h := event_limit (x := z * √(Var[q 0; P])) (tendstoInDistribution_inv_sqrt_mul_sum_sub (scaled_normal (variance_nonneg (q 0) P)) hq hind hid) (by
    have : {x : ℝ | √(Var[q 0; P]) * x = z * √(Var[q 0; P])} = {z} := by
      ext x
      rw [Set.mem_ofPred_eq, mul_comm, mul_left_inj' hσ.ne', Set.mem_singleton_iff]
    rw [this]
    have := nullSingletonClass_gaussianReal (μ := 0) (v := 1) one_ne_zero
    exact measure_singleton _)
  have e : {x : ℝ | √(Var[q 0; P]) * x ≤ z * √(Var[q 0; P])} = Set.Iic z := by
    ext x
    rw [Set.mem_ofPred_eq, mul_comm, mul_le_mul_iff_left₀ hσ, Set.mem_Iic]
  rw [e] at h
  refine h.congr' ?_
  filter_upwards [eventually_ge_atTop 1] with n hn
  congr 1
  ext ω
  have hn : (0 : ℝ) < n := by exact_mod_cast hn
  have hs : 0 < √(n : ℝ) := Real.sqrt_pos.2 hn
  have hss : √(n : ℝ) * √(n : ℝ) = n := Real.mul_self_sqrt hn.le
  simp only [Set.mem_ofPred_eq]
  rw [le_div_iff₀ hs, inv_mul_eq_div]
  have : ((∑ i ∈ Finset.range n, q i ω) / n - ∫ ω, q 0 ω ∂P) * √n = (∑ i ∈ Finset.range n, q i ω - n * ∫ ω, q 0 ω ∂P) / √n := by
    rw [eq_div_iff hs.ne', mul_assoc, hss]
    field_simp
  rw [this]

/-- the standard deviation of the first `n` values -/
noncomputable def spread (q : ℕ → Ω → ℝ) (n : ℕ) (ω : Ω) : ℝ := √((∑ i ∈ Finset.range n, (q i ω - (∑ i ∈ Finset.range n, q i ω) / n) ^ 2) / n)

omit [MeasurableSpace Ω] in
theorem spread_eq (q : ℕ → Ω → ℝ) {n : ℕ} (hn : 1 ≤ n) (ω : Ω) :
    spread q n ω = √((∑ i ∈ Finset.range n, q i ω ^ 2) / n - ((∑ i ∈ Finset.range n, q i ω) / n) ^ 2) := by
  have hn : (n : ℝ) ≠ 0 := by positivity
  unfold spread
  congr 1
  generalize hS : (∑ i ∈ Finset.range n, q i ω) = S
  have : ∀ i ∈ Finset.range n, (q i ω - S / n) ^ 2 = q i ω ^ 2 - 2 * (S / n) * q i ω + (S / n) ^ 2 := fun i _ => by ring
  rw [Finset.sum_congr rfl this, Finset.sum_add_distrib, Finset.sum_sub_distrib, ← Finset.mul_sum, hS]
  simp
  field_simp
  ring

theorem spread_limit (hm : ∀ i, Measurable (q i)) (hq : MemLp (q 0) 2 P) (hind : iIndepFun q P) (hid : ∀ i, IdentDistrib (q i) (q 0) P P) :
    TendstoInMeasure P (spread q) atTop fun _ => √(Var[q 0; P]) := by
  have hmeas : ∀ n, Measurable (spread q n) := fun n => by unfold spread; fun_prop
  refine tendstoInMeasure_of_tendsto_ae (fun n => (hmeas n).aestronglyMeasurable) ?_
  have h1 := strong_law_ae_real q (hq.integrable (by norm_num)) (fun i j hij => hind.indepFun hij) hid
  have h2 := strong_law_ae_real (fun i ω => q i ω ^ 2) hq.integrable_sq (fun i j hij => (hind.indepFun hij).comp (φ := fun x => x ^ 2) (ψ := fun x => x ^ 2) (by fun_prop) (by fun_prop))
    (fun i => (hid i).comp (u := fun x => x ^ 2) (by fun_prop))
  filter_upwards [h1, h2] with ω h1 h2
  rw [variance_eq_sub hq]
  refine ((Real.continuous_sqrt.tendsto _).comp (h2.sub (h1.pow 2))).congr' ?_
  filter_upwards [eventually_ge_atTop 1] with n hn
  rw [spread_eq q hn]
  rfl

theorem interval_limit (hm : ∀ i, Measurable (q i)) (hq : MemLp (q 0) 2 P) (hind : iIndepFun q P) (hid : ∀ i, IdentDistrib (q i) (q 0) P P) (hv : Var[q 0; P] ≠ 0) (z : ℝ) :
    Tendsto (fun n : ℕ => P {ω | |(∑ i ∈ Finset.range n, q i ω) / n - ∫ ω, q 0 ω ∂P| ≤ z * spread q n ω / √n}) atTop (𝓝 (gaussianReal 0 1 (Set.Icc (-z) z))) := by
  have hσ : 0 < √(Var[q 0; P]) := Real.sqrt_pos.2 (lt_of_le_of_ne (variance_nonneg _ _) hv.symm)
  have h := (tendstoInDistribution_inv_sqrt_mul_sum_sub (scaled_normal (variance_nonneg (q 0) P)) hq hind hid).continuous_comp_prodMk_of_tendstoInMeasure_const
    (g := fun x : ℝ × ℝ => |x.1| - z * x.2) (by fun_prop) (spread_limit hm hq hind hid) (fun n => by
      have : Measurable (spread q n) := by unfold spread; fun_prop
      exact this.aemeasurable)
  have hiff : ∀ x : ℝ, |√(Var[q 0; P]) * x| - z * √(Var[q 0; P]) = √(Var[q 0; P]) * (|x| - z) := by
    intro x
    rw [abs_mul, abs_of_pos hσ]
    ring
  have h := event_limit (x := 0) h (by
    simp only [hiff]
    have : {x : ℝ | √(Var[q 0; P]) * (|x| - z) = 0} ⊆ {z, -z} := by
      intro x hx
      have hx : |x| = z := by
        have : √(Var[q 0; P]) * (|x| - z) = 0 := hx
        rcases mul_eq_zero.1 this with h | h
        · exact absurd h hσ.ne'
        · linarith
      rcases abs_choice x with h | h <;> rw [h] at hx
      · exact .inl hx
      · exact .inr (by simp [← hx])
    have hna := nullSingletonClass_gaussianReal (μ := 0) (v := 1) one_ne_zero
    exact measure_mono_null this (Set.Finite.measure_zero (by simp) _))
  have e : {x : ℝ | |√(Var[q 0; P]) * x| - z * √(Var[q 0; P]) ≤ 0} = Set.Icc (-z) z := by
    ext x
    rw [Set.mem_ofPred_eq, hiff, Set.mem_Icc, ← abs_le, mul_nonpos_iff]
    constructor
    · rintro (⟨-, h⟩ | ⟨h, -⟩)
      · linarith
      · exact absurd hσ h.not_gt
    · exact fun h => .inl ⟨hσ.le, by linarith⟩
  rw [e] at h
  refine h.congr' ?_
  filter_upwards [eventually_ge_atTop 1] with n hn
  congr 1
  ext ω
  have hn : (0 : ℝ) < n := by exact_mod_cast hn
  have hs : 0 < √(n : ℝ) := Real.sqrt_pos.2 hn
  have hss : √(n : ℝ) * √(n : ℝ) = n := Real.mul_self_sqrt hn.le
  simp only [Set.mem_ofPred_eq]
  rw [le_div_iff₀ hs, sub_nonpos, inv_mul_eq_div, ← abs_of_pos hs, ← abs_mul, abs_of_pos hs]
  have : ((∑ i ∈ Finset.range n, q i ω) / n - ∫ ω, q 0 ω ∂P) * √n = (∑ i ∈ Finset.range n, q i ω - n * ∫ ω, q 0 ω ∂P) / √n := by
    rw [eq_div_iff hs.ne', mul_assoc, hss]
    field_simp
  rw [this]

end limits

/-! ### C192 -/

section pdp
variable {Ω : Type} [MeasurableSpace Ω] {P : Measure Ω} [IsProbabilityMeasure P] {space : ConfigSpace ℝ} {predict : Predict ℝ} {sel : Selection ℝ}
  {selected : List (Hp ℝ)} {g : Nat} {grid : List (List ℝ)} {mu sd : List ℝ → ℝ} {X : ℕ → Ω → Fin space.length → ℝ}

omit [IsProbabilityMeasure P] in
theorem Spec.IsRandomSample.independent_values (hind : iIndepFun X P) (selected : List (Hp ℝ)) (t : List ℝ) {q : List ℝ → ℝ}
    (hq : Measurable fun x : Fin space.length → ℝ => q (List.ofFn x)) : iIndepFun (fun i ω => q (atPoint space selected t (List.ofFn (X i ω)))) P := by
  obtain ⟨φ, hφ, h⟩ := atPoint_map space selected t
  simp only [h]
  exact hind.comp (fun _ x => q (List.ofFn (φ x))) fun _ => hq.comp hφ

/-- **C192.** The samples are drawn independently from one distribution, and the mean of the surrogate varies with the samples. Then the error of the PDP at a grid point,
in units of the standard deviation of the surrogate's mean divided by `√n`, is in the limit distributed like a standard normal variable. -/
theorem C192_normal (h : PdpSetting space predict sel selected g grid mu sd) (hX : IsRandomSample P X) (hind : iIndepFun X P)
    (hmu : Measurable fun x : Fin space.length → ℝ => mu (List.ofFn x)) :
    ∃ y : ℕ → Ω → List ℝ, (∀ n, 1 ≤ n → ∀ ω, yPdp space predict sel (firstSamples X n ω) g = .ok (y n ω) ∧ (y n ω).length = grid.length) ∧
      ∀ (p : Nat) (t : List ℝ), grid[p]? = some t → MemLp (fun ω => mu (atPoint space selected t (List.ofFn (X 0 ω)))) 2 P →
        Var[fun ω => mu (atPoint space selected t (List.ofFn (X 0 ω))); P] ≠ 0 → ∀ z : ℝ,
        Tendsto (fun n : ℕ => P {ω | (y n ω).getD p 0 - ∫ ω, mu (atPoint space selected t (List.ofFn (X 0 ω))) ∂P ≤
          z * √(Var[fun ω => mu (atPoint space selected t (List.ofFn (X 0 ω))); P]) / √n}) atTop (𝓝 (gaussianReal 0 1 (Set.Iic z))) := by
  refine ⟨_, fun n hn ω => ⟨(pdp_first h X hn ω).1, by simp⟩, fun p t ht hm hv z => ?_⟩
  have hget : ∀ f : List ℝ → ℝ, (grid.map f).getD p 0 = f t := by
    intro f; rw [List.getD_eq_getElem?_getD, List.getElem?_map, ht]; rfl
  simp only [hget]
  obtain ⟨-, -, h3⟩ := hX.values selected t hmu
  exact normal_limit hm (IsRandomSample.independent_values hind selected t hmu) h3 hv z

/-- The ICE curves tell how large that error is: the interval of `z` standard deviations of their values, divided by `√n`, around the PDP contains the partial dependence in
the limit with the probability that a standard normal variable is at most `z` in absolute value. -/
theorem C192_interval (h : PdpSetting space predict sel selected g grid mu sd) (hX : IsRandomSample P X) (hind : iIndepFun X P)
    (hmu : Measurable fun x : Fin space.length → ℝ => mu (List.ofFn x)) :
    ∃ (y : ℕ → Ω → List ℝ) (Y : ℕ → Ω → List (List ℝ)),
      (∀ n, 1 ≤ n → ∀ ω, yPdp space predict sel (firstSamples X n ω) g = .ok (y n ω) ∧ yIce space predict sel (firstSamples X n ω) g false = .ok (Y n ω)) ∧
      ∀ (p : Nat) (t : List ℝ), grid[p]? = some t → MemLp (fun ω => mu (atPoint space selected t (List.ofFn (X 0 ω)))) 2 P →
        Var[fun ω => mu (atPoint space selected t (List.ofFn (X 0 ω))); P] ≠ 0 → ∀ z : ℝ,
        Tendsto (fun n : ℕ => P {ω | |(y n ω).getD p 0 - ∫ ω, mu (atPoint space selected t (List.ofFn (X 0 ω))) ∂P| ≤
          z * √(((Y n ω).map fun c => (c.getD p 0 - (y n ω).getD p 0) ^ 2).sum / (Y n ω).length) / √n}) atTop (𝓝 (gaussianReal 0 1 (Set.Icc (-z) z))) := by
  refine ⟨_, fun n ω => (firstSamples X n ω).map fun r => grid.map fun t => mu (atPoint space selected t r), fun n hn ω => ⟨(pdp_first h X hn ω).1, ?_⟩, fun p t ht hm hv z => ?_⟩
  · have := ice_values (samples := firstSamples X n ω) ⟨h.wf, h.sel_eq, h.mem, h.ne, h.distinct,
      (by rw [firstSamples, Ne, List.map_eq_nil_iff, List.range_eq_nil]; omega), (by intro r hr; obtain ⟨i, _, rfl⟩ := List.mem_map.1 hr; simp),
      h.grid_pos, h.grid_eq⟩ h.rowWise false
    simpa using this
  · have hget : ∀ f : List ℝ → ℝ, (grid.map f).getD p 0 = f t := by
      intro f; rw [List.getD_eq_getElem?_getD, List.getElem?_map, ht]; rfl
    obtain ⟨h1, -, h3⟩ := hX.values selected t hmu
    have := interval_limit h1 hm (IsRandomSample.independent_values hind selected t hmu) h3 hv z
    refine this.congr fun n => ?_
    congr 1
    ext ω
    simp only [Set.mem_ofPred_eq, hget, List.map_map, List.length_map]
    have hs : ∀ q : List ℝ → ℝ, ((firstSamples X n ω).map q).sum = ∑ i ∈ Finset.range n, q (List.ofFn (X i ω)) := by
      intro q
      rw [firstSamples, List.map_map, Finset.sum_range, ← List.sum_ofFn, List.ofFn_eq_map, ← List.map_coe_finRange_eq_range, List.map_map]
      rfl
    have hl : ((firstSamples X n ω).length : ℝ) = n := by simp [firstSamples]
    rw [hl, hs]
    simp only [Function.comp, hget]
    rfl

end pdp

/-- the surrogate that predicts `x₀ x₁`, uniform samples: the interval around the PDP at `x₀ = 1` contains `1/2` with the nominal probability -/
example (z : ℝ) : ∃ (y : ℕ → (ℕ → Fin stSpace.length → ℝ) → List ℝ) (Y : ℕ → (ℕ → Fin stSpace.length → ℝ) → List (List ℝ)),
    (∀ n, 1 ≤ n → ∀ ω, yPdp stSpace (fun rows => .ok (rows.map fun r => r.getD 0 0 * r.getD 1 0, rows.map fun _ => 1)) (.many [.name "x1"])
      (firstSamples (fun i ω => ω i) n ω) 3 = .ok (y n ω)) ∧
    Tendsto (fun n : ℕ => uniformSamples stSpace.length {ω | |(y n ω).getD 2 0 - 1 / 2| ≤
      z * √(((Y n ω).map fun c => (c.getD 2 0 - (y n ω).getD 2 0) ^ 2).sum / (Y n ω).length) / √n}) atTop (𝓝 (gaussianReal 0 1 (Set.Icc (-z) z))) := by
  have hset : PdpSetting stSpace (fun rows => .ok (rows.map fun r => r.getD 0 0 * r.getD 1 0, rows.map fun _ => 1)) (.many [.name "x1"])
      [⟨"x1", .float (-5) 5 false⟩] 3 ([0, 1 / 2, 1].map fun v => [v]) (fun r => r.getD 0 0 * r.getD 1 0) (fun _ => 1) :=
    { stSetting with rowWise := fun _ _ _ => rfl }
  obtain ⟨hr, hu⟩ := uniformSamples_spec stSpace.length
  have hof : ∀ x : Fin stSpace.length → ℝ, List.ofFn x = [x ⟨0, by simp [stSpace]⟩, x ⟨1, by simp [stSpace]⟩] := fun _ => rfl
  have hrep : ∀ (v : ℝ) (x : Fin stSpace.length → ℝ), atPoint stSpace [⟨"x1", .float (-5) 5 false⟩] [v] (List.ofFn x) = [v, x ⟨1, by simp [stSpace]⟩] := by
    intro v x; rw [hof]; simp [atPoint, stSpace]
  have hmeas : Measurable fun x : Fin stSpace.length → ℝ => (List.ofFn x).getD 0 0 * (List.ofFn x).getD 1 0 := by
    have : (fun x : Fin stSpace.length → ℝ => (List.ofFn x).getD 0 0 * (List.ofFn x).getD 1 0) = fun x =>
        x ⟨0, by simp [stSpace]⟩ * x ⟨1, by simp [stSpace]⟩ := by funext x; rw [hof]; rfl
    rw [this]; fun_prop
  have hind : iIndepFun (fun (i : ℕ) (ω : ℕ → Fin stSpace.length → ℝ) => ω i) (uniformSamples stSpace.length) :=
    iIndepFun_infinitePi (P := fun _ : ℕ => Measure.pi fun _ : Fin stSpace.length => volume.restrict (Set.Icc (0 : ℝ) 1)) (X := fun _ x => x) fun _ => measurable_id
  obtain ⟨y, Y, h1, h2⟩ := C192_interval hset hr hind hmeas
  have hval : (fun ω : ℕ → Fin stSpace.length → ℝ => (fun r : List ℝ => r.getD 0 0 * r.getD 1 0) (atPoint stSpace [⟨"x1", .float (-5) 5 false⟩] [1] (List.ofFn (ω 0)))) =
      fun ω => ω 0 ⟨1, by simp [stSpace]⟩ := by
    funext ω
    rw [hrep]
    simp
  have hm : Measurable fun ω : ℕ → Fin stSpace.length → ℝ => ω 0 ⟨1, by simp [stSpace]⟩ := by fun_prop
  have hpow : ∀ k : ℕ, Integrable (fun ω : ℕ → Fin stSpace.length → ℝ => ω 0 ⟨1, by simp [stSpace]⟩ ^ k) (uniformSamples stSpace.length) ∧
      ∫ ω : ℕ → Fin stSpace.length → ℝ, ω 0 ⟨1, by simp [stSpace]⟩ ^ k ∂(uniformSamples stSpace.length) = 1 / (k + 1) := by
    intro k
    have h1 : Integrable (fun x : ℝ => x ^ k) ((uniformSamples stSpace.length).map fun ω => ω 0 ⟨1, by simp [stSpace]⟩) := by
      rw [hu]; exact (continuous_pow k).continuousOn.integrableOn_compact isCompact_Icc
    refine ⟨h1.comp_measurable hm, ?_⟩
    rw [← integral_map (φ := fun ω : ℕ → Fin stSpace.length → ℝ => ω 0 ⟨1, by simp [stSpace]⟩) (f := fun x : ℝ => x ^ k) hm.aemeasurable (by fun_prop), hu, integral_Icc_eq_integral_Ioc,
      ← intervalIntegral.integral_of_le zero_le_one, integral_pow]
    simp
  have hL : MemLp (fun ω : ℕ → Fin stSpace.length → ℝ => ω 0 ⟨1, by simp [stSpace]⟩) 2 (uniformSamples stSpace.length) :=
    (memLp_two_iff_integrable_sq hm.aestronglyMeasurable).2 (hpow 2).1
  have hE : ∫ ω : ℕ → Fin stSpace.length → ℝ, ω 0 ⟨1, by simp [stSpace]⟩ ∂(uniformSamples stSpace.length) = 1 / 2 := by
    have := (hpow 1).2
    simp only [pow_one] at this
    rw [this]
    norm_num
  have hV : Var[fun ω : ℕ → Fin stSpace.length → ℝ => ω 0 ⟨1, by simp [stSpace]⟩; uniformSamples stSpace.length] = 1 / 12 := by
    rw [variance_eq_sub hL]
    have := (hpow 2).2
    simp only [Pi.pow_apply]
    rw [this, hE]
    norm_num
  have h3 := h2 2 [1] (by simp)
  simp only [hval] at h3
  rw [hE] at h3
  exact ⟨y, Y, fun n hn ω => (h1 n hn ω).1, h3 hL (by rw [hV]; norm_num) z⟩

end PyPDP
