/-
C185 (continued): the maximum mean discrepancy of random points tends to 0.
-/
import Verif.Props.MmdTransport
import Verif.Props.PdpTruth
import Verif.Props.BoCertificate
import Mathlib.Topology.MetricSpace.Basic
import Mathlib.MeasureTheory.Function.Floor

namespace PyPDP
open Spec MeasureTheory ProbabilityTheory Filter Topology

/-! ### the median distance is not small if few points are near one another -/

theorem median_ge {d : Nat} {Z : List (List ℝ)} {m s : ℝ} (hm : IsMedian m (nonzeroDistances d Z)) (hs : 0 < s) (hZ : Z ≠ [])
    (h : ∀ a ∈ Z, 2 * Z.countP (fun b => decide (euclid d a b < s)) < Z.length) : s ≤ m := by
  by_contra hc
  push Not at hc
  obtain ⟨L, hL⟩ : ∃ L, L = (Z.product Z).map fun p => euclid d p.1 p.2 := ⟨_, rfl⟩
  have hlen : L.length = Z.length * Z.length := by rw [hL, List.length_map]; exact List.length_product ..
  have hnear : 2 * L.countP (fun x => decide (x < s)) < Z.length * Z.length := by
    have key : ∀ A : List (List ℝ), (∀ a ∈ A, a ∈ Z) →
        2 * ((A.product Z).map fun p => euclid d p.1 p.2).countP (fun x => decide (x < s)) + A.length ≤ A.length * Z.length := by
      intro A
      induction A with
      | nil => intro _; simp [List.product]
      | cons a A ih =>
        intro hA
        have h1 := ih fun b hb => hA b (by simp [hb])
        have h2 := h a (hA a (by simp))
        have e : (((a :: A).product Z).map fun p => euclid d p.1 p.2) = (Z.map fun b => euclid d a b) ++ ((A.product Z).map fun p => euclid d p.1 p.2) := by
          simp [List.product, List.flatMap_cons]
        rw [e, List.countP_append, List.countP_map, List.length_cons, Nat.add_mul, Nat.one_mul]
        have e2 : Z.countP ((fun x => decide (x < s)) ∘ fun b => euclid d a b) = Z.countP (fun b => decide (euclid d a b < s)) := rfl
        rw [e2]
        omega
    have := key Z fun _ h => h
    have hp := List.length_pos_iff.2 hZ
    rw [hL]
    omega
  have h1 := hm.1
  have e : nonzeroDistances d Z = L.filter fun r => decide (r ≠ 0) := by rw [hL]; rfl
  rw [e, ← List.countP_eq_length_filter, List.countP_filter] at h1
  have h2 : L.countP (fun r => decide (r ≠ 0)) + L.countP (fun r => decide (r = 0)) = L.length := by
    rw [List.length_eq_countP_add_countP (fun r => decide (r ≠ 0)) (l := L)]
    congr 1
    exact List.countP_congr fun x _ => by simp
  have h3 : L.countP (fun a => decide (a ≤ m) && decide (a ≠ 0)) + L.countP (fun r => decide (r = 0)) ≤ L.countP (fun x => decide (x < s)) := by
    clear h1 h2 hnear hlen e hL
    induction L with
    | nil => simp
    | cons x L ih =>
      simp only [List.countP_cons]
      simp only [ne_eq, decide_not] at ih ⊢
      by_cases hx0 : x = 0
      · simp [hx0, hs]; omega
      · by_cases hxm : x ≤ m
        · have : x < s := lt_of_le_of_lt hxm hc
          simp [hx0, hxm, this]; omega
        · by_cases hxs : x < s <;> simp [hx0, hxm, hxs] <;> omega
  omega

/-! ### frequencies of random points -/

section law
variable {Ω : Type} [MeasurableSpace Ω]

omit [MeasurableSpace Ω] in
theorem frequency_firstSamples {d : Nat} {ι : Type} [DecidableEq ι] (cell : List ℝ → ι) (X : ℕ → Ω → Fin d → ℝ) (n : Nat) (ω : Ω) (c : ι) :
    frequency cell (firstSamples X n ω) c = (∑ i ∈ Finset.range n, if cell (List.ofFn (X i ω)) = c then (1 : ℝ) else 0) / n := by
  unfold frequency firstSamples
  rw [List.length_map, List.length_range, List.countP_map]
  congr 1
  induction n with
  | zero => simp
  | succ n ih =>
    rw [List.range_succ, List.countP_append, Nat.cast_add, ih, Finset.sum_range_succ]
    congr 1
    by_cases h : cell (List.ofFn (X n ω)) = c <;> simp [h]

theorem frequency_law {P : Measure Ω} [IsProbabilityMeasure P] {d : Nat} {X : ℕ → Ω → Fin d → ℝ} (hX : IsRandomSample P X) {ι : Type} [DecidableEq ι] [Countable ι]
    (cell : List ℝ → ι) (hm : ∀ c, MeasurableSet {x : Fin d → ℝ | cell (List.ofFn x) = c}) :
    ∀ᵐ ω ∂P, ∀ c, Tendsto (fun n => frequency cell (firstSamples X n ω) c) atTop (𝓝 (P.real {ω | cell (List.ofFn (X 0 ω)) = c})) := by
  rw [ae_all_iff]
  intro c
  have hmeas : Measurable fun x : Fin d → ℝ => if cell (List.ofFn x) = c then (1 : ℝ) else 0 := Measurable.ite (hm c) measurable_const measurable_const
  have hint : Integrable (fun ω => if cell (List.ofFn (X 0 ω)) = c then (1 : ℝ) else 0) P := by
    refine Integrable.of_bound (hmeas.comp (hX.meas 0)).aestronglyMeasurable 1 (ae_of_all _ fun ω => ?_)
    split <;> simp
  have hlaw := strong_law_ae_real (fun i ω => if cell (List.ofFn (X i ω)) = c then (1 : ℝ) else 0) hint
    (fun i j hij => (hX.indep hij).comp hmeas hmeas)
    (fun i => (IdentDistrib.mk (hX.meas i).aemeasurable (hX.meas 0).aemeasurable (hX.ident i)).comp hmeas)
  have hval : ∫ ω, (if cell (List.ofFn (X 0 ω)) = c then (1 : ℝ) else 0) ∂P = P.real {ω | cell (List.ofFn (X 0 ω)) = c} := by
    have : (fun ω => if cell (List.ofFn (X 0 ω)) = c then (1 : ℝ) else 0) = Set.indicator {ω | cell (List.ofFn (X 0 ω)) = c} 1 := by
      funext ω
      simp [Set.indicator_apply]
    rw [this]
    exact integral_indicator_one ((hX.meas 0) (hm c))
  simp only [frequency_firstSamples]
  rw [hval] at hlaw
  exact hlaw

/-- the slab of the `k`-th coordinate with the point -/
noncomputable def slabOf (k M : Nat) (v : List ℝ) : ℕ := min ⌊v.getD k 0 * M⌋₊ (M - 1)

theorem slab_measurable {d : Nat} (k : Fin d) (M c : Nat) : MeasurableSet {x : Fin d → ℝ | slabOf k M (List.ofFn x) = c} := by
  have : Measurable fun x : Fin d → ℝ => slabOf k M (List.ofFn x) := by
    have e : (fun x : Fin d → ℝ => slabOf k M (List.ofFn x)) = fun x => min ⌊x k * (M : ℝ)⌋₊ (M - 1) := by
      funext x
      simp [slabOf]
    rw [e]
    exact ((measurable_pi_apply k).mul_const _).nat_floor.min measurable_const
  exact this (measurableSet_singleton c)

theorem cell_measurable {d M : Nat} (hM : 1 ≤ M) (c : Fin d → Fin M) : MeasurableSet {x : Fin d → ℝ | cellOf d hM (List.ofFn x) = c} := by
  have : {x : Fin d → ℝ | cellOf d hM (List.ofFn x) = c} = ⋂ k : Fin d, {x | slabOf k M (List.ofFn x) = c k} := by
    ext x
    simp only [Set.mem_ofPred_eq, Set.mem_iInter, funext_iff, Fin.ext_iff]
    exact Iff.rfl
  rw [this]
  exact MeasurableSet.iInter fun k => slab_measurable k M (c k)

/-- a slab is short -/
theorem slab_bounds {M : Nat} (hM : 1 ≤ M) {k : Nat} {v : List ℝ} (h0 : 0 ≤ v.getD k 0) (h1 : v.getD k 0 ≤ 1) :
    (slabOf k M v : ℝ) ≤ v.getD k 0 * M ∧ v.getD k 0 * M ≤ slabOf k M v + 1 := by
  have hM0 : (0 : ℝ) < M := by exact_mod_cast hM
  have h0 : 0 ≤ v.getD k 0 * M := mul_nonneg h0 hM0.le
  have hf := Nat.floor_le h0
  have hc := (Nat.lt_floor_add_one (v.getD k 0 * M)).le
  unfold slabOf
  refine ⟨le_trans (by exact_mod_cast min_le_left _ _) hf, ?_⟩
  rcases le_total ⌊v.getD k 0 * M⌋₊ (M - 1) with h | h
  · rw [min_eq_left h]
    exact hc
  · rw [min_eq_right h]
    have : ((M - 1 : ℕ) : ℝ) + 1 = M := by
      have : M - 1 + 1 = M := by omega
      exact_mod_cast this
    rw [this]
    nlinarith

/-- points at distance less than `1 / M` are in the same or in neighbouring slabs -/
theorem slab_near {M d k : Nat} (hk : k < d) (hM : 1 ≤ M) {a b : List ℝ} (ha0 : 0 ≤ a.getD k 0) (ha1 : a.getD k 0 ≤ 1) (hb0 : 0 ≤ b.getD k 0)
    (hb1 : b.getD k 0 ≤ 1) (h : euclid d a b < 1 / M) :
    slabOf k M b = slabOf k M a - 1 ∨ slabOf k M b = slabOf k M a ∨ slabOf k M b = slabOf k M a + 1 := by
  have hM0 : (0 : ℝ) < M := by exact_mod_cast hM
  have hc : |a.getD k 0 - b.getD k 0| < 1 / M := by
    refine lt_of_le_of_lt ?_ h
    unfold euclid
    refine Real.le_sqrt_of_sq_le ?_
    rw [sq_abs]
    exact Finset.single_le_sum (f := fun i => (a.getD i 0 - b.getD i 0) ^ 2) (fun _ _ => sq_nonneg _) (Finset.mem_range.2 hk)
  obtain ⟨c1, c2⟩ := abs_lt.1 hc
  have m1 : (1 : ℝ) / M * M = 1 := by field_simp
  obtain ⟨a1, a2⟩ := slab_bounds hM ha0 ha1
  obtain ⟨b1, b2⟩ := slab_bounds hM hb0 hb1
  have u1 : (slabOf k M b : ℝ) < slabOf k M a + 2 := by nlinarith
  have u2 : (slabOf k M a : ℝ) < slabOf k M b + 2 := by nlinarith
  have u1 : slabOf k M b < slabOf k M a + 2 := by exact_mod_cast u1
  have u2 : slabOf k M a < slabOf k M b + 2 := by exact_mod_cast u2
  omega

theorem countP_three {α : Type} (Z : List α) (f : α → ℕ) (x y z : ℕ) {p : α → Bool} (h : ∀ b ∈ Z, p b = true → f b = x ∨ f b = y ∨ f b = z) :
    Z.countP p ≤ Z.countP (fun b => decide (f b = x)) + Z.countP (fun b => decide (f b = y)) + Z.countP (fun b => decide (f b = z)) := by
  induction Z with
  | nil => simp
  | cons b Z ih =>
    have h1 := ih fun c hc => h c (by simp [hc])
    have h2 := h b (by simp)
    simp only [List.countP_cons]
    by_cases hp : p b = true
    · rcases h2 hp with e | e | e <;> simp only [e, hp, if_true, decide_true] <;> split <;> split <;> omega
    · simp only [hp]
      rw [if_neg (by simp)]
      omega

/-- if no slab has a sixth of the points, the median distance is at least the width of the slabs -/
theorem median_ge_slab {M d k : Nat} (hk : k < d) (hM : 1 ≤ M) {Z : List (List ℝ)} (h01 : ∀ a ∈ Z, ∀ x ∈ a, 0 ≤ x ∧ x ≤ 1)
    (h : ∀ c, 6 * Z.countP (fun b => decide (slabOf k M b = c)) < Z.length) :
    ∀ a ∈ Z, 2 * Z.countP (fun b => decide (euclid d a b < 1 / M)) < Z.length := by
  have hget : ∀ a ∈ Z, 0 ≤ a.getD k 0 ∧ a.getD k 0 ≤ 1 := by
    intro a ha
    rw [List.getD_eq_getElem?_getD]
    cases hk : a[k]? with
    | none => simp
    | some x => simpa using h01 a ha x (List.mem_of_getElem? hk)
  intro a ha
  have := countP_three Z (slabOf k M) (slabOf k M a - 1) (slabOf k M a) (slabOf k M a + 1) (p := fun b => decide (euclid d a b < 1 / M)) fun b hb hp =>
    slab_near hk hM (hget a ha).1 (hget a ha).2 (hget b hb).1 (hget b hb).2 (by simpa using hp)
  have h1 := h (slabOf k M a - 1)
  have h2 := h (slabOf k M a)
  have h3 := h (slabOf k M a + 1)
  omega

/-- if no value has a sixth of the probability, neither has a short interval -/
theorem short_interval {μ : Measure ℝ} [IsFiniteMeasure μ] {q : ENNReal} (h : ∀ t, μ {t} < q) : ∃ s > 0, ∀ t ∈ Set.Icc (0 : ℝ) 1, μ (Metric.ball t s) < q := by
  have hloc : ∀ t : ℝ, ∃ e > 0, μ (Metric.closedBall t e) < q := by
    intro t
    have hlim : Tendsto (fun n : ℕ => μ (Metric.closedBall t (1 / ((n : ℝ) + 1)))) atTop (𝓝 (μ (⋂ n : ℕ, Metric.closedBall t (1 / ((n : ℝ) + 1))))) := by
      refine tendsto_measure_iInter_atTop (fun n => Metric.isClosed_closedBall.measurableSet.nullMeasurableSet) (fun m n hmn => ?_) ⟨0, measure_ne_top _ _⟩
      exact Metric.closedBall_subset_closedBall (one_div_le_one_div_of_le (by positivity) (by simpa using hmn))
    have hset : (⋂ n : ℕ, Metric.closedBall t (1 / ((n : ℝ) + 1))) = {t} := by
      ext x
      simp only [Set.mem_iInter, Metric.mem_closedBall, Set.mem_singleton_iff]
      constructor
      · intro hx
        have : dist x t ≤ 0 := ge_of_tendsto' tendsto_one_div_add_atTop_nhds_zero_nat hx
        exact dist_le_zero.1 this
      · rintro rfl n
        rw [dist_self]
        positivity
    rw [hset] at hlim
    obtain ⟨n, hn⟩ := (hlim.eventually_lt_const (h t)).exists
    exact ⟨_, by positivity, hn⟩
  choose e he0 he using hloc
  obtain ⟨s, hs0, hs⟩ := lebesgue_number_lemma_of_metric (s := Set.Icc (0 : ℝ) 1) (c := fun t : ℝ => Metric.ball t (e t)) isCompact_Icc (fun t => Metric.isOpen_ball)
    fun t _ => Set.mem_iUnion.2 ⟨t, Metric.mem_ball_self (he0 t)⟩
  refine ⟨s, hs0, fun t ht => ?_⟩
  obtain ⟨u, hu⟩ := hs t ht
  exact lt_of_le_of_lt (measure_mono (hu.trans Metric.ball_subset_closedBall)) (he u)

/-- if no value of a coordinate has a sixth of the probability, neither has a slab -/
theorem slab_probability {P : Measure Ω} [IsProbabilityMeasure P] {d : Nat} {X : Ω → Fin d → ℝ} (hm : Measurable X) (h01 : ∀ᵐ ω ∂P, ∀ k, 0 ≤ X ω k ∧ X ω k ≤ 1) {k : Fin d}
    (hk : ∀ t, P.real {ω | X ω k = t} < 1 / 6) : ∃ M, 1 ≤ M ∧ ∀ c, P.real {ω | slabOf k M (List.ofFn (X ω)) = c} < 1 / 6 := by
  have hmk : Measurable fun ω => X ω k := (measurable_pi_apply k).comp hm
  have : IsProbabilityMeasure (P.map fun ω => X ω k) := Measure.isProbabilityMeasure_map hmk.aemeasurable
  obtain ⟨s, hs0, hs⟩ := short_interval (μ := P.map fun ω => X ω k) (q := ENNReal.ofReal (1 / 6)) fun t => by
    rw [Measure.map_apply hmk (measurableSet_singleton t), ENNReal.lt_ofReal_iff_toReal_lt (measure_ne_top _ _)]
    exact hk t
  obtain ⟨n, hn⟩ := exists_nat_one_div_lt hs0
  have hM0 : (0 : ℝ) < (n + 1 : ℕ) := by positivity
  refine ⟨n + 1, by omega, fun c => ?_⟩
  have hget : ∀ ω, (List.ofFn (X ω)).getD k 0 = X ω k := fun ω => by simp
  by_cases hc : c ≤ n
  · have hct : (c : ℝ) / (n + 1 : ℕ) ∈ Set.Icc (0 : ℝ) 1 := by
      refine ⟨by positivity, (div_le_one hM0).2 ?_⟩
      exact_mod_cast (by omega : c ≤ n + 1)
    have hlt := hs _ hct
    rw [Measure.map_apply hmk Metric.isOpen_ball.measurableSet] at hlt
    have hsub : ∀ᵐ ω ∂P, ω ∈ {ω | slabOf k (n + 1) (List.ofFn (X ω)) = c} → ω ∈ (fun ω => X ω k) ⁻¹' Metric.ball ((c : ℝ) / (n + 1 : ℕ)) s := by
      filter_upwards [h01] with ω h01 hω
      obtain ⟨b1, b2⟩ := slab_bounds (M := n + 1) (by omega) (k := k) (v := List.ofFn (X ω)) (by rw [hget]; exact (h01 k).1) (by rw [hget]; exact (h01 k).2)
      have hω : slabOf k (n + 1) (List.ofFn (X ω)) = c := hω
      rw [hω, hget] at b1 b2
      rw [Set.mem_preimage, Metric.mem_ball, Real.dist_eq]
      refine lt_of_le_of_lt ?_ hn
      have e1 : (c : ℝ) / (n + 1 : ℕ) ≤ X ω k := (div_le_iff₀ hM0).2 b1
      have e2 : X ω k ≤ ((c : ℝ) + 1) / (n + 1 : ℕ) := (le_div_iff₀ hM0).2 b2
      rw [abs_of_nonneg (by linarith)]
      have e3 : ((c : ℝ) + 1) / (n + 1 : ℕ) = (c : ℝ) / (n + 1 : ℕ) + 1 / ((n : ℝ) + 1) := by
        push_cast
        ring
      linarith
    have : P {ω | slabOf k (n + 1) (List.ofFn (X ω)) = c} < ENNReal.ofReal (1 / 6) := lt_of_le_of_lt (measure_mono_ae hsub) hlt
    rw [ENNReal.lt_ofReal_iff_toReal_lt (measure_ne_top _ _)] at this
    exact this
  · have : {ω | slabOf k (n + 1) (List.ofFn (X ω)) = c} = ∅ := by
      ext ω
      simp only [Set.mem_ofPred_eq, Set.mem_empty_iff_false, iff_false]
      intro h
      have : slabOf k (n + 1) (List.ofFn (X ω)) ≤ n + 1 - 1 := min_le_right _ _
      omega
    rw [this]
    simp

omit [MeasurableSpace Ω] in
theorem firstSamples_width {d : Nat} (X : ℕ → Ω → Fin d → ℝ) (n : Nat) (ω : Ω) : ∀ r ∈ firstSamples X n ω, r.length = d := by
  intro r hr
  obtain ⟨i, _, rfl⟩ := List.mem_map.1 hr
  simp

omit [MeasurableSpace Ω] in
theorem firstSamples_unit {d : Nat} {X : ℕ → Ω → Fin d → ℝ} {ω : Ω} (h01 : ∀ i k, 0 ≤ X i ω k ∧ X i ω k ≤ 1) (n : Nat) :
    ∀ r ∈ firstSamples X n ω, ∀ x ∈ r, 0 ≤ x ∧ x ≤ 1 := by
  intro r hr x hx
  obtain ⟨i, _, rfl⟩ := List.mem_map.1 hr
  obtain ⟨k, rfl⟩ := (List.mem_ofFn' _ _).1 hx
  exact h01 i k

omit [MeasurableSpace Ω] in
theorem firstSamples_length {d : Nat} (X : ℕ → Ω → Fin d → ℝ) (n : Nat) (ω : Ω) : (firstSamples X n ω).length = n := by simp [firstSamples]

/-- points of the unit cube in cells -/
theorem cell_representatives {d M : Nat} (hM : 1 ≤ M) : ∃ rep : (Fin d → Fin M) → List ℝ, ∀ x : List ℝ, (∀ t ∈ x, 0 ≤ t ∧ t ≤ 1) →
    euclid d x (rep (cellOf d hM x)) ≤ √d / M := by
  have hM0 : (0 : ℝ) < M := by exact_mod_cast hM
  classical
  refine ⟨fun c => if h : ∃ v : List ℝ, (∀ t ∈ v, 0 ≤ t ∧ t ≤ 1) ∧ cellOf d hM v = c then h.choose else [], fun x hx => ?_⟩
  have hex : ∃ v : List ℝ, (∀ t ∈ v, 0 ≤ t ∧ t ≤ 1) ∧ cellOf d hM v = cellOf d hM x := ⟨x, hx, rfl⟩
  dsimp only
  rw [dif_pos hex]
  have hclose := cellOf_close hex.choose_spec.1 hx hex.choose_spec.2
  unfold euclid
  refine Real.sqrt_le_iff.2 ⟨by positivity, ?_⟩
  calc _ ≤ ∑ i ∈ Finset.range d, (1 / (M : ℝ)) ^ 2 := Finset.sum_le_sum fun i hi => by
        rw [← sq_abs]
        exact pow_le_pow_left₀ (abs_nonneg _) (hclose i (Finset.mem_range.1 hi)) 2
    _ = _ := by
        rw [Finset.sum_const, Finset.card_range, nsmul_eq_mul, div_pow, div_pow, Real.sq_sqrt (by positivity)]
        ring

/-- **C185** The maximum mean discrepancy of random points tends to 0: if the samples and the points they are compared with are drawn independently from the
same distribution on the unit cube, in which some coordinate takes no value with probability a sixth or more, then almost surely the result is as near to 0 as one
likes as soon as there are enough of both. -/
theorem C185_random {P : Measure Ω} [IsProbabilityMeasure P] {d : Nat} {X Y : ℕ → Ω → Fin d → ℝ} (hX : IsRandomSample P X) (hY : IsRandomSample P Y)
    (hsame : P.map (Y 0) = P.map (X 0)) (hX1 : ∀ᵐ ω ∂P, ∀ i k, 0 ≤ X i ω k ∧ X i ω k ≤ 1) (hY1 : ∀ᵐ ω ∂P, ∀ i k, 0 ≤ Y i ω k ∧ Y i ω k ≤ 1) {k : Fin d}
    (hk : ∀ t, P.real {ω | X 0 ω k = t} < 1 / 6) :
    ∀ᵐ ω ∂P, ∀ ε > 0, ∃ N, ∀ n ≥ N, ∀ m ≥ N, ∃ r, maximumMeanDiscrepancy (firstSamples X n ω) (firstSamples Y m ω) = .ok r ∧ 0 ≤ r ∧ r ≤ ε := by
  obtain ⟨M, hM, hslab⟩ := slab_probability (hX.meas 0) (hX1.mono fun _ h => h 0) hk
  have hM0 : (0 : ℝ) < M := by exact_mod_cast hM
  have hprob : ∀ {S : Set (Fin d → ℝ)}, MeasurableSet S → P.real {ω | Y 0 ω ∈ S} = P.real {ω | X 0 ω ∈ S} := by
    intro S hS
    have h1 : P.real (Y 0 ⁻¹' S) = (P.map (Y 0)).real S := (map_measureReal_apply (hY.meas 0) hS).symm
    have h2 : P.real (X 0 ⁻¹' S) = (P.map (X 0)).real S := (map_measureReal_apply (hX.meas 0) hS).symm
    rw [hsame, ← h2] at h1
    exact h1
  have hcells : ∀ᵐ ω ∂P, ∀ A : ℕ, ∀ c, Tendsto (fun n => frequency (cellOf d (M := A + 1) (by omega)) (firstSamples X n ω) c) atTop
      (𝓝 (P.real {ω | cellOf d (M := A + 1) (by omega) (List.ofFn (X 0 ω)) = c})) :=
    ae_all_iff.2 fun A => frequency_law hX _ fun c => cell_measurable (by omega) c
  have hcells' : ∀ᵐ ω ∂P, ∀ A : ℕ, ∀ c, Tendsto (fun n => frequency (cellOf d (M := A + 1) (by omega)) (firstSamples Y n ω) c) atTop
      (𝓝 (P.real {ω | cellOf d (M := A + 1) (by omega) (List.ofFn (X 0 ω)) = c})) := by
    refine ae_all_iff.2 fun A => ?_
    filter_upwards [frequency_law hY _ fun c => cell_measurable (M := A + 1) (by omega) c] with ω h c
    have := hprob (cell_measurable (M := A + 1) (by omega) c)
    simp only [Set.mem_ofPred_eq] at this
    rw [← this]
    exact h c
  filter_upwards [hX1, hY1, hcells, hcells', frequency_law hX (slabOf k M) (slab_measurable k M), frequency_law hY (slabOf k M) (slab_measurable k M)] with ω hX1 hY1 h1 h2 h3 h4 ε hε
  -- the slabs
  have hslabs : ∃ N, 2 ≤ N ∧ ∀ n ≥ N, ∀ c, 6 * (firstSamples X n ω).countP (fun b => decide (slabOf k M b = c)) < n ∧
      6 * (firstSamples Y n ω).countP (fun b => decide (slabOf k M b = c)) < n := by
    have e : ∀ᶠ n in atTop, ∀ c ∈ Finset.range M, frequency (slabOf k M) (firstSamples X n ω) c < 1 / 6 ∧ frequency (slabOf k M) (firstSamples Y n ω) c < 1 / 6 := by
      rw [eventually_all_finset]
      intro c _
      refine ((h3 c).eventually_lt_const (hslab c)).and ((h4 c).eventually_lt_const ?_)
      have := hprob (slab_measurable k M c)
      simp only [Set.mem_ofPred_eq] at this
      rw [this]
      exact hslab c
    obtain ⟨N, hN⟩ := eventually_atTop.1 e
    refine ⟨max N 2, le_max_right _ _, fun n hn c => ?_⟩
    have hn2 : 2 ≤ n := le_trans (le_max_right _ _) hn
    have hn0 : (0 : ℝ) < n := by exact_mod_cast (by omega : 0 < n)
    by_cases hc : c < M
    · obtain ⟨a1, a2⟩ := hN n (le_trans (le_max_left _ _) hn) c (Finset.mem_range.2 hc)
      unfold frequency at a1 a2
      rw [firstSamples_length, div_lt_iff₀ hn0] at a1 a2
      constructor
      · have : (6 : ℝ) * ((firstSamples X n ω).countP fun b => decide (slabOf k M b = c)) < n := by linarith
        exact_mod_cast this
      · have : (6 : ℝ) * ((firstSamples Y n ω).countP fun b => decide (slabOf k M b = c)) < n := by linarith
        exact_mod_cast this
    · have h0 : ∀ Z : List (List ℝ), Z.countP (fun b => decide (slabOf k M b = c)) = 0 := by
        intro Z
        rw [List.countP_eq_zero]
        intro b _
        have : slabOf k M b ≤ M - 1 := min_le_right _ _
        simp only [decide_eq_true_eq]
        omega
      rw [h0, h0]
      omega
  obtain ⟨N₁, hN2, hN₁⟩ := hslabs
  -- the cells
  obtain ⟨A, hA⟩ := exists_nat_gt (4 * √d * M / ε)
  have hA0 : (0 : ℝ) < (A + 1 : ℕ) := by positivity
  have hδ : 2 * (√d / (A + 1 : ℕ)) / (1 / M) ≤ ε / 2 := by
    have e : 2 * (√d / (A + 1 : ℕ)) / (1 / (M : ℝ)) = 2 * √d * M / (A + 1 : ℕ) := by field_simp
    rw [e, div_le_iff₀ hA0]
    rw [div_lt_iff₀ hε] at hA
    push_cast
    nlinarith
  obtain ⟨η, hη⟩ : ∃ η : ℝ, η = ε / (4 * (Fintype.card (Fin d → Fin (A + 1)) + 1)) := ⟨_, rfl⟩
  have hη0 : 0 < η := by rw [hη]; positivity
  have hcell : ∃ N, ∀ n ≥ N, ∀ c : Fin d → Fin (A + 1),
      |frequency (cellOf d (M := A + 1) (by omega)) (firstSamples X n ω) c - P.real {ω | cellOf d (M := A + 1) (by omega) (List.ofFn (X 0 ω)) = c}| < η ∧
      |frequency (cellOf d (M := A + 1) (by omega)) (firstSamples Y n ω) c - P.real {ω | cellOf d (M := A + 1) (by omega) (List.ofFn (X 0 ω)) = c}| < η := by
    have : ∀ᶠ n in atTop, ∀ c : Fin d → Fin (A + 1),
      |frequency (cellOf d (M := A + 1) (by omega)) (firstSamples X n ω) c - P.real {ω | cellOf d (M := A + 1) (by omega) (List.ofFn (X 0 ω)) = c}| < η ∧
      |frequency (cellOf d (M := A + 1) (by omega)) (firstSamples Y n ω) c - P.real {ω | cellOf d (M := A + 1) (by omega) (List.ofFn (X 0 ω)) = c}| < η := by
      rw [eventually_all]
      intro c
      exact ((Metric.tendsto_nhds.1 (h1 A c)) η hη0).and ((Metric.tendsto_nhds.1 (h2 A c)) η hη0)
    exact eventually_atTop.1 this
  obtain ⟨N₂, hN₂⟩ := hcell
  refine ⟨max N₁ N₂, fun n hn m hm => ?_⟩
  have hnN := le_trans (le_max_left _ _) hn
  have hmN := le_trans (le_max_left _ _) hm
  have wX := firstSamples_width X n ω
  have wY := firstSamples_width Y m ω
  have uZ : ∀ a ∈ firstSamples X n ω ++ firstSamples Y m ω, ∀ x ∈ a, 0 ≤ x ∧ x ≤ 1 := by
    intro a ha
    rcases List.mem_append.1 ha with ha | ha
    exacts [firstSamples_unit hX1 n a ha, firstSamples_unit hY1 m a ha]
  have wZ : ∀ a ∈ firstSamples X n ω ++ firstSamples Y m ω, a.length = d := by
    intro a ha
    rcases List.mem_append.1 ha with ha | ha
    exacts [wX a ha, wY a ha]
  have hZ : firstSamples X n ω ++ firstSamples Y m ω ≠ [] := by
    intro h
    have := congrArg List.length h
    rw [List.length_append, firstSamples_length, firstSamples_length, List.length_nil] at this
    omega
  have hnear := median_ge_slab k.2 hM uZ fun c => by
    rw [List.countP_append, List.length_append, firstSamples_length, firstSamples_length]
    have := (hN₁ n hnN c).1
    have := (hN₁ m hmN c).2
    omega
  have hne : ∃ a ∈ firstSamples X n ω ++ firstSamples Y m ω, ∃ b ∈ firstSamples X n ω ++ firstSamples Y m ω, a ≠ b := by
    obtain ⟨a, ha⟩ := List.exists_mem_of_ne_nil _ hZ
    by_contra hc
    push Not at hc
    have h5 := hnear a ha
    rw [List.countP_eq_length.2 fun b hb => ?_] at h5
    · omega
    · rw [hc b hb a ha, (euclid_eq_zero (wZ a ha) (wZ a ha)).2 rfl]
      simpa using hM0
  obtain ⟨l, r, e1, e2, e3, e4, -⟩ := C33_value wX wY (by rw [firstSamples_length]; omega) (by rw [firstSamples_length]; omega) hne
  obtain ⟨l', f1, f2, -⟩ := C09_median wZ hne
  rw [e1] at f1
  obtain rfl := Except.ok.inj f1
  have hl := median_ge f2 (by positivity) hZ hnear
  refine ⟨r, e3, e4, ?_⟩
  obtain ⟨rep, hrep⟩ := cell_representatives (d := d) (M := A + 1) (by omega)
  have hfin := C185_cells wX wY e1 e3 (cellOf d (M := A + 1) (by omega)) rep fun x hx => hrep x (uZ x hx)
  have g1 : 2 * (√d / (A + 1 : ℕ)) / l ≤ 2 * (√d / (A + 1 : ℕ)) / (1 / M) := div_le_div_of_nonneg_left (by positivity) (by positivity) hl
  have g2 : ∑ c, |frequency (cellOf d (M := A + 1) (by omega)) (firstSamples X n ω) c - frequency (cellOf d (M := A + 1) (by omega)) (firstSamples Y m ω) c| ≤ ε / 2 := by
    calc _ ≤ ∑ c : Fin d → Fin (A + 1), 2 * η := Finset.sum_le_sum fun c _ => by
          have a1 := (hN₂ n (le_trans (le_max_right _ _) hn) c).1
          have a2 := (hN₂ m (le_trans (le_max_right _ _) hm) c).2
          rw [abs_sub_comm] at a2
          have := abs_sub_le (frequency (cellOf d (M := A + 1) (by omega)) (firstSamples X n ω) c) (P.real {ω | cellOf d (M := A + 1) (by omega) (List.ofFn (X 0 ω)) = c})
            (frequency (cellOf d (M := A + 1) (by omega)) (firstSamples Y m ω) c)
          linarith
      _ = Fintype.card (Fin d → Fin (A + 1)) * (2 * η) := by rw [Finset.sum_const, Finset.card_univ, nsmul_eq_mul]
      _ ≤ (Fintype.card (Fin d → Fin (A + 1)) + 1) * (2 * η) := by nlinarith
      _ = ε / 2 := by
          rw [hη]
          field_simp
          ring
  linarith

end law

/-! ### examples -/

/-- two samples near the two points they are compared with -/
example {r l : ℝ} (hl : medianDistanceBetweenPoints ([[0], [1]] ++ [[1 / 10], [9 / 10]]) = .ok l) (h : maximumMeanDiscrepancy [[0], [1]] [[1 / 10], [9 / 10]] = .ok r) :
    r ≤ 1 / 10 / l := by
  refine C185_matched (d := 1) (by simp) (by simp) hl h rfl fun i hi => ?_
  have : i = 0 ∨ i = 1 := by simp at hi; omega
  unfold euclid
  rw [Finset.sum_range_one, Real.sqrt_sq_eq_abs]
  rcases this with rfl | rfl <;> norm_num

/-- **C185** in particular, that of uniformly distributed samples tends to 0 -/
theorem C185_uniform {d : Nat} (hd : 1 ≤ d) :
    ∀ᵐ ω ∂(uniformSamples d), ∀ ε > 0, ∃ N, ∀ n ≥ N, ∀ m ≥ N, ∃ r,
      maximumMeanDiscrepancy (firstSamples (fun i ω => ω (2 * i)) n ω) (firstSamples (fun i ω => ω (2 * i + 1)) m ω) = .ok r ∧ 0 ≤ r ∧ r ≤ ε := by
  obtain ⟨h1, h2⟩ := uniformSamples_spec d
  have hmap : ∀ i k, (uniformSamples d).map (fun ω => ω i k) = volume.restrict (Set.Icc (0 : ℝ) 1) := by
    intro i k
    have e : ∀ j, (fun ω : ℕ → Fin d → ℝ => ω j k) = (fun x : Fin d → ℝ => x k) ∘ fun ω => ω j := fun _ => rfl
    rw [← h2 k, e i, e 0, ← Measure.map_map (measurable_pi_apply k) (h1.meas i), ← Measure.map_map (measurable_pi_apply k) (h1.meas 0), h1.ident i]
  have hsub : ∀ f : ℕ → ℕ, Function.Injective f → IsRandomSample (uniformSamples d) fun i ω => ω (f i) := fun f hf =>
    ⟨fun i => h1.meas _, fun i j hij => h1.indep (hf.ne hij), fun i => by rw [h1.ident (f i), h1.ident (f 0)]⟩
  have hunit : ∀ᵐ ω ∂(uniformSamples d), ∀ i k, 0 ≤ ω i k ∧ ω i k ≤ 1 := by
    refine ae_all_iff.2 fun i => ae_all_iff.2 fun k => ?_
    have hm : Measurable fun ω : ℕ → Fin d → ℝ => ω i k := (measurable_pi_apply k).comp (measurable_pi_apply i)
    have : ∀ᵐ x ∂((uniformSamples d).map fun ω => ω i k), x ∈ Set.Icc (0 : ℝ) 1 := by
      rw [hmap]
      exact ae_restrict_mem measurableSet_Icc
    exact ae_of_ae_map hm.aemeasurable this
  refine C185_random (k := ⟨0, hd⟩) (hsub (fun i => 2 * i) fun a b h => by simpa using h) (hsub (fun i => 2 * i + 1) fun a b h => by simpa using h)
    (h1.ident 1) (hunit.mono fun ω h i => h _) (hunit.mono fun ω h i => h _) fun t => ?_
  have hm : Measurable fun ω : ℕ → Fin d → ℝ => ω 0 ⟨0, hd⟩ := (measurable_pi_apply _).comp (measurable_pi_apply 0)
  have : (uniformSamples d).real {ω | ω (2 * 0) ⟨0, hd⟩ = t} = ((uniformSamples d).map fun ω => ω 0 ⟨0, hd⟩).real {t} :=
    (map_measureReal_apply hm (measurableSet_singleton t)).symm
  rw [this, hmap]
  simp [measureReal_def]

end PyPDP
