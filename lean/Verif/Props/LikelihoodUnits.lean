/-
C174: what the negative log-likelihood of a region says about its variances, and how it depends on the units of the objective.
-/
import Verif.Props.Likelihood
import Verif.Spec.LikelihoodUnits

namespace PyPDP
open Spec ProbabilityTheory

/-- the loss of one grid point -/
theorem neg_log_gaussian {x μ v : ℝ} (hv : 0 < v) :
    -Real.log (gaussianPDFReal μ v.toNNReal x) = (Real.log (2 * Real.pi * v) + (x - μ) ^ 2 / v) / 2 := by
  rw [gaussianPDFReal, Real.coe_toNNReal _ hv.le, Real.log_mul (by positivity) (Real.exp_ne_zero _), Real.log_inv, Real.log_exp,
    Real.log_sqrt (by positivity)]
  field_simp
  ring

theorem gaussLoss_eq {P : Nat} {μ var truth : Nat → ℝ} (hv : ∀ p < P, 0 < var p) :
    gaussLoss P μ var truth = (∑ p ∈ Finset.range P, (Real.log (2 * Real.pi * var p) + (truth p - μ p) ^ 2 / var p) / 2) / P := by
  unfold gaussLoss
  rw [← neg_div, ← Finset.sum_neg_distrib]
  congr 1
  exact Finset.sum_congr rfl fun p hp => neg_log_gaussian (hv p (Finset.mem_range.1 hp))

/-- the variance with the smallest loss is the squared error -/
theorem point_loss_min {v e : ℝ} (hv : 0 < v) (he : 0 < e) :
    (Real.log (2 * Real.pi * e) + 1) / 2 ≤ (Real.log (2 * Real.pi * v) + e / v) / 2 ∧
      ((Real.log (2 * Real.pi * e) + 1) / 2 = (Real.log (2 * Real.pi * v) + e / v) / 2 ↔ v = e) := by
  have h1 : Real.log (2 * Real.pi * v) = Real.log (2 * Real.pi) + Real.log v := Real.log_mul (by positivity) hv.ne'
  have h2 : Real.log (2 * Real.pi * e) = Real.log (2 * Real.pi) + Real.log e := Real.log_mul (by positivity) he.ne'
  have h3 : Real.log (e / v) = Real.log e - Real.log v := Real.log_div he.ne' hv.ne'
  have hq : 0 < e / v := by positivity
  refine ⟨?_, ?_⟩
  · have := Real.log_le_sub_one_of_pos hq
    rw [h1, h2]; linarith
  · constructor
    · intro h
      by_contra hne
      have h4 : e / v ≠ 1 := by
        intro h5
        rw [div_eq_one_iff_eq hv.ne'] at h5
        exact hne h5.symm
      have := Real.log_lt_sub_one_of_pos hq h4
      rw [h1, h2] at h
      linarith
    · rintro rfl
      rw [div_self hv.ne']

/-- **C174** The formula: the average over the grid points of half of `log (2π v) + error² / v`. -/
theorem C174_formula {inv : Hp ℝ → Val ℝ → ℝ} {P : Nat} {space : ConfigSpace ℝ} {selected : List (Hp ℝ)} {n : Node ℝ}
    (hn : RegionShape P space.length n) (hne : curves n ≠ []) (hv : ∀ p < P, 0 < meanVar p (curves n)) {fn : TrueFn} {truth : Nat → ℝ}
    (ht : IsTruth inv P space selected n fn truth) :
    negativeLogLikelihood inv space selected n fn =
      .ok ((∑ p ∈ Finset.range P, (Real.log (2 * Real.pi * meanVar p (curves n)) + (truth p - meanY p (curves n)) ^ 2 / meanVar p (curves n)) / 2) / P) := by
  rw [C63_gaussian hn hne hv ht, gaussLoss_eq hv]

/-- **C174** The variances are rewarded for being the squared errors: for a given mean curve that is nowhere exact, the negative log-likelihood is at least the average of
`(log (2π error²) + 1) / 2`, and equal to it exactly if at every grid point the mean variance is the squared error. Neither too large nor too small a variance pays. -/
theorem C174_calibrated {inv : Hp ℝ → Val ℝ → ℝ} {P : Nat} {space : ConfigSpace ℝ} {selected : List (Hp ℝ)} {n : Node ℝ}
    (hn : RegionShape P space.length n) (hne : curves n ≠ []) (hv : ∀ p < P, 0 < meanVar p (curves n)) {fn : TrueFn} {truth : Nat → ℝ}
    (ht : IsTruth inv P space selected n fn truth) (herr : ∀ p < P, meanY p (curves n) ≠ truth p) :
    ∃ a, negativeLogLikelihood inv space selected n fn = .ok a ∧
      (∑ p ∈ Finset.range P, (Real.log (2 * Real.pi * (truth p - meanY p (curves n)) ^ 2) + 1) / 2) / P ≤ a ∧
      ((∑ p ∈ Finset.range P, (Real.log (2 * Real.pi * (truth p - meanY p (curves n)) ^ 2) + 1) / 2) / P = a ↔
        ∀ p < P, meanVar p (curves n) = (truth p - meanY p (curves n)) ^ 2) := by
  have hP : (0 : ℝ) < P := by exact_mod_cast hn.pos
  have hpt : ∀ p ∈ Finset.range P, _ := fun p hp =>
    point_loss_min (hv p (Finset.mem_range.1 hp)) (e := (truth p - meanY p (curves n)) ^ 2)
      (by have := sub_ne_zero.2 (herr p (Finset.mem_range.1 hp)).symm; positivity)
  refine ⟨_, C174_formula hn hne hv ht, ?_, ?_⟩
  · exact div_le_div_of_nonneg_right (Finset.sum_le_sum fun p hp => (hpt p hp).1) hP.le
  · rw [div_left_inj' hP.ne', Finset.sum_eq_sum_iff_of_le fun p hp => (hpt p hp).1]
    constructor
    · intro h p hp
      exact ((hpt p (Finset.mem_range.2 hp)).2).1 (h p (Finset.mem_range.2 hp))
    · intro h p hp
      exact ((hpt p hp).2).2 (h p (Finset.mem_range.1 hp))

/-! ### units -/

theorem regionInUnits_shape {P F : Nat} {n : Node ℝ} (hn : RegionShape P F n) (a b : ℝ) : RegionShape P F (regionInUnits a b n) := by
  refine ⟨hn.pos, by simp [regionInUnits, hn.xy], by simp [regionInUnits, hn.yv], hn.xs, ?_, ?_⟩
  · intro r hr
    obtain ⟨r', h, rfl⟩ := List.mem_map.1 hr
    rw [List.length_map, hn.ys r' h]
  · intro r hr
    obtain ⟨r', h, rfl⟩ := List.mem_map.1 hr
    rw [List.length_map, hn.vs r' h]

theorem regionInUnits_curves (a b : ℝ) (n : Node ℝ) :
    curves (regionInUnits a b n) = (curves n).map fun c => (c.1, c.2.1.map (fun t => a * t + b), c.2.2.map fun t => a ^ 2 * t) := by
  simp only [curves, regionInUnits]
  rw [List.zip_map, List.zip_map_right]
  rfl

theorem regionInUnits_means {P F : Nat} {n : Node ℝ} (hn : RegionShape P F n) (hne : curves n ≠ []) (a b : ℝ) {p : Nat} (hp : p < P) :
    meanY p (curves (regionInUnits a b n)) = a * meanY p (curves n) + b ∧ meanVar p (curves (regionInUnits a b n)) = a ^ 2 * meanVar p (curves n) := by
  have hl : ((curves n).length : ℝ) ≠ 0 := by
    simpa using hne
  have hrow : ∀ c ∈ curves n, c.2.1.length = P ∧ c.2.2.length = P := by
    intro c hc
    have h1 := List.of_mem_zip hc
    have h2 := List.of_mem_zip h1.2
    exact ⟨hn.ys _ h2.1, hn.vs _ h2.2⟩
  have hgen : ∀ (g g' : Curve ℝ → ℝ) (s t : ℝ), (∀ c ∈ curves n, g' c = s * g c + t) →
      ((curves n).map g').sum = s * ((curves n).map g).sum + (curves n).length * t := by
    intro g g' s t
    generalize curves n = L
    induction L with
    | nil => simp
    | cons c L ih =>
      intro h
      simp only [List.map_cons, List.sum_cons, List.length_cons, Nat.cast_add, Nat.cast_one]
      rw [ih fun c hc => h c (List.mem_cons_of_mem _ hc), h c (by simp)]
      ring
  rw [regionInUnits_curves]
  unfold meanY meanVar
  simp only [List.map_map, List.length_map]
  constructor
  · rw [hgen (fun c => c.2.1.getD p 0) _ a b]
    · field_simp
    · intro c hc
      have : p < c.2.1.length := by rw [(hrow c hc).1]; exact hp
      simp [this]
  · rw [hgen (fun c => c.2.2.getD p 0) _ (a ^ 2) 0]
    · field_simp; ring
    · intro c hc
      have : p < c.2.2.length := by rw [(hrow c hc).2]; exact hp
      simp [this]

theorem regionInUnits_truth {inv : Hp ℝ → Val ℝ → ℝ} {P : Nat} {space : ConfigSpace ℝ} {selected : List (Hp ℝ)} {n : Node ℝ} {fn : TrueFn} {truth : Nat → ℝ}
    (ht : IsTruth inv P space selected n fn truth) (a b : ℝ) :
    IsTruth inv P space selected (regionInUnits a b n) (fnInUnits a b fn) fun p => a * truth p + b := by
  obtain ⟨hp, rest, l, u, log, f, pd, h1, h2, h3, h4, h5⟩ := ht.out
  refine ⟨⟨hp, rest, l, u, log, f, ⟨pd.cs, fun c => (pd.value c).map fun t => a * t + b⟩, h1, h2, h3, ?_, ?_⟩⟩
  · simp only [fnInUnits]
    rw [h4]
    rfl
  · intro p hpP
    obtain ⟨t, e1, e2, e3, e4⟩ := h5 p hpP
    refine ⟨t, e1, e2, e3, ?_⟩
    obtain ⟨c, hc, hv⟩ := Py.bind_eq_ok.1 e4
    rw [BlackboxFn.call]
    dsimp only
    rw [hc, Py.ok_bind, hv]
    rfl

/-- **C174** Other units of the objective: if all values are multiplied by `a` (and shifted by `b`), the negative log-likelihood of every region grows by `log |a|`.
Differences between regions are the same in all units. -/
theorem C174_units {inv : Hp ℝ → Val ℝ → ℝ} {P : Nat} {space : ConfigSpace ℝ} {selected : List (Hp ℝ)} {n : Node ℝ}
    (hn : RegionShape P space.length n) (hne : curves n ≠ []) (hv : ∀ p < P, 0 < meanVar p (curves n)) {fn : TrueFn} {truth : Nat → ℝ}
    (ht : IsTruth inv P space selected n fn truth) {a : ℝ} (ha : a ≠ 0) (b : ℝ) :
    ∃ r, negativeLogLikelihood inv space selected n fn = .ok r ∧
      negativeLogLikelihood inv space selected (regionInUnits a b n) (fnInUnits a b fn) = .ok (r + Real.log |a|) := by
  have hP : (P : ℝ) ≠ 0 := by have := hn.pos; positivity
  have hm := fun p hp => regionInUnits_means hn hne a b (p := p) hp
  have hv' : ∀ p < P, 0 < meanVar p (curves (regionInUnits a b n)) := fun p hp => by
    rw [(hm p hp).2]; have := hv p hp; positivity
  refine ⟨_, C174_formula hn hne hv ht, ?_⟩
  rw [C174_formula (regionInUnits_shape hn a b) (by rw [regionInUnits_curves]; simpa using hne) hv' (regionInUnits_truth ht a b)]
  congr 1
  have hs : ∑ p ∈ Finset.range P, (Real.log (2 * Real.pi * meanVar p (curves (regionInUnits a b n)))
        + (a * truth p + b - meanY p (curves (regionInUnits a b n))) ^ 2 / meanVar p (curves (regionInUnits a b n))) / 2
      = ∑ p ∈ Finset.range P, ((Real.log (2 * Real.pi * meanVar p (curves n)) + (truth p - meanY p (curves n)) ^ 2 / meanVar p (curves n)) / 2 + Real.log |a|) := by
    refine Finset.sum_congr rfl fun p hp => ?_
    have hp := Finset.mem_range.1 hp
    have hvp := hv p hp
    rw [(hm p hp).1, (hm p hp).2]
    have h1 : Real.log (2 * Real.pi * (a ^ 2 * meanVar p (curves n))) = Real.log (2 * Real.pi * meanVar p (curves n)) + 2 * Real.log |a| := by
      rw [show 2 * Real.pi * (a ^ 2 * meanVar p (curves n)) = (2 * Real.pi * meanVar p (curves n)) * a ^ 2 by ring,
        Real.log_mul (by positivity) (by positivity), Real.log_pow, Real.log_abs]
      norm_num
    have h2 : (a * truth p + b - (a * meanY p (curves n) + b)) ^ 2 / (a ^ 2 * meanVar p (curves n)) = (truth p - meanY p (curves n)) ^ 2 / meanVar p (curves n) := by
      field_simp
      ring
    rw [h1, h2]
    ring
  rw [hs, Finset.sum_add_distrib, Finset.sum_const, Finset.card_range, nsmul_eq_mul]
  field_simp

/-- **C174** `delta_nll` is no measure of how much better a region is than the full one: it depends on the units of the objective. If the region is better, then for every
positive number there are units in which this is the value of `delta_nll`, and units in which there is none (the root has likelihood loss 0). -/
theorem C174_delta_any {inv : Hp ℝ → Val ℝ → ℝ} {P : Nat} {space : ConfigSpace ℝ} {selected : List (Hp ℝ)} {n full : Node ℝ}
    (hn : RegionShape P space.length n) (hne : curves n ≠ []) (hv : ∀ p < P, 0 < meanVar p (curves n))
    (hf : RegionShape P space.length full) (hfe : curves full ≠ []) (hfv : ∀ p < P, 0 < meanVar p (curves full)) {fn : TrueFn} {truth truth' : Nat → ℝ}
    (ht : IsTruth inv P space selected n fn truth) (ht' : IsTruth inv P space selected full fn truth') {r s : ℝ}
    (hr : negativeLogLikelihood inv space selected n fn = .ok r) (hs : negativeLogLikelihood inv space selected full fn = .ok s) (hlt : r < s) :
    (∀ D : ℝ, 0 < D → ∃ a : ℝ, 0 < a ∧ deltaNll inv space selected (regionInUnits a 0 n) (regionInUnits a 0 full) (fnInUnits a 0 fn) = .ok D) ∧
      ∃ a : ℝ, 0 < a ∧ deltaNll inv space selected (regionInUnits a 0 n) (regionInUnits a 0 full) (fnInUnits a 0 fn) = .error .nan := by
  have key : ∀ z : ℝ, deltaNll inv space selected (regionInUnits (Real.exp z) 0 n) (regionInUnits (Real.exp z) 0 full) (fnInUnits (Real.exp z) 0 fn)
      = calculateLogDelta (r + z) (s + z) := by
    intro z
    obtain ⟨r', h1, h2⟩ := C174_units hn hne hv ht (Real.exp_ne_zero z) 0
    obtain ⟨s', h3, h4⟩ := C174_units hf hfe hfv ht' (Real.exp_ne_zero z) 0
    obtain rfl := Except.ok.inj (hr.symm.trans h1)
    obtain rfl := Except.ok.inj (hs.symm.trans h3)
    rw [abs_of_pos (Real.exp_pos z), Real.log_exp] at h2 h4
    rw [deltaNll, h2, h4]
    rfl
  constructor
  · intro D hD
    refine ⟨Real.exp ((s - r) / D - s), Real.exp_pos _, ?_⟩
    rw [key]
    have hq : 0 < (s - r) / D := div_pos (by linarith) hD
    have e : s + ((s - r) / D - s) = (s - r) / D := by ring
    rw [calculateLogDelta, e, if_neg hq.ne', abs_of_pos hq]
    congr 1
    have : s - r ≠ 0 := by linarith
    field_simp
    ring
  · refine ⟨Real.exp (-s), Real.exp_pos _, ?_⟩
    rw [key, calculateLogDelta, if_pos (by ring)]

/-- **C174** What the units leave alone is the sign: better than the full region in one unit is better in all of them. -/
theorem C174_delta_sign {inv : Hp ℝ → Val ℝ → ℝ} {P : Nat} {space : ConfigSpace ℝ} {selected : List (Hp ℝ)} {n full : Node ℝ}
    (hn : RegionShape P space.length n) (hne : curves n ≠ []) (hv : ∀ p < P, 0 < meanVar p (curves n))
    (hf : RegionShape P space.length full) (hfe : curves full ≠ []) (hfv : ∀ p < P, 0 < meanVar p (curves full)) {fn : TrueFn} {truth truth' : Nat → ℝ}
    (ht : IsTruth inv P space selected n fn truth) (ht' : IsTruth inv P space selected full fn truth') {a b d d' : ℝ} (ha : a ≠ 0)
    (hd : deltaNll inv space selected n full fn = .ok d) (hd' : deltaNll inv space selected (regionInUnits a b n) (regionInUnits a b full) (fnInUnits a b fn) = .ok d') :
    (0 < d' ↔ 0 < d) ∧ (d' = 0 ↔ d = 0) := by
  obtain ⟨r, h1, h2⟩ := C174_units hn hne hv ht ha b
  obtain ⟨s, h3, h4⟩ := C174_units hf hfe hfv ht' ha b
  rw [deltaNll, h1, h3, Py.ok_bind, Py.ok_bind, calculateLogDelta] at hd
  rw [deltaNll, h2, h4, Py.ok_bind, Py.ok_bind, calculateLogDelta] at hd'
  split at hd
  · cases hd
  · next h0 =>
    split at hd'
    · cases hd'
    · next h0' =>
      have p0 := abs_pos.2 h0
      have p1 := abs_pos.2 h0'
      obtain rfl := Except.ok.inj hd
      obtain rfl := Except.ok.inj hd'
      have e : s + Real.log |a| - (r + Real.log |a|) = s - r := by ring
      rw [e]
      exact ⟨by rw [div_pos_iff_of_pos_right p0, div_pos_iff_of_pos_right p1], by rw [div_eq_zero_iff, div_eq_zero_iff, or_iff_left p0.ne', or_iff_left p1.ne']⟩

/-- one grid point, error 3: variance 9 is best, with 4 or 16 the loss is larger -/
example : (Real.log (2 * Real.pi * 9) + 1) / 2 < (Real.log (2 * Real.pi * 4) + 9 / 4) / 2 ∧
    (Real.log (2 * Real.pi * 9) + 1) / 2 < (Real.log (2 * Real.pi * 16) + 9 / 16) / 2 := by
  have h1 := point_loss_min (v := 4) (e := 9) (by norm_num) (by norm_num)
  have h2 := point_loss_min (v := 16) (e := 9) (by norm_num) (by norm_num)
  exact ⟨lt_of_le_of_ne h1.1 fun h => by have := h1.2.1 h; norm_num at this, lt_of_le_of_ne h2.1 fun h => by have := h2.2.1 h; norm_num at this⟩

/-- dollars and cents: the values and the variances of a region -/
example : curves (regionInUnits 100 0 ⟨0, [[[0], [1]]], [[1, 2]], [[4, 9]], []⟩) = [([[0], [1]], [100, 200], [40000, 90000])] := by
  rw [regionInUnits_curves]
  norm_num [curves]

end PyPDP
