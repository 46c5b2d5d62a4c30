/-
C175: what the standard deviations of the Gaussian process surrogate mean, and how they depend on the distance to the evaluated points.
-/
import Mathlib.Analysis.Calculus.Deriv.MeanValue
import Verif.Props.Gp
import Verif.Props.Additive
import Verif.Spec.GpError

namespace PyPDP
open Spec Matrix

section linear
variable {n : Nat} {G : Matrix (Fin n) (Fin n) ℝ}

/-- the quadratic form of the error is smallest at `G⁻¹ k` -/
theorem error_min (hG : G.PosDef) (k w : Fin n → ℝ) :
    -(k ⬝ᵥ (G⁻¹ *ᵥ k)) ≤ -2 * (w ⬝ᵥ k) + w ⬝ᵥ (G *ᵥ w) := by
  have hu : IsUnit G.det := (Matrix.isUnit_iff_isUnit_det _).1 hG.isUnit
  obtain ⟨v, hv⟩ : ∃ v, v = G⁻¹ *ᵥ k := ⟨_, rfl⟩
  have hk : G *ᵥ v = k := by rw [hv, mulVec_mulVec, mul_nonsing_inv _ hu, one_mulVec]
  have hsym : Gᵀ = G := by simpa [IsHermitian] using hG.isHermitian
  have hcomm : v ⬝ᵥ (G *ᵥ w) = w ⬝ᵥ (G *ᵥ v) := by
    rw [dotProduct_mulVec, ← mulVec_transpose, hsym, dotProduct_comm]
  have h0 : 0 ≤ (w - v) ⬝ᵥ (G *ᵥ (w - v)) := by simpa using hG.posSemidef.dotProduct_mulVec_nonneg (w - v)
  rw [mulVec_sub, sub_dotProduct, dotProduct_sub, dotProduct_sub, hcomm, hk, dotProduct_comm v k] at h0
  rw [← hv]
  linarith

theorem error_at (hG : G.PosDef) (k : Fin n → ℝ) :
    -(k ⬝ᵥ (G⁻¹ *ᵥ k)) = -2 * ((G⁻¹ *ᵥ k) ⬝ᵥ k) + (G⁻¹ *ᵥ k) ⬝ᵥ (G *ᵥ (G⁻¹ *ᵥ k)) := by
  have hu : IsUnit G.det := (Matrix.isUnit_iff_isUnit_det _).1 hG.isUnit
  rw [mulVec_mulVec, mul_nonsing_inv _ hu, one_mulVec, dotProduct_comm k]
  ring

end linear

/-- weights as a function of all numbers -/
theorem linearError_eq (k : Kernel) (Z : List (List ℝ)) (z : List ℝ) (w : ℕ → ℝ) :
    linearError k Z z w = k z z + (-2 * ((fun i : Fin Z.length => w i) ⬝ᵥ fun i : Fin Z.length => k z Z[i])
      + (fun i : Fin Z.length => w i) ⬝ᵥ (gramAlpha k Z *ᵥ fun i : Fin Z.length => w i)) := by
  have hg : ∀ i : Fin Z.length, Z.getD i [] = Z[i] := fun i => by simp
  have e1 : ∑ i ∈ Finset.range Z.length, w i * k z (Z.getD i []) = (fun i : Fin Z.length => w i) ⬝ᵥ fun i : Fin Z.length => k z Z[i] := by
    rw [Finset.sum_range, dotProduct]
    exact Finset.sum_congr rfl fun i _ => by rw [hg]
  have e2 : (fun i : Fin Z.length => w i) ⬝ᵥ (gramAlpha k Z *ᵥ fun i : Fin Z.length => w i)
      = ∑ i ∈ Finset.range Z.length, ∑ j ∈ Finset.range Z.length, w i * w j * k (Z.getD i []) (Z.getD j []) + 1 / 10 ^ 8 * ∑ i ∈ Finset.range Z.length, w i ^ 2 := by
    rw [gramAlpha_eq, add_mulVec, smul_mulVec, one_mulVec, dotProduct_add, dotProduct_smul, smul_eq_mul]
    congr 1
    · rw [Finset.sum_range, dotProduct]
      refine Finset.sum_congr rfl fun i _ => ?_
      rw [Finset.sum_range, mulVec, dotProduct, Finset.mul_sum]
      refine Finset.sum_congr rfl fun j _ => ?_
      rw [hg, hg, gram, of_apply]
      ring
    · rw [Finset.sum_range, dotProduct]
      unfold gpAlpha
      congr 1
      exact Finset.sum_congr rfl fun i _ => by ring
  rw [linearError, e1, e2]
  ring

/-- the standardised rows are those of the fitted scaler -/
theorem standardised_eq {d : Nat} {X : List (List ℝ)} (hX : X ≠ []) {r : List ℝ} (hr : r.length = d) : (Scaler.fit d X).row r = standardised d X r := by
  unfold Scaler.row Scaler.fit standardised
  apply List.ext_getElem
  · simp [hr]
  · intro j h1 h2
    have hj : j < d := by simpa using h2
    simp only [List.getElem_zipWith, List.getElem_zip, List.getElem_map, List.getElem_range]
    rw [handleZeros_npStd (by simpa using hX)]
    have : r[j]'(by omega) = r.getD j 0 := by simp [hr, hj]
    rw [this]
    rfl

theorem fitted_eq {d : Nat} {choose : List (List ℝ) → List ℝ → Kernel} {X : List (List ℝ)} {y : List ℝ} (h : TrainingData d X y) :
    (fitted d choose X y).rows = X.map (standardised d X) ∧ (fitted d choose X y).kernel = chosenKernel choose d X y ∧
      (fitted d choose X y).ystd = spread y ∧ (fitted d choose X y).ymean = targetMean y := by
  have hrows : X.map (Scaler.fit d X).row = X.map (standardised d X) := List.map_congr_left fun q hq => standardised_eq h.rows (h.width q hq)
  have hy := h.targets_ne
  refine ⟨hrows, ?_, handleZeros_npStd hy, rfl⟩
  change choose (X.map (Scaler.fit d X).row) (normalised y) = _
  rw [hrows, chosenKernel, normalised, handleZeros_npStd hy]
  rfl

/-- mean squared errors are not negative -/
theorem linearError_nonneg {d : Nat} {k : Kernel} (hk : Covariance d k) {Z : List (List ℝ)} (hZ : ∀ z ∈ Z, z.length = d) {z : List ℝ}
    (hz : z.length = d) (w : ℕ → ℝ) : 0 ≤ linearError k Z z w := by
  have hl : ∀ i : Fin Z.length, (Z[i]).length = d := fun i => hZ _ (List.getElem_mem _)
  have hg : ∀ i : Fin Z.length, Z.getD i [] = Z[i] := fun i => by simp
  have hcov := hk.2 (Z.length + 1) (Fin.cons z fun i => Z[i]) (Fin.cons 1 fun i => -w i)
    (fun i => by refine Fin.cases hz (fun j => ?_) i; exact hl j)
  simp only [Fin.sum_univ_succ, Fin.cons_zero, Fin.cons_succ, one_mul] at hcov
  have e1 : ∑ i : Fin Z.length, -w i * k z Z[i] = -∑ i ∈ Finset.range Z.length, w i * k z (Z.getD i []) := by
    rw [Finset.sum_range, ← Finset.sum_neg_distrib]
    exact Finset.sum_congr rfl fun i _ => by rw [hg]; ring
  have e2 : ∑ i : Fin Z.length, (-w i * 1 * k Z[i] z + ∑ j : Fin Z.length, -w i * -w j * k Z[i] Z[j]) =
      -∑ i ∈ Finset.range Z.length, w i * k z (Z.getD i []) +
        ∑ i ∈ Finset.range Z.length, ∑ j ∈ Finset.range Z.length, w i * w j * k (Z.getD i []) (Z.getD j []) := by
    rw [Finset.sum_add_distrib, Finset.sum_range, Finset.sum_range, ← Finset.sum_neg_distrib]
    congr 1
    · exact Finset.sum_congr rfl fun i _ => by rw [hg, hk.1 _ _ (hl i) hz]; ring
    · refine Finset.sum_congr rfl fun i _ => ?_
      rw [Finset.sum_range]
      exact Finset.sum_congr rfl fun j _ => by rw [hg, hg]; ring
  rw [e1, e2] at hcov
  have : (0 : ℝ) ≤ 1 / 10 ^ 8 * ∑ i ∈ Finset.range Z.length, w i ^ 2 := mul_nonneg (by positivity) (Finset.sum_nonneg fun i _ => sq_nonneg _)
  unfold linearError
  linarith

theorem standardised_length (d : Nat) (X : List (List ℝ)) (r : List ℝ) : (standardised d X r).length = d := by simp [standardised]

/-- **C175** what the surrogate predicts, and what its standard deviations mean: for every row the mean is the average of the targets plus a weighted sum of their
distances from it, and the weights are the best there are: in units of the standard deviation of the targets the squared standard deviation that is
reported is the mean squared error of these weights under the chosen kernel, and no other weights have a smaller one. -/
theorem C175_weights {d : Nat} {choose : List (List ℝ) → List ℝ → Kernel} (hk : ∀ Z t, Covariance d (choose Z t)) {X : List (List ℝ)}
    {y : List ℝ} (h : TrainingData d X y) {s s' : GpSurrogate} (hs : s.fit choose X y = (s', .ok ())) {r : List ℝ} {m σ : ℝ}
    (hp : s'.predict [r] = .ok ([m], [σ])) :
    0 ≤ σ ∧ ∃ w : ℕ → ℝ, m = targetMean y + ∑ i ∈ Finset.range X.length, w i * (y.getD i 0 - targetMean y) ∧
      σ ^ 2 = spread y ^ 2 * linearError (chosenKernel choose d X y) (X.map (standardised d X)) (standardised d X r) w ∧
      ∀ w', σ ^ 2 ≤ spread y ^ 2 * linearError (chosenKernel choose d X y) (X.map (standardised d X)) (standardised d X r) w' := by
  have hy := h.targets_ne
  rw [fit_ok hk h] at hs
  obtain rfl := (Prod.mk.inj hs).1.symm
  have hr : r.length = d := predict_width hp
  rw [predict_one hr] at hp
  obtain rfl := (List.cons.inj (Prod.mk.inj (Except.ok.inj hp)).1).1
  obtain rfl := (List.cons.inj (Prod.mk.inj (Except.ok.inj hp)).2).1
  clear hs hp
  obtain ⟨hrows, hker, hstd, hmean⟩ := fitted_eq (choose := choose) h
  obtain ⟨g, hg⟩ : ∃ g, g = fitted d choose X y := ⟨_, rfl⟩
  have htar : g.targets = fun i : Fin g.rows.length => (y.getD i 0 - targetMean y) / spread y := by
    subst hg
    change (fun i : Fin _ => (y.getD i 0 - npMean y) / handleZeros (npStd y)) = _
    rw [handleZeros_npStd hy]
    rfl
  have hrow : ∀ r : List ℝ, r.length = d → g.scaler.row r = standardised d X r := fun r hr => by
    rw [hg]; exact standardised_eq h.rows hr
  rw [← hg] at hrows hker hstd hmean ⊢
  refine ⟨Real.sqrt_nonneg _, ?_⟩
  rw [hrow r hr]
  obtain ⟨z, hz⟩ : ∃ z, z = standardised d X r := ⟨_, rfl⟩
  have hzl : z.length = d := hz ▸ standardised_length d X r
  have hcov : Covariance d g.kernel := by rw [hker]; exact hk _ _
  have hZ : ∀ q ∈ g.rows, q.length = d := by
    rw [hrows]
    intro q hq
    obtain ⟨p, -, rfl⟩ := List.mem_map.1 hq
    exact standardised_length d X p
  have hpd := gramAlpha_pd hcov hZ
  rw [← hz, ← hker, ← hrows]
  have hlen : X.length = g.rows.length := by rw [hrows, List.length_map]
  obtain ⟨kz, hkz⟩ : ∃ kz : Fin g.rows.length → ℝ, kz = fun i => g.kernel z g.rows[i] := ⟨_, rfl⟩
  obtain ⟨v, hv⟩ : ∃ v, v = (gramAlpha g.kernel g.rows)⁻¹ *ᵥ kz := ⟨_, rfl⟩
  obtain ⟨w, hw⟩ : ∃ w : ℕ → ℝ, w = fun i => if hi : i < g.rows.length then v ⟨i, hi⟩ else 0 := ⟨_, rfl⟩
  have hwv : (fun i : Fin g.rows.length => w i) = v := by funext i; rw [hw]; simp
  have herr : g.kernel z z - kz ⬝ᵥ v = linearError g.kernel g.rows z w := by
    rw [linearError_eq, hwv, ← hkz, sub_eq_add_neg, hv, error_at hpd]
  have hle : ∀ w', g.kernel z z - kz ⬝ᵥ v ≤ linearError g.kernel g.rows z w' := by
    intro w'
    rw [linearError_eq, ← hkz, sub_eq_add_neg, hv]
    have := error_min hpd kz fun i : Fin g.rows.length => w' i
    linarith
  have hsd : g.stdAt z ^ 2 = spread y ^ 2 * (g.kernel z z - kz ⬝ᵥ v) := by
    have h0 : 0 ≤ g.kernel z z - kz ⬝ᵥ v := herr ▸ linearError_nonneg hcov hZ hzl w
    unfold GpFit.stdAt
    dsimp only
    rw [← hkz, ← hv, if_neg (not_lt.2 h0), hstd, Real.sq_sqrt (by positivity), mul_comm]
  refine ⟨w, ?_, by rw [hsd, herr], fun w' => by rw [hsd]; exact mul_le_mul_of_nonneg_left (hle w') (sq_nonneg _)⟩
  unfold GpFit.meanAt
  have hsym : (gramAlpha g.kernel g.rows)⁻¹ᵀ = (gramAlpha g.kernel g.rows)⁻¹ := by
    have := hpd.inv.isHermitian
    simpa [IsHermitian] using this
  have hdot : kz ⬝ᵥ ((gramAlpha g.kernel g.rows)⁻¹ *ᵥ g.targets) = v ⬝ᵥ g.targets := by
    rw [dotProduct_mulVec, ← mulVec_transpose, hsym, ← hv]
  rw [← hkz, hdot, hstd, hmean, hlen, Finset.sum_range, htar, dotProduct, Finset.mul_sum, add_comm]
  congr 1
  refine Finset.sum_congr rfl fun i _ => ?_
  have hs := (spread_pos hy).ne'
  rw [← hwv]
  field_simp

/-- weight `c` for the point `q`, 0 for the others -/
theorem linearError_single (k : Kernel) (Z : List (List ℝ)) (z : List ℝ) {i : Nat} (hi : i < Z.length) (c : ℝ) :
    linearError k Z z (fun j => if j = i then c else 0) = k z z - 2 * (c * k z Z[i]) + c ^ 2 * k Z[i] Z[i] + 1 / 10 ^ 8 * c ^ 2 := by
  have hm : i ∈ Finset.range Z.length := Finset.mem_range.2 hi
  have hg : Z.getD i [] = Z[i] := by simp [hi]
  unfold linearError
  dsimp only
  rw [Finset.sum_eq_single_of_mem i hm (fun j _ hj => by rw [if_neg hj, zero_mul]),
    Finset.sum_eq_single_of_mem i hm (fun j _ hj => Finset.sum_eq_zero fun l _ => by rw [if_neg hj, zero_mul, zero_mul]),
    Finset.sum_eq_single_of_mem i hm (fun j _ hj => by rw [if_neg hj, mul_zero, zero_mul]),
    Finset.sum_eq_single_of_mem i hm (fun j _ hj => by rw [if_neg hj]; ring), if_pos rfl, hg]
  ring

/-- **C175** the surrogate is at most as uncertain at a row as the correlation of that row with any single training point leaves it. -/
theorem C175_near {d : Nat} {choose : List (List ℝ) → List ℝ → Kernel} (hk : ∀ Z t, Covariance d (choose Z t)) {X : List (List ℝ)}
    {y : List ℝ} (h : TrainingData d X y) {s s' : GpSurrogate} (hs : s.fit choose X y = (s', .ok ())) {r : List ℝ} {m σ : ℝ}
    (hp : s'.predict [r] = .ok ([m], [σ])) {q : List ℝ} (hq : q ∈ X) {k : Kernel} (hkk : k = chosenKernel choose d X y) {z p : List ℝ}
    (hz : z = standardised d X r) (hpq : p = standardised d X q) :
    σ ^ 2 ≤ spread y ^ 2 * (k z z - k z p ^ 2 / (k p p + 1 / 10 ^ 8)) := by
  obtain ⟨-, w, -, -, hmin⟩ := C175_weights hk h hs hp
  obtain ⟨i, hi, hiq⟩ := List.getElem_of_mem (List.mem_map_of_mem (f := standardised d X) hq)
  rw [← hpq] at hiq
  have hpp : 0 ≤ k p p := by
    have := (hk (X.map (standardised d X)) (y.map fun v => (v - targetMean y) / spread y)).2 1 (fun _ => p) (fun _ => 1)
      (fun _ => by rw [hpq]; exact standardised_length _ _ _)
    rw [hkk]
    simpa [chosenKernel] using this
  have := hmin fun j => if j = i then k z p / (k p p + 1 / 10 ^ 8) else 0
  rw [linearError_single _ _ _ hi, hiq, ← hkk, ← hz] at this
  refine this.trans_eq ?_
  congr 1
  have : k p p + 1 / 10 ^ 8 ≠ 0 := by positivity
  field_simp
  ring

/-- the Matérn kernel falls off at most quadratically -/
theorem matern_drop {t : ℝ} (ht : 0 ≤ t) : 1 - t ^ 2 / 2 ≤ (1 + t) * Real.exp (-t) := by
  have hm : MonotoneOn (fun t : ℝ => (1 + t) * Real.exp (-t) - (1 - t ^ 2 / 2)) (Set.Ici 0) := by
    have hd : ∀ t : ℝ, HasDerivAt (fun t : ℝ => (1 + t) * Real.exp (-t) - (1 - t ^ 2 / 2)) (t * (1 - Real.exp (-t))) t := by
      intro t
      have h1 : HasDerivAt (fun t : ℝ => 1 + t) 1 t := (hasDerivAt_id t).const_add 1
      have h2 : HasDerivAt (fun t : ℝ => Real.exp (-t)) (Real.exp (-t) * -1) t := (hasDerivAt_neg t).exp
      have h3 : HasDerivAt (fun t : ℝ => 1 - t ^ 2 / 2) (-(((2 : ℕ) * t ^ (2 - 1) * 1) / 2)) t := by
        exact (((hasDerivAt_id t).pow 2).div_const 2).const_sub 1
      refine ((h1.mul h2).sub h3).congr_deriv ?_
      norm_num
      ring
    refine monotoneOn_of_deriv_nonneg (convex_Ici 0) (fun t _ => (hd t).continuousAt.continuousWithinAt)
      (fun t _ => (hd t).differentiableAt.differentiableWithinAt) fun t ht => ?_
    rw [interior_Ici] at ht
    rw [(hd t).deriv]
    have ht : 0 < t := ht
    exact mul_nonneg ht.le (sub_nonneg.2 (Real.exp_le_one_iff.2 (by linarith)))
  have := hm (Set.mem_Ici.2 le_rfl) (Set.mem_Ici.2 ht) ht
  simp at this
  linarith

/-- **C175** with its default kernel the surrogate is certain near the points it was fitted to: at a distance `δ` (in standardised coordinates) from one
of them its standard deviation is at most that of the targets times the root of `3 (δ / ℓ)² + 1e-8`, where `ℓ` is the length scale the optimiser found. -/
theorem C175_matern (ℓ : List (List ℝ) → List ℝ → ℝ) (hℓ : ∀ Z t, 0 < ℓ Z t) {d : Nat} {X : List (List ℝ)} {y : List ℝ}
    (h : TrainingData d X y) {s s' : GpSurrogate} (hs : s.fit (fun Z t => matern (ℓ Z t)) X y = (s', .ok ())) {r : List ℝ} {m σ : ℝ}
    (hp : s'.predict [r] = .ok ([m], [σ])) {q : List ℝ} (hq : q ∈ X) {l : ℝ}
    (hl : l = ℓ (X.map (standardised d X)) (y.map fun v => (v - targetMean y) / spread y)) :
    σ ≤ spread y * √(3 * (rowDistance (standardised d X r) (standardised d X q) / l) ^ 2 + 1 / 10 ^ 8) := by
  have hl0 : 0 < l := hl ▸ hℓ _ _
  have hc := spread_pos h.targets_ne
  have hnear := C175_near (fun Z t => (matern_unit (hℓ Z t) d).1) h hs hp hq rfl rfl rfl
  obtain ⟨z, hz⟩ : ∃ z, z = standardised d X r := ⟨_, rfl⟩
  obtain ⟨p, hpq⟩ : ∃ p, p = standardised d X q := ⟨_, rfl⟩
  have hker : chosenKernel (fun Z t => matern (ℓ Z t)) d X y = matern l := by rw [hl]; rfl
  rw [← hz, ← hpq] at hnear ⊢
  rw [hker, (C99_matern hl0 d).2.1, (C99_matern hl0 d).2.1] at hnear
  obtain ⟨κ, hκ⟩ : ∃ κ, κ = matern l z p := ⟨_, rfl⟩
  obtain ⟨t, ht⟩ : ∃ t, t = √3 * (rowDistance z p / l) := ⟨_, rfl⟩
  have ht0 : 0 ≤ t := by
    have : 0 ≤ rowDistance z p := Real.sqrt_nonneg _
    rw [ht]; positivity
  have hdrop : 1 - t ^ 2 / 2 ≤ κ := by
    have := matern_drop ht0
    rw [hκ]
    unfold matern
    rw [ht] at this ⊢
    exact this
  have hκ0 : 0 < κ ∧ κ ≤ 1 := hκ ▸ (C99_matern hl0 d).2.2 z p
  rw [← hκ] at hnear
  have ht2 : t ^ 2 = 3 * (rowDistance z p / l) ^ 2 := by rw [ht, mul_pow, Real.sq_sqrt (by norm_num)]
  rw [← ht2]
  have hsq : 1 - t ^ 2 ≤ κ ^ 2 := by
    by_cases hcase : 0 ≤ 1 - t ^ 2 / 2
    · nlinarith [mul_self_le_mul_self hcase hdrop, sq_nonneg (t ^ 2)]
    · nlinarith [sq_nonneg κ, sq_nonneg t]
  have hfrac : 1 - κ ^ 2 / (1 + 1 / 10 ^ 8) ≤ t ^ 2 + 1 / 10 ^ 8 := by
    have : κ ^ 2 * (1 - 1 / 10 ^ 8) ≤ κ ^ 2 / (1 + 1 / 10 ^ 8) := by
      rw [le_div_iff₀ (by positivity)]
      nlinarith [sq_nonneg κ]
    have h1 : κ ^ 2 ≤ 1 := by nlinarith [hκ0.1, hκ0.2]
    nlinarith
  refine abs_le_of_sq_le_sq' ?_ (by positivity) |>.2
  rw [mul_pow, Real.sq_sqrt (by positivity)]
  exact hnear.trans (mul_le_mul_of_nonneg_left hfrac (sq_nonneg _))

/-- **C175** therefore a PDP of the surrogate with its default kernel is certain where there are evaluated points: if every vector it predicts at is at most
`δ` from one of them, then every entry of `y_variances` is at most the variance of the targets times `3 (δ / ℓ)² + 1e-8`. -/
theorem C175_pdp (ℓ : List (List ℝ) → List ℝ → ℝ) (hℓ : ∀ Z t, 0 < ℓ Z t) {space : ConfigSpace ℝ} {X : List (List ℝ)} {y : List ℝ}
    (h : TrainingData space.length X y) {s s' : GpSurrogate} (hs : s.fit (fun Z t => matern (ℓ Z t)) X y = (s', .ok ())) {l : ℝ}
    (hl : l = ℓ (X.map (standardised space.length X)) (y.map fun v => (v - targetMean y) / spread y)) {sel : Selection ℝ} {selected : List (Hp ℝ)}
    {samples : List (List ℝ)} {g : Nat} {grid : List (List ℝ)} (hin : DependenceInput space sel selected samples g grid) {δ : ℝ}
    (hδ : ∀ t ∈ grid, ∀ r ∈ samples, ∃ q ∈ X,
      rowDistance (standardised space.length X (atPoint space selected t r)) (standardised space.length X q) ≤ δ) :
    ∃ v, vPdp space s'.predict sel samples g = .ok v ∧ v.length = grid.length ∧
      ∀ x ∈ v, 0 ≤ x ∧ x ≤ spread y ^ 2 * (3 * (δ / l) ^ 2 + 1 / 10 ^ 8) := by
  have hl0 : 0 < l := hl ▸ hℓ _ _
  obtain ⟨s'', hfit, -, ⟨mu, sd, hrow, hnn⟩, -⟩ := C99_fit (fun Z t => (matern_unit (hℓ Z t) space.length).1) h s
  obtain rfl : s' = s'' := (Prod.mk.inj (hs.symm.trans hfit)).1
  refine ⟨_, (pdp_values hin.wf hin.sel_eq hin.mem hin.ne hin.distinct hrow hin.samples_ne hin.rows hin.grid_pos hin.grid_eq).2, by simp, ?_⟩
  intro x hx
  obtain ⟨t, ht, rfl⟩ := List.mem_map.1 hx
  have hpos : (0 : ℝ) < samples.length := by exact_mod_cast List.length_pos_iff.2 hin.samples_ne
  refine ⟨div_nonneg (List.sum_nonneg ?_) hpos.le, ?_⟩
  · intro u hu
    obtain ⟨r, -, rfl⟩ := List.mem_map.1 hu
    exact sq_nonneg _
  · rw [div_le_iff₀ hpos]
    have := List.sum_le_card_nsmul (samples.map fun r => sd (atPoint space selected t r) ^ 2) (spread y ^ 2 * (3 * (δ / l) ^ 2 + 1 / 10 ^ 8)) (by
      intro u hu
      obtain ⟨r, hr, rfl⟩ := List.mem_map.1 hu
      obtain ⟨q, hq, hd⟩ := hδ t ht r hr
      have hlen : (atPoint space selected t r).length = space.length := by simp [atPoint, hin.rows r hr]
      have hp : s'.predict [atPoint space selected t r] = .ok ([mu (atPoint space selected t r)], [sd (atPoint space selected t r)]) := by
        rw [hrow [atPoint space selected t r] (by simp) (by simpa using hlen)]; rfl
      have h1 := C175_matern ℓ hℓ h hs hp hq hl
      have h0 : 0 ≤ rowDistance (standardised space.length X (atPoint space selected t r)) (standardised space.length X q) := Real.sqrt_nonneg _
      have h2 : (rowDistance (standardised space.length X (atPoint space selected t r)) (standardised space.length X q) / l) ^ 2 ≤ (δ / l) ^ 2 := by
        gcongr
      have h3 := pow_le_pow_left₀ (hnn (atPoint space selected t r)) h1 2
      rw [mul_pow, Real.sq_sqrt (by positivity)] at h3
      refine h3.trans (mul_le_mul_of_nonneg_left ?_ (sq_nonneg _))
      linarith)
    rw [List.length_map, nsmul_eq_mul] at this
    linarith

/-- weights for more points that are 0 for the new ones -/
theorem linearError_append (k : Kernel) (Z E : List (List ℝ)) (z : List ℝ) (w : ℕ → ℝ) :
    linearError k (Z ++ E) z (fun i => if i < Z.length then w i else 0) = linearError k Z z w := by
  have hsub : Finset.range Z.length ⊆ Finset.range (Z ++ E).length := by
    intro i hi
    rw [Finset.mem_range] at hi ⊢
    rw [List.length_append]
    omega
  have hsum : ∀ f g : ℕ → ℝ, (∀ i < Z.length, f i = g i) → (∀ i, ¬ i < Z.length → f i = 0) →
      ∑ i ∈ Finset.range (Z ++ E).length, f i = ∑ i ∈ Finset.range Z.length, g i := by
    intro f g h1 h2
    rw [← Finset.sum_subset hsub fun i _ hi => h2 i (by simpa using hi)]
    exact Finset.sum_congr rfl fun i hi => h1 i (Finset.mem_range.1 hi)
  have hg : ∀ i < Z.length, (Z ++ E).getD i [] = Z.getD i [] := fun i hi => by
    simp [List.getD_eq_getElem?_getD, List.getElem?_append_left hi]
  unfold linearError
  dsimp only
  rw [hsum _ (fun i => w i * k z (Z.getD i [])) (fun i hi => by rw [if_pos hi, hg i hi]) (fun i hi => by rw [if_neg hi, zero_mul]),
    hsum _ (fun i => ∑ j ∈ Finset.range Z.length, w i * w j * k (Z.getD i []) (Z.getD j []))
      (fun i hi => hsum _ _ (fun j hj => by rw [if_pos hi, if_pos hj, hg i hi, hg j hj]) fun j hj => by rw [if_neg hj, mul_zero, zero_mul])
      (fun i hi => Finset.sum_eq_zero fun j _ => by rw [if_neg hi, zero_mul, zero_mul]),
    hsum _ (fun i => w i ^ 2) (fun i hi => by rw [if_pos hi]) (fun i hi => by rw [if_neg hi]; ring)]

/-- **C175** more data never makes the surrogate less certain as long as it leaves the standardisation and the kernel alone: in units of the standard deviation of the
targets, no standard deviation grows. -/
theorem C175_more {d : Nat} {choose : List (List ℝ) → List ℝ → Kernel} (hk : ∀ Z t, Covariance d (choose Z t)) {X E : List (List ℝ)}
    {y e : List ℝ} (h : TrainingData d X y) (h' : TrainingData d (X ++ E) (y ++ e)) (hscale : standardised d (X ++ E) = standardised d X)
    (hker : chosenKernel choose d (X ++ E) (y ++ e) = chosenKernel choose d X y) {s s1 s2 : GpSurrogate} (hs1 : s.fit choose X y = (s1, .ok ()))
    (hs2 : s.fit choose (X ++ E) (y ++ e) = (s2, .ok ())) {r : List ℝ} {m1 σ1 m2 σ2 : ℝ} (hp1 : s1.predict [r] = .ok ([m1], [σ1]))
    (hp2 : s2.predict [r] = .ok ([m2], [σ2])) : σ2 / spread (y ++ e) ≤ σ1 / spread y := by
  obtain ⟨h01, w, -, hw, -⟩ := C175_weights hk h hs1 hp1
  obtain ⟨h02, -, -, -, hmin⟩ := C175_weights hk h' hs2 hp2
  have hc1 := spread_pos h.targets_ne
  have hc2 := spread_pos h'.targets_ne
  have := hmin fun i => if i < (X.map (standardised d X)).length then w i else 0
  rw [hscale, List.map_append, hker, linearError_append] at this
  have hsq : (σ2 / spread (y ++ e)) ^ 2 ≤ (σ1 / spread y) ^ 2 := by
    rw [div_pow, div_pow, hw, mul_div_cancel_left₀ _ (by positivity), div_le_iff₀ (by positivity), mul_comm]
    exact this
  exact (abs_le_of_sq_le_sq' hsq (by positivity)).2

theorem targetMean_twice (l : List ℝ) : targetMean (l ++ l) = targetMean l := by
  unfold targetMean
  rw [List.sum_append, List.length_append]
  by_cases h0 : (l.length : ℝ) = 0
  · have : l = [] := List.length_eq_zero_iff.1 (by exact_mod_cast h0)
    simp [this]
  · push_cast
    field_simp

theorem spread_twice (l : List ℝ) : spread (l ++ l) = spread l := by
  have hsq : squares (targetMean (l ++ l)) (l ++ l) / (l ++ l).length = squares (targetMean l) l / l.length := by
    rw [targetMean_twice]
    unfold squares
    rw [List.map_append, List.sum_append, List.length_append]
    by_cases h0 : (l.length : ℝ) = 0
    · have : l = [] := List.length_eq_zero_iff.1 (by exact_mod_cast h0)
      simp [this]
    · push_cast
      field_simp
  unfold spread
  simp only [hsq, List.mem_append, or_self]

/-- **C175** evaluating every point a second time (and finding the same values) with a fixed kernel: no standard deviation grows. -/
theorem C175_twice {d : Nat} {k : Kernel} (hk : Covariance d k) {X : List (List ℝ)} {y : List ℝ} (h : TrainingData d X y) {s s1 s2 : GpSurrogate}
    (hs1 : s.fit (fun _ _ => k) X y = (s1, .ok ())) (hs2 : s.fit (fun _ _ => k) (X ++ X) (y ++ y) = (s2, .ok ())) {r : List ℝ} {m1 σ1 m2 σ2 : ℝ}
    (hp1 : s1.predict [r] = .ok ([m1], [σ1])) (hp2 : s2.predict [r] = .ok ([m2], [σ2])) : σ2 ≤ σ1 := by
  have h' : TrainingData d (X ++ X) (y ++ y) := ⟨by simp [h.rows], by simpa using h.width, h.columns, by simp [h.targets]⟩
  have hscale : standardised d (X ++ X) = standardised d X := by
    funext q
    unfold standardised
    simp only [List.map_append, targetMean_twice, spread_twice]
  have hc := spread_pos h.targets_ne
  have := C175_more (fun _ _ => hk) h h' hscale rfl hs1 hs2 hp1 hp2
  rw [spread_twice] at this
  exact (div_le_div_iff_of_pos_right hc).1 this

/-- points 0 and 1 with targets 0 and 2: at 1/2, one standardised unit from both, the default kernel with length scale 1000 leaves less than 1/500 -/
example {s s' : GpSurrogate} (hs : s.fit (fun _ _ => matern 1000) [[0], [1]] [0, 2] = (s', .ok ())) {m σ : ℝ}
    (hp : s'.predict [[1 / 2]] = .ok ([m], [σ])) : σ ≤ 1 / 500 := by
  have hsp : spread ([0, 1] : List ℝ) = 1 / 2 := by
    unfold spread
    rw [if_neg]
    · have : squares (targetMean [0, 1]) [0, 1] / ([0, 1] : List ℝ).length = (1 / 2) ^ 2 := by norm_num [squares, targetMean]
      rw [this, Real.sqrt_sq (by norm_num)]
    · intro h
      have := h 0 (by simp) 1 (by simp)
      norm_num at this
  have h := C175_matern (fun _ _ => 1000) (fun _ _ => by norm_num) exGp_data.1 hs hp (q := [0]) (by simp) rfl
  rw [exGp_data.2] at h
  have hd : rowDistance (standardised 1 [[0], [1]] [1 / 2]) (standardised 1 [[0], [1]] [0]) = 1 := by
    simp only [standardised, List.map_cons, List.map_nil, List.range_one, List.getD_cons_zero]
    rw [hsp]
    norm_num [rowDistance, targetMean]
  rw [hd] at h
  refine h.trans ?_
  rw [one_mul]
  exact Real.sqrt_le_iff.2 ⟨by norm_num, by norm_num⟩

end PyPDP
