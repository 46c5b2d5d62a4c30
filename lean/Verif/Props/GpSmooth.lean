/-
C176: how fast the predictions of the Gaussian process surrogate can change from row to row.
-/
import Mathlib.Algebra.Order.Chebyshev
import Verif.Props.GpError
import Verif.Props.PdpBand
import Verif.Spec.GpSmooth

namespace PyPDP
open Spec Matrix

/-- between two rows the error of given weights lies on a parabola that is nowhere negative -/
theorem linearError_between {d : Nat} {k : Kernel} (hk : Covariance d k) {Z : List (List ℝ)} (hZ : ∀ z ∈ Z, z.length = d) {a b : List ℝ}
    (ha : a.length = d) (hb : b.length = d) (w : ℕ → ℝ) (c : ℝ) :
    0 ≤ (1 - c) * linearError k Z a w + c * linearError k Z b w - c * (1 - c) * (k a a - 2 * k a b + k b b) := by
  have hl : ∀ i : Fin Z.length, (Z[i]).length = d := fun i => hZ _ (List.getElem_mem _)
  have hg : ∀ i : Fin Z.length, Z.getD i [] = Z[i] := fun i => by simp
  have hcov := hk.2 (Z.length + 2) (Fin.cons a (Fin.cons b fun i => Z[i])) (Fin.cons (1 - c) (Fin.cons c fun i => -w i))
    (fun i => by
      refine Fin.cases ha (fun j => ?_) i
      refine Fin.cases hb (fun j => ?_) j
      exact hl j)
  simp only [Fin.sum_univ_succ, Fin.cons_zero, Fin.cons_succ] at hcov
  obtain ⟨A, hA⟩ : ∃ A, A = ∑ i ∈ Finset.range Z.length, w i * k a (Z.getD i []) := ⟨_, rfl⟩
  obtain ⟨B, hB⟩ : ∃ B, B = ∑ i ∈ Finset.range Z.length, w i * k b (Z.getD i []) := ⟨_, rfl⟩
  obtain ⟨S, hS⟩ : ∃ S, S = ∑ i ∈ Finset.range Z.length, ∑ j ∈ Finset.range Z.length, w i * w j * k (Z.getD i []) (Z.getD j []) := ⟨_, rfl⟩
  obtain ⟨T, hT⟩ : ∃ T, T = ∑ i ∈ Finset.range Z.length, w i ^ 2 := ⟨_, rfl⟩
  have hT0 : 0 ≤ T := hT ▸ Finset.sum_nonneg fun i _ => sq_nonneg _
  have e1 : ∑ i : Fin Z.length, (1 - c) * -w i * k a Z[i] = -((1 - c) * A) := by
    rw [hA, Finset.sum_range, Finset.mul_sum, ← Finset.sum_neg_distrib]
    exact Finset.sum_congr rfl fun i _ => by rw [hg]; ring
  have e2 : ∑ i : Fin Z.length, c * -w i * k b Z[i] = -(c * B) := by
    rw [hB, Finset.sum_range, Finset.mul_sum, ← Finset.sum_neg_distrib]
    exact Finset.sum_congr rfl fun i _ => by rw [hg]; ring
  have e3 : ∑ i : Fin Z.length, (-w i * (1 - c) * k Z[i] a + (-w i * c * k Z[i] b + ∑ j : Fin Z.length, -w i * -w j * k Z[i] Z[j])) =
      -((1 - c) * A) + (-(c * B) + S) := by
    rw [Finset.sum_add_distrib, Finset.sum_add_distrib]
    congr 1
    · rw [hA, Finset.sum_range, Finset.mul_sum, ← Finset.sum_neg_distrib]
      exact Finset.sum_congr rfl fun i _ => by rw [hg, hk.1 _ _ (hl i) ha]; ring
    · congr 1
      · rw [hB, Finset.sum_range, Finset.mul_sum, ← Finset.sum_neg_distrib]
        exact Finset.sum_congr rfl fun i _ => by rw [hg, hk.1 _ _ (hl i) hb]; ring
      · rw [hS, Finset.sum_range]
        refine Finset.sum_congr rfl fun i _ => ?_
        rw [Finset.sum_range]
        exact Finset.sum_congr rfl fun j _ => by rw [hg, hg]; ring
  rw [e1, e2, e3, hk.1 b a hb ha] at hcov
  unfold linearError
  rw [← hA, ← hB, ← hS, ← hT]
  linarith

theorem sqrt_between {L L' R : ℝ} (hL : 0 ≤ L) (hR : 0 ≤ R) (h : ∀ c : ℝ, 0 ≤ (1 - c) * L + c * L' - c * (1 - c) * R) : √L' ≤ √L + √R := by
  have hd := discrim_le_zero (a := R) (b := L' - L - R) (c := L) fun x => by
    have := h x
    nlinarith
  unfold discrim at hd
  have hs : √L * √R = √(L * R) := (Real.sqrt_mul hL R).symm
  have hB : L' - L - R ≤ 2 * √(L * R) := by
    have : (L' - L - R) ^ 2 ≤ (2 * √(L * R)) ^ 2 := by
      rw [mul_pow, Real.sq_sqrt (mul_nonneg hL hR)]
      nlinarith
    exact (abs_le_of_sq_le_sq' this (by positivity)).2
  refine Real.sqrt_le_iff.2 ⟨by positivity, ?_⟩
  rw [add_sq, Real.sq_sqrt hL, Real.sq_sqrt hR, mul_assoc, hs]
  linarith

theorem chosenKernel_covariance {d : Nat} {choose : List (List ℝ) → List ℝ → Kernel} (hk : ∀ Z t, Covariance d (choose Z t)) (X : List (List ℝ)) (y : List ℝ) :
    Covariance d (chosenKernel choose d X y) := hk _ _

theorem scaled_rows (d : Nat) (X : List (List ℝ)) : ∀ z ∈ X.map (standardised d X), z.length = d := by
  intro z hz
  obtain ⟨p, -, rfl⟩ := List.mem_map.1 hz
  exact standardised_length d X p

theorem kernelDistance_symm {d : Nat} {k : Kernel} (hk : Covariance d k) {a b : List ℝ} (ha : a.length = d) (hb : b.length = d) :
    kernelDistance k a b = kernelDistance k b a := by
  unfold kernelDistance
  rw [hk.1 a b ha hb]
  congr 1
  ring

theorem kernelDistance_arg {d : Nat} {k : Kernel} (hk : Covariance d k) {a b : List ℝ} (ha : a.length = d) (hb : b.length = d) :
    0 ≤ k a a - 2 * k a b + k b b := by
  have := hk.2 2 ![a, b] ![1, -1] (fun i => by fin_cases i <;> assumption)
  simp [Fin.sum_univ_two] at this
  rw [hk.1 b a hb ha] at this
  linarith

/-- **C176** standard deviations change from row to row at most as much as the kernel says that the function does. -/
theorem C176_std {d : Nat} {choose : List (List ℝ) → List ℝ → Kernel} (hk : ∀ Z t, Covariance d (choose Z t)) {X : List (List ℝ)}
    {y : List ℝ} (h : TrainingData d X y) {s s' : GpSurrogate} (hs : s.fit choose X y = (s', .ok ())) {r1 r2 : List ℝ} {m1 σ1 m2 σ2 : ℝ}
    (hp1 : s'.predict [r1] = .ok ([m1], [σ1])) (hp2 : s'.predict [r2] = .ok ([m2], [σ2])) :
    |σ1 - σ2| ≤ spread y * kernelDistance (chosenKernel choose d X y) (standardised d X r1) (standardised d X r2) := by
  have hc := spread_pos h.targets_ne
  have hcov := chosenKernel_covariance hk X y
  have key : ∀ {r1 r2 : List ℝ} {m1 σ1 m2 σ2 : ℝ}, s'.predict [r1] = .ok ([m1], [σ1]) → s'.predict [r2] = .ok ([m2], [σ2]) →
      σ2 ≤ σ1 + spread y * kernelDistance (chosenKernel choose d X y) (standardised d X r1) (standardised d X r2) := by
    intro r1 r2 m1 σ1 m2 σ2 hp1 hp2
    obtain ⟨h01, w, -, hw, -⟩ := C175_weights hk h hs hp1
    obtain ⟨h02, -, -, -, hmin⟩ := C175_weights hk h hs hp2
    have hb := sqrt_between (linearError_nonneg hcov (scaled_rows d X) (standardised_length d X r1) w)
      (kernelDistance_arg hcov (standardised_length d X r1) (standardised_length d X r2))
      (linearError_between hcov (scaled_rows d X) (standardised_length d X r1) (standardised_length d X r2) w)
    have e1 : σ1 = spread y * √(linearError (chosenKernel choose d X y) (X.map (standardised d X)) (standardised d X r1) w) := by
      rw [← Real.sqrt_sq h01, hw, Real.sqrt_mul (sq_nonneg _), Real.sqrt_sq hc.le]
    have e2 : σ2 ≤ spread y * √(linearError (chosenKernel choose d X y) (X.map (standardised d X)) (standardised d X r2) w) := by
      have := Real.sqrt_le_sqrt (hmin w)
      rwa [Real.sqrt_sq h02, Real.sqrt_mul (sq_nonneg _), Real.sqrt_sq hc.le] at this
    rw [e1]
    refine e2.trans ?_
    rw [← mul_add]
    exact mul_le_mul_of_nonneg_left hb hc.le
  have k1 := key hp1 hp2
  have k2 := key hp2 hp1
  rw [kernelDistance_symm hcov (standardised_length d X r2) (standardised_length d X r1)] at k2
  rw [abs_le]
  constructor <;> linarith

theorem square_sum_le {y : List ℝ} (hy : y ≠ []) : ∑ i ∈ Finset.range y.length, ((y.getD i 0 - targetMean y) / spread y) ^ 2 ≤ y.length := by
  have hc := spread_pos hy
  have hn : (0 : ℝ) < y.length := by exact_mod_cast List.length_pos_iff.2 hy
  have hsum : ∑ i ∈ Finset.range y.length, (y.getD i 0 - targetMean y) ^ 2 = squares (targetMean y) y := by
    unfold squares
    rw [Finset.sum_range, ← Fin.sum_univ_getElem]
    have : (y.map fun v => (v - targetMean y) ^ 2).length = y.length := List.length_map _
    refine Fintype.sum_equiv (finCongr this.symm) _ _ fun i => ?_
    simp
  simp only [div_pow]
  rw [← Finset.sum_div, hsum, div_le_iff₀ (by positivity)]
  unfold spread
  split_ifs with hall
  · have : squares (targetMean y) y = 0 := by
      unfold squares
      apply List.sum_eq_zero
      intro u hu
      obtain ⟨v, hv, rfl⟩ := List.mem_map.1 hu
      have hm : targetMean y = v := by
        unfold targetMean
        have : y = List.replicate y.length v := List.eq_replicate_iff.2 ⟨rfl, fun b hb => hall b hb v hv⟩
        rw [this, List.sum_replicate, List.length_replicate, nsmul_eq_mul, mul_div_cancel_left₀ _ hn.ne']
      rw [hm]; ring
    rw [this]; positivity
  · have h0 : 0 ≤ squares (targetMean y) y := List.sum_nonneg fun u hu => by
      obtain ⟨v, -, rfl⟩ := List.mem_map.1 hu
      exact sq_nonneg _
    rw [Real.sq_sqrt (div_nonneg h0 hn.le), mul_div_cancel₀ _ hn.ne']

/-- **C176** means change from row to row at most `10⁴ √n` times as much as the kernel says that the function does, with `n` training points (`10⁴` is one over the standard
deviation of the measurement errors that the surrogate assumes). -/
theorem C176_mean {d : Nat} {choose : List (List ℝ) → List ℝ → Kernel} (hk : ∀ Z t, Covariance d (choose Z t)) {X : List (List ℝ)}
    {y : List ℝ} (h : TrainingData d X y) {s s' : GpSurrogate} (hs : s.fit choose X y = (s', .ok ())) {r1 r2 : List ℝ} {m1 σ1 m2 σ2 : ℝ}
    (hp1 : s'.predict [r1] = .ok ([m1], [σ1])) (hp2 : s'.predict [r2] = .ok ([m2], [σ2])) :
    |m1 - m2| ≤ 10 ^ 4 * √X.length * spread y * kernelDistance (chosenKernel choose d X y) (standardised d X r1) (standardised d X r2) := by
  have hy := h.targets_ne
  have hc := spread_pos hy
  rw [fit_ok hk h] at hs
  obtain rfl := (Prod.mk.inj hs).1.symm
  have hr1 : r1.length = d := predict_width hp1
  have hr2 : r2.length = d := predict_width hp2
  rw [predict_one hr1] at hp1
  rw [predict_one hr2] at hp2
  obtain rfl := (List.cons.inj (Prod.mk.inj (Except.ok.inj hp1)).1).1
  obtain rfl := (List.cons.inj (Prod.mk.inj (Except.ok.inj hp2)).1).1
  clear hs hp1 hp2
  obtain ⟨hrows, hker, hstd, hmean⟩ := fitted_eq (choose := choose) h
  obtain ⟨g, hg⟩ : ∃ g, g = fitted d choose X y := ⟨_, rfl⟩
  have htar : g.targets = fun i : Fin g.rows.length => (y.getD i 0 - targetMean y) / spread y := by
    subst hg
    change (fun i : Fin _ => (y.getD i 0 - npMean y) / handleZeros (npStd y)) = _
    rw [handleZeros_npStd hy]
    rfl
  have hrow : ∀ r : List ℝ, r.length = d → g.scaler.row r = standardised d X r := fun r hr => by
    rw [hg]; exact standardised_eq h.rows hr
  rw [← hg] at hrows hker hstd hmean ⊢
  rw [hrow r1 hr1, hrow r2 hr2, ← hker]
  obtain ⟨a, ha⟩ : ∃ a, a = standardised d X r1 := ⟨_, rfl⟩
  obtain ⟨b, hb⟩ : ∃ b, b = standardised d X r2 := ⟨_, rfl⟩
  have hal : a.length = d := ha ▸ standardised_length d X r1
  have hbl : b.length = d := hb ▸ standardised_length d X r2
  rw [← ha, ← hb]
  have hcov : Covariance d g.kernel := by rw [hker]; exact hk _ _
  have hZ : ∀ q ∈ g.rows, q.length = d := by rw [hrows]; exact scaled_rows d X
  have hpd := gramAlpha_pd hcov hZ
  have hu : IsUnit (gramAlpha g.kernel g.rows).det := (Matrix.isUnit_iff_isUnit_det _).1 hpd.isUnit
  have hlen : X.length = g.rows.length := by rw [hrows, List.length_map]
  have hleny : y.length = g.rows.length := by rw [← hlen, h.targets]
  obtain ⟨u, hudef⟩ : ∃ u : Fin g.rows.length → ℝ, u = (fun i => g.kernel a g.rows[i]) - fun i => g.kernel b g.rows[i] := ⟨_, rfl⟩
  obtain ⟨w, hw⟩ : ∃ w, w = (gramAlpha g.kernel g.rows)⁻¹ *ᵥ u := ⟨_, rfl⟩
  have hGw : gram g.kernel g.rows *ᵥ w + gpAlpha • w = u := by
    have : gramAlpha g.kernel g.rows *ᵥ w = u := by rw [hw, mulVec_mulVec, mul_nonsing_inv _ hu, one_mulVec]
    rw [← this, gramAlpha_eq, add_mulVec, smul_mulVec, one_mulVec]
  have huw : u ⬝ᵥ w = w ⬝ᵥ (gram g.kernel g.rows *ᵥ w) + gpAlpha * (w ⬝ᵥ w) := by
    rw [dotProduct_comm, ← hGw, dotProduct_add, dotProduct_smul, smul_eq_mul]
  have hl : ∀ i : Fin g.rows.length, (g.rows[i]).length = d := fun i => hZ _ (List.getElem_mem _)
  -- the weights of the difference are small
  have hww : gpAlpha * (w ⬝ᵥ w) ≤ g.kernel a a - 2 * g.kernel a b + g.kernel b b := by
    have hcv := hcov.2 (g.rows.length + 2) (Fin.cons a (Fin.cons b fun i => g.rows[i])) (Fin.cons 1 (Fin.cons (-1) fun i => -w i))
      (fun i => by
        refine Fin.cases hal (fun j => ?_) i
        refine Fin.cases hbl (fun j => ?_) j
        exact hl j)
    simp only [Fin.sum_univ_succ, Fin.cons_zero, Fin.cons_succ] at hcv
    have e1 : ∑ i : Fin g.rows.length, 1 * -w i * g.kernel a g.rows[i] + ∑ i : Fin g.rows.length, -1 * -w i * g.kernel b g.rows[i] = -(u ⬝ᵥ w) := by
      rw [← Finset.sum_add_distrib, dotProduct, ← Finset.sum_neg_distrib]
      refine Finset.sum_congr rfl fun i _ => ?_
      rw [hudef, Pi.sub_apply]
      ring
    have e2 : ∑ i : Fin g.rows.length, (-w i * 1 * g.kernel g.rows[i] a + (-w i * -1 * g.kernel g.rows[i] b + ∑ j : Fin g.rows.length, -w i * -w j * g.kernel g.rows[i] g.rows[j]))
        = -(u ⬝ᵥ w) + w ⬝ᵥ (gram g.kernel g.rows *ᵥ w) := by
      rw [dotProduct, dotProduct, ← Finset.sum_neg_distrib, ← Finset.sum_add_distrib]
      refine Finset.sum_congr rfl fun i _ => ?_
      rw [hudef, Pi.sub_apply, hcov.1 _ _ (hl i) hal, hcov.1 _ _ (hl i) hbl, mulVec, dotProduct, Finset.mul_sum]
      have : ∀ j : Fin g.rows.length, -w i * -w j * g.kernel g.rows[i] g.rows[j] = w i * (gram g.kernel g.rows i j * w j) := fun j => by
        rw [gram, of_apply]; ring
      simp only [this]
      ring
    rw [e2, hcov.1 b a hbl hal] at hcv
    have hM : 0 ≤ w ⬝ᵥ (gram g.kernel g.rows *ᵥ w) := by simpa using (gram_psd hcov hZ).dotProduct_mulVec_nonneg w
    have hw0 : 0 ≤ gpAlpha * (w ⬝ᵥ w) := mul_nonneg gpAlpha_pos.le (Finset.sum_nonneg fun i _ => mul_self_nonneg _)
    linarith
  have hdiff : g.meanAt a - g.meanAt b = spread y * (w ⬝ᵥ g.targets) := by
    have hsym : (gramAlpha g.kernel g.rows)⁻¹ᵀ = (gramAlpha g.kernel g.rows)⁻¹ := by
      have := hpd.inv.isHermitian
      simpa [IsHermitian] using this
    have : w ⬝ᵥ g.targets = u ⬝ᵥ ((gramAlpha g.kernel g.rows)⁻¹ *ᵥ g.targets) := by
      rw [dotProduct_mulVec, ← mulVec_transpose, hsym, hw]
    rw [this, hudef, sub_dotProduct]
    unfold GpFit.meanAt
    rw [hstd]
    ring
  have htt : g.targets ⬝ᵥ g.targets ≤ X.length := by
    have := square_sum_le hy
    rw [hleny, Finset.sum_range] at this
    rw [hlen, htar, dotProduct]
    simpa [sq] using this
  have hcs : (w ⬝ᵥ g.targets) ^ 2 ≤ (w ⬝ᵥ w) * (g.targets ⬝ᵥ g.targets) := by
    have := Finset.sum_mul_sq_le_sq_mul_sq Finset.univ w g.targets
    simpa [dotProduct, sq] using this
  have hw0 : 0 ≤ w ⬝ᵥ w := Finset.sum_nonneg fun i _ => mul_self_nonneg _
  have hR := kernelDistance_arg hcov hal hbl
  obtain ⟨R, hRdef⟩ : ∃ R, R = g.kernel a a - 2 * g.kernel a b + g.kernel b b := ⟨_, rfl⟩
  unfold kernelDistance
  rw [← hRdef] at hww hR ⊢
  rw [hdiff]
  have hsq : (spread y * (w ⬝ᵥ g.targets)) ^ 2 ≤ (10 ^ 4 * √X.length * spread y * √R) ^ 2 := by
    rw [mul_pow, mul_pow, mul_pow, mul_pow, Real.sq_sqrt (by positivity), Real.sq_sqrt hR]
    have h1 : w ⬝ᵥ w ≤ 10 ^ 8 * R := by
      unfold gpAlpha at hww
      linarith
    have h2 : (w ⬝ᵥ g.targets) ^ 2 ≤ 10 ^ 8 * R * X.length := hcs.trans (mul_le_mul h1 htt (Finset.sum_nonneg fun i _ => mul_self_nonneg _) (by positivity))
    calc spread y ^ 2 * (w ⬝ᵥ g.targets) ^ 2 ≤ spread y ^ 2 * (10 ^ 8 * R * X.length) := mul_le_mul_of_nonneg_left h2 (sq_nonneg _)
      _ = _ := by ring
  exact abs_le_of_sq_le_sq hsq (by positivity)

/-- under the Matérn kernel rows that are close have a small distance -/
theorem matern_distance {l : ℝ} (hl : 0 < l) (d : Nat) (a b : List ℝ) : kernelDistance (matern l) a b ≤ √3 * (rowDistance a b / l) := by
  have h0 : 0 ≤ rowDistance a b := Real.sqrt_nonneg _
  unfold kernelDistance
  rw [(C99_matern hl d).2.1, (C99_matern hl d).2.1]
  refine Real.sqrt_le_iff.2 ⟨by positivity, ?_⟩
  have := matern_drop (t := √3 * (rowDistance a b / l)) (by positivity)
  have e : matern l a b = (1 + √3 * (rowDistance a b / l)) * Real.exp (-(√3 * (rowDistance a b / l))) := rfl
  rw [e]
  linarith

/-- **C176** the surrogate with its default arguments: neither means nor standard deviations jump. With length scale `ℓ` and `n` training points the standard deviation changes at most
`√3 / ℓ` times as fast as the standardised row moves, in units of the standard deviation of the targets, and the mean at most `10⁴ √n √3 / ℓ` times as fast. -/
theorem C176_matern (ℓ : List (List ℝ) → List ℝ → ℝ) (hℓ : ∀ Z t, 0 < ℓ Z t) {d : Nat} {X : List (List ℝ)} {y : List ℝ}
    (h : TrainingData d X y) {s s' : GpSurrogate} (hs : s.fit (fun Z t => matern (ℓ Z t)) X y = (s', .ok ())) {r1 r2 : List ℝ} {m1 σ1 m2 σ2 : ℝ}
    (hp1 : s'.predict [r1] = .ok ([m1], [σ1])) (hp2 : s'.predict [r2] = .ok ([m2], [σ2])) {l D : ℝ}
    (hl : l = ℓ (X.map (standardised d X)) (y.map fun v => (v - targetMean y) / spread y))
    (hD : rowDistance (standardised d X r1) (standardised d X r2) ≤ D) :
    |σ1 - σ2| ≤ spread y * (√3 * (D / l)) ∧ |m1 - m2| ≤ 10 ^ 4 * √X.length * spread y * (√3 * (D / l)) := by
  have hl0 : 0 < l := hl ▸ hℓ _ _
  have hc := spread_pos h.targets_ne
  have hker : chosenKernel (fun Z t => matern (ℓ Z t)) d X y = matern l := by rw [hl]; rfl
  have hd : kernelDistance (matern l) (standardised d X r1) (standardised d X r2) ≤ √3 * (D / l) := by
    refine (matern_distance hl0 d _ _).trans ?_
    gcongr
  have h1 := C176_std (fun Z t => (matern_unit (hℓ Z t) d).1) h hs hp1 hp2
  have h2 := C176_mean (fun Z t => (matern_unit (hℓ Z t) d).1) h hs hp1 hp2
  rw [hker] at h1 h2
  exact ⟨h1.trans (mul_le_mul_of_nonneg_left hd hc.le), h2.trans (mul_le_mul_of_nonneg_left hd (by positivity))⟩

/-- root mean squares of numbers that differ by at most `C` -/
theorem rms_le {ι : Type} (l : List ι) (hl : l ≠ []) (a b : ι → ℝ) {C : ℝ} (hC : 0 ≤ C) (ha : ∀ i ∈ l, 0 ≤ a i) (hb : ∀ i ∈ l, 0 ≤ b i)
    (h : ∀ i ∈ l, a i ≤ b i + C) :
    √((l.map fun i => a i ^ 2).sum / l.length) ≤ √((l.map fun i => b i ^ 2).sum / l.length) + C := by
  have hm : (0 : ℝ) < l.length := by exact_mod_cast List.length_pos_iff.2 hl
  have hsb : 0 ≤ (l.map fun i => b i ^ 2).sum := List.sum_nonneg fun u hu => by
    obtain ⟨i, -, rfl⟩ := List.mem_map.1 hu
    exact sq_nonneg _
  obtain ⟨μ, hμ⟩ : ∃ μ, μ = √((l.map fun i => b i ^ 2).sum / l.length) := ⟨_, rfl⟩
  have hμ0 : 0 ≤ μ := hμ ▸ Real.sqrt_nonneg _
  have hμ2 : (l.map fun i => b i ^ 2).sum = l.length * μ ^ 2 := by
    rw [hμ, Real.sq_sqrt (div_nonneg hsb hm.le), mul_div_cancel₀ _ hm.ne']
  rw [← hμ]
  have hsum : (l.map b).sum ≤ l.length * μ := by
    have hcs : (l.map b).sum ^ 2 ≤ l.length * (l.map fun i => b i ^ 2).sum := by
      rw [sum_map_fin, sum_map_fin]
      have := sq_sum_le_card_mul_sum_sq (s := (Finset.univ : Finset (Fin l.length))) (f := fun i => b (l.get i))
      simpa using this
    rw [hμ2] at hcs
    have : (l.map b).sum ^ 2 ≤ (l.length * μ) ^ 2 := by linarith
    exact (abs_le_of_sq_le_sq' this (by positivity)).2
  have hle : (l.map fun i => a i ^ 2).sum ≤ (l.map fun i => b i ^ 2 + 2 * C * b i + C ^ 2).sum := by
    apply List.sum_le_sum
    intro i hi
    have := h i hi
    have := ha i hi
    have := hb i hi
    nlinarith
  have hexp : (l.map fun i => b i ^ 2 + 2 * C * b i + C ^ 2).sum = (l.map fun i => b i ^ 2).sum + 2 * C * (l.map b).sum + l.length * C ^ 2 := by
    rw [List.sum_map_add, List.sum_map_add, List.sum_map_mul_left, List.map_const', List.sum_replicate, nsmul_eq_mul]
  refine Real.sqrt_le_iff.2 ⟨by positivity, ?_⟩
  rw [div_le_iff₀ hm]
  nlinarith [mul_le_mul_of_nonneg_left hsum hC]

/-- **C176** the same for partial dependence plots: between two grid points the mean curve and the confidence band of a PDP of the surrogate with its default arguments change at most in proportion
to how far the standardised vectors move. -/
theorem C176_pdp (ℓ : List (List ℝ) → List ℝ → ℝ) (hℓ : ∀ Z t, 0 < ℓ Z t) {space : ConfigSpace ℝ} {X : List (List ℝ)} {y : List ℝ}
    (h : TrainingData space.length X y) {s s' : GpSurrogate} (hs : s.fit (fun Z t => matern (ℓ Z t)) X y = (s', .ok ())) {l : ℝ}
    (hl : l = ℓ (X.map (standardised space.length X)) (y.map fun v => (v - targetMean y) / spread y)) {sel : Selection ℝ} {selected : List (Hp ℝ)}
    {samples : List (List ℝ)} {g : Nat} {grid : List (List ℝ)} (hin : DependenceInput space sel selected samples g grid) :
    ∃ f v, yPdp space s'.predict sel samples g = .ok f ∧ vPdp space s'.predict sel samples g = .ok v ∧ f.length = grid.length ∧ v.length = grid.length ∧
      ∀ (p q : Nat) (t u : List ℝ) (D : ℝ), grid[p]? = some t → grid[q]? = some u →
        (∀ r ∈ samples, rowDistance (standardised space.length X (atPoint space selected t r)) (standardised space.length X (atPoint space selected u r)) ≤ D) →
        |f.getD p 0 - f.getD q 0| ≤ 10 ^ 4 * √X.length * spread y * (√3 * (D / l)) ∧
        |√(v.getD p 0) - √(v.getD q 0)| ≤ spread y * (√3 * (D / l)) := by
  have hl0 : 0 < l := hl ▸ hℓ _ _
  have hc := spread_pos h.targets_ne
  obtain ⟨s'', hfit, -, ⟨mu, sd, hrow, hnn⟩, -⟩ := C99_fit (fun Z t => (matern_unit (hℓ Z t) space.length).1) h s
  obtain rfl : s' = s'' := (Prod.mk.inj (hs.symm.trans hfit)).1
  obtain ⟨hf, hv⟩ := pdp_values hin.wf hin.sel_eq hin.mem hin.ne hin.distinct hrow hin.samples_ne hin.rows hin.grid_pos hin.grid_eq
  refine ⟨_, _, hf, hv, by simp, by simp, fun p q t u D hpt hqu hD => ?_⟩
  have hm : (0 : ℝ) < samples.length := by exact_mod_cast List.length_pos_iff.2 hin.samples_ne
  have hlen : ∀ (t : List ℝ), ∀ r ∈ samples, (atPoint space selected t r).length = space.length := fun t r hr => by simp [atPoint, hin.rows r hr]
  have hpred : ∀ (t : List ℝ), ∀ r ∈ samples, s'.predict [atPoint space selected t r] = .ok ([mu (atPoint space selected t r)], [sd (atPoint space selected t r)]) :=
    fun t r hr => by rw [hrow [atPoint space selected t r] (by simp) (by simpa using hlen t r hr)]; rfl
  have hdiff : ∀ r ∈ samples, |sd (atPoint space selected t r) - sd (atPoint space selected u r)| ≤ spread y * (√3 * (D / l)) ∧
      |mu (atPoint space selected t r) - mu (atPoint space selected u r)| ≤ 10 ^ 4 * √X.length * spread y * (√3 * (D / l)) :=
    fun r hr => C176_matern ℓ hℓ h hs (hpred t r hr) (hpred u r hr) hl (hD r hr)
  obtain ⟨r0, hr0⟩ := List.exists_mem_of_ne_nil _ hin.samples_ne
  have hC : 0 ≤ spread y * (√3 * (D / l)) := (abs_nonneg _).trans (hdiff r0 hr0).1
  simp only [List.getD_eq_getElem?_getD, List.getElem?_map, hpt, hqu, Option.map_some, Option.getD_some]
  constructor
  · rw [← sub_div, sum_map_fin, sum_map_fin, ← Finset.sum_sub_distrib, abs_div, abs_of_pos hm, div_le_iff₀ hm]
    refine (Finset.abs_sum_le_sum_abs _ _).trans ?_
    have := Finset.sum_le_card_nsmul (Finset.univ : Finset (Fin samples.length)) _ _ fun i _ => (hdiff (samples.get i) (List.get_mem samples i)).2
    rw [Finset.card_univ, Fintype.card_fin, nsmul_eq_mul] at this
    linarith
  · rw [abs_le]
    have k1 := rms_le samples hin.samples_ne (fun r => sd (atPoint space selected t r)) (fun r => sd (atPoint space selected u r)) hC (fun _ _ => hnn _) (fun _ _ => hnn _)
      (fun r hr => by have := (abs_le.1 (hdiff r hr).1).2; linarith)
    have k2 := rms_le samples hin.samples_ne (fun r => sd (atPoint space selected u r)) (fun r => sd (atPoint space selected t r)) hC (fun _ _ => hnn _) (fun _ _ => hnn _)
      (fun r hr => by have := (abs_le.1 (hdiff r hr).1).1; linarith)
    constructor <;> linarith

/-- setting one hyperparameter to two values moves the standardised vector by their difference in units of the standard deviation of its column -/
theorem atPoint_distance {space : ConfigSpace ℝ} (hwf : space.WF) {hp : Hp ℝ} {j : Nat} (hj : IsFeature space hp j) {X : List (List ℝ)} (hX : X ≠ [])
    {r : List ℝ} (hr : r.length = space.length) (t u : ℝ) :
    rowDistance (standardised space.length X (atPoint space [hp] [t] r)) (standardised space.length X (atPoint space [hp] [u] r))
      = |t - u| / spread (X.map fun q => q.getD j 0) := by
  have hjl : j < space.length := by
    obtain ⟨h, h1, -⟩ := hj
    exact (List.getElem?_eq_some_iff.1 h1).1
  have hsp : ∀ i, 0 < spread (X.map fun q => q.getD i 0) := fun i => spread_pos (by simpa using hX)
  unfold rowDistance
  rw [zipWith_sum (standardised_length _ _ _) (standardised_length _ _ _)]
  have hterm : ∀ i : Fin space.length, ((standardised space.length X (atPoint space [hp] [t] r)).getD i 0 - (standardised space.length X (atPoint space [hp] [u] r)).getD i 0) ^ 2
      = if (i : Nat) = j then ((t - u) / spread (X.map fun q => q.getD j 0)) ^ 2 else 0 := by
    intro i
    have hg : ∀ q : List ℝ, (standardised space.length X q).getD i 0 = (q.getD i 0 - targetMean (X.map fun q => q.getD i 0)) / spread (X.map fun q => q.getD i 0) := by
      intro q
      simp [standardised, List.getD_eq_getElem?_getD]
    rw [hg, hg, ← sub_div, sub_sub_sub_cancel_right]
    split_ifs with hij
    · have h1 := atPoint_selected (by simp) hr (by simp) (selected := [hp]) (t := [t]) (j := 0) rfl hj
      have h2 := atPoint_selected (by simp) hr (by simp) (selected := [hp]) (t := [u]) (j := 0) rfl hj
      rw [List.getD_eq_getElem?_getD, List.getD_eq_getElem?_getD, hij, h1, h2]
      rfl
    · have hno : ∀ h ∈ [hp], ¬ IsFeature space h i := by
        intro h hh hf
        rw [List.mem_singleton.1 hh] at hf
        exact hij (feature_unique hwf hf hj)
      rw [List.getD_eq_getElem?_getD, List.getD_eq_getElem?_getD, atPoint_other hr hno, atPoint_other hr hno, sub_self, zero_div]
      norm_num
  have hs := Finset.sum_congr (rfl : (Finset.univ : Finset (Fin space.length)) = Finset.univ) fun i _ => hterm i
  rw [hs, Finset.sum_eq_single (⟨j, hjl⟩ : Fin space.length) (fun i _ hi => if_neg fun h => hi (Fin.ext h)) (fun h => absurd (Finset.mem_univ _) h), if_pos rfl,
    Real.sqrt_sq_eq_abs, abs_div, abs_of_pos (hsp j)]

/-- **C176** in the usual case, one hyperparameter with column `j`: two points of the PDP whose grid values (between 0 and 1) differ by `D` differ by at most
`10⁴ √n √3 D / (ℓ · standard deviation of the column)`, in units of the standard deviation of the targets, the roots of `y_variances` by at most `√3 D / (ℓ · standard deviation of the column)`. -/
theorem C176_curve (ℓ : List (List ℝ) → List ℝ → ℝ) (hℓ : ∀ Z t, 0 < ℓ Z t) {space : ConfigSpace ℝ} {X : List (List ℝ)} {y : List ℝ}
    (h : TrainingData space.length X y) {s s' : GpSurrogate} (hs : s.fit (fun Z t => matern (ℓ Z t)) X y = (s', .ok ())) {l : ℝ}
    (hl : l = ℓ (X.map (standardised space.length X)) (y.map fun v => (v - targetMean y) / spread y)) {sel : Selection ℝ} {hp : Hp ℝ} {j : Nat}
    (hj : IsFeature space hp j) {samples : List (List ℝ)} {g : Nat} {grid : List (List ℝ)} (hin : DependenceInput space sel [hp] samples g grid) :
    ∃ f v, yPdp space s'.predict sel samples g = .ok f ∧ vPdp space s'.predict sel samples g = .ok v ∧ f.length = grid.length ∧ v.length = grid.length ∧
      ∀ (p q : Nat) (t u : ℝ), grid[p]? = some [t] → grid[q]? = some [u] →
        |f.getD p 0 - f.getD q 0| ≤ 10 ^ 4 * √X.length * spread y * (√3 * (|t - u| / spread (X.map fun q => q.getD j 0) / l)) ∧
        |√(v.getD p 0) - √(v.getD q 0)| ≤ spread y * (√3 * (|t - u| / spread (X.map fun q => q.getD j 0) / l)) := by
  obtain ⟨f, v, hf, hv, h1, h2, hall⟩ := C176_pdp ℓ hℓ h hs hl hin
  exact ⟨f, v, hf, hv, h1, h2, fun p q t u hp' hq' => hall p q [t] [u] _ hp' hq' fun r hr => (atPoint_distance hin.wf hj h.rows (hin.rows r hr) t u).le⟩

/-- points 0 and 1 with targets 0 and 2, length scale 1000: the standard deviations at 1/2 and 3/4 differ by less than 1/1000 -/
example {s s' : GpSurrogate} (hs : s.fit (fun _ _ => matern 1000) [[0], [1]] [0, 2] = (s', .ok ())) {m1 σ1 m2 σ2 : ℝ}
    (hp1 : s'.predict [[1 / 2]] = .ok ([m1], [σ1])) (hp2 : s'.predict [[3 / 4]] = .ok ([m2], [σ2])) : |σ1 - σ2| < 1 / 1000 := by
  have hsp : spread ([0, 1] : List ℝ) = 1 / 2 := by
    unfold spread
    rw [if_neg]
    · have : squares (targetMean [0, 1]) [0, 1] / ([0, 1] : List ℝ).length = (1 / 2) ^ 2 := by norm_num [squares, targetMean]
      rw [this, Real.sqrt_sq (by norm_num)]
    · intro h
      have := h 0 (by simp) 1 (by simp)
      norm_num at this
  have hd : rowDistance (standardised 1 [[0], [1]] [1 / 2]) (standardised 1 [[0], [1]] [3 / 4]) = 1 / 2 := by
    simp only [standardised, List.map_cons, List.map_nil, List.range_one, List.getD_cons_zero]
    rw [hsp]
    have : ((List.zipWith (fun x y : ℝ => (x - y) ^ 2) [(1 / 2 - targetMean [0, 1]) / (1 / 2)] [(3 / 4 - targetMean [0, 1]) / (1 / 2)]).sum) = (1 / 2) ^ 2 := by
      norm_num [targetMean]
    rw [rowDistance, this, Real.sqrt_sq (by norm_num)]
  have h := (C176_matern (fun _ _ => 1000) (fun _ _ => by norm_num) exGp_data.1 hs hp1 hp2 rfl hd.le).1
  rw [exGp_data.2] at h
  have h3 : √3 < 2 := by
    rw [Real.sqrt_lt' (by norm_num)]
    norm_num
  linarith

end PyPDP
