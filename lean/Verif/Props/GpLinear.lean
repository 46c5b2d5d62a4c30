/-
C178: with a fixed kernel the means of the Gaussian process surrogate, and with them its PDPs, are linear in the evaluated values.
-/
import Verif.Props.GpSmooth

namespace PyPDP
open Spec Matrix

/-- the weights of the training points for the standardised row `z` -/
noncomputable def gpWeights (k : Kernel) (Z : List (List ℝ)) (z : List ℝ) (i : ℕ) : ℝ :=
  if hi : i < Z.length then ((gramAlpha k Z)⁻¹ *ᵥ fun j : Fin Z.length => k z Z[j]) ⟨i, hi⟩ else 0

theorem mean_gpWeights {d : Nat} {choose : List (List ℝ) → List ℝ → Kernel} (hk : ∀ Z t, Covariance d (choose Z t)) {X : List (List ℝ)}
    {y : List ℝ} (h : TrainingData d X y) {s s' : GpSurrogate} (hs : s.fit choose X y = (s', .ok ())) {r : List ℝ} {m σ : ℝ}
    (hp : s'.predict [r] = .ok ([m], [σ])) :
    m = targetMean y + ∑ i ∈ Finset.range X.length,
      gpWeights (chosenKernel choose d X y) (X.map (standardised d X)) (standardised d X r) i * (y.getD i 0 - targetMean y) := by
  have hy := h.targets_ne
  rw [fit_ok hk h] at hs
  obtain rfl := (Prod.mk.inj hs).1.symm
  have hr : r.length = d := predict_width hp
  rw [predict_one hr] at hp
  obtain rfl := (List.cons.inj (Prod.mk.inj (Except.ok.inj hp)).1).1
  clear hs hp
  obtain ⟨hrows, hker, hstd, hmean⟩ := fitted_eq (choose := choose) h
  obtain ⟨g, hg⟩ : ∃ g, g = fitted d choose X y := ⟨_, rfl⟩
  have htar : g.targets = fun i : Fin g.rows.length => (y.getD i 0 - targetMean y) / spread y := by
    subst hg
    change (fun i : Fin _ => (y.getD i 0 - npMean y) / handleZeros (npStd y)) = _
    rw [handleZeros_npStd hy]
    rfl
  have hrow : ∀ r : List ℝ, r.length = d → g.scaler.row r = standardised d X r := fun r hr => by
    rw [hg]; exact standardised_eq h.rows hr
  rw [← hg] at hrows hker hstd hmean ⊢
  rw [hrow r hr]
  obtain ⟨z, hz⟩ : ∃ z, z = standardised d X r := ⟨_, rfl⟩
  have hcov : Covariance d g.kernel := by rw [hker]; exact hk _ _
  have hZ : ∀ q ∈ g.rows, q.length = d := by rw [hrows]; exact scaled_rows d X
  have hpd := gramAlpha_pd hcov hZ
  rw [← hz, ← hker, ← hrows]
  have hlen : X.length = g.rows.length := by rw [hrows, List.length_map]
  obtain ⟨kz, hkz⟩ : ∃ kz : Fin g.rows.length → ℝ, kz = fun i => g.kernel z g.rows[i] := ⟨_, rfl⟩
  unfold GpFit.meanAt
  have hsym : (gramAlpha g.kernel g.rows)⁻¹ᵀ = (gramAlpha g.kernel g.rows)⁻¹ := by
    have := hpd.inv.isHermitian
    simpa [IsHermitian] using this
  have hdot : kz ⬝ᵥ ((gramAlpha g.kernel g.rows)⁻¹ *ᵥ g.targets) = ((gramAlpha g.kernel g.rows)⁻¹ *ᵥ kz) ⬝ᵥ g.targets := by
    rw [dotProduct_mulVec, ← mulVec_transpose, hsym]
  rw [← hkz, hdot, hstd, hmean, hlen, Finset.sum_range, htar, dotProduct, Finset.mul_sum, add_comm]
  congr 1
  refine Finset.sum_congr rfl fun i _ => ?_
  have hs := (spread_pos hy).ne'
  have hw : gpWeights g.kernel g.rows z i = ((gramAlpha g.kernel g.rows)⁻¹ *ᵥ kz) i := by
    rw [gpWeights, dif_pos i.2, hkz]
  rw [hw]
  field_simp

/-- targets as linear combination of others -/
noncomputable def Spec.combined (a b : ℝ) (y1 y2 : List ℝ) : List ℝ := List.zipWith (fun u v => a * u + b * v) y1 y2

theorem combined_getD (a b : ℝ) {y1 y2 : List ℝ} (h : y1.length = y2.length) (i : ℕ) :
    (combined a b y1 y2).getD i 0 = a * y1.getD i 0 + b * y2.getD i 0 := by
  rcases Nat.lt_or_ge i y1.length with hi | hi
  · simp [combined, List.getD_eq_getElem?_getD, hi, h ▸ hi]
  · simp [combined, List.getD_eq_getElem?_getD, hi, h ▸ hi]

theorem combined_sum (a b : ℝ) {y1 y2 : List ℝ} (h : y1.length = y2.length) : (combined a b y1 y2).sum = a * y1.sum + b * y2.sum := by
  induction y1 generalizing y2 with
  | nil => cases y2 with
    | nil => simp [combined]
    | cons => cases h
  | cons u y1 ih => cases y2 with
    | nil => cases h
    | cons v y2 =>
      have := ih (y2 := y2) (by simpa using h)
      unfold combined at this ⊢
      rw [List.zipWith_cons_cons, List.sum_cons, this, List.sum_cons, List.sum_cons]
      ring

theorem combined_length (a b : ℝ) {y1 y2 : List ℝ} (h : y1.length = y2.length) : (combined a b y1 y2).length = y1.length := by
  simp [combined, h]

theorem combined_mean (a b : ℝ) {y1 y2 : List ℝ} (h : y1.length = y2.length) :
    targetMean (combined a b y1 y2) = a * targetMean y1 + b * targetMean y2 := by
  unfold targetMean
  rw [combined_sum a b h, combined_length a b h, ← h]
  ring

/-- **C178** with a fixed kernel the predicted means are linear in the targets: a surrogate fitted to `a y₁ + b y₂` predicts `a` times what one fitted to `y₁` predicts plus `b` times what one
fitted to `y₂` predicts. -/
theorem C178_mean {d : Nat} {k : Kernel} (hk : Covariance d k) {X : List (List ℝ)} {y1 y2 : List ℝ} (h1 : TrainingData d X y1) (h2 : TrainingData d X y2) (a b : ℝ)
    {s s1 s2 s3 : GpSurrogate} (hs1 : s.fit (fun _ _ => k) X y1 = (s1, .ok ())) (hs2 : s.fit (fun _ _ => k) X y2 = (s2, .ok ()))
    (hs3 : s.fit (fun _ _ => k) X (combined a b y1 y2) = (s3, .ok ())) {r : List ℝ} {m1 σ1 m2 σ2 m3 σ3 : ℝ} (hp1 : s1.predict [r] = .ok ([m1], [σ1]))
    (hp2 : s2.predict [r] = .ok ([m2], [σ2])) (hp3 : s3.predict [r] = .ok ([m3], [σ3])) : m3 = a * m1 + b * m2 := by
  have hl : y1.length = y2.length := by rw [h1.targets, h2.targets]
  have h3 : TrainingData d X (combined a b y1 y2) := ⟨h1.rows, h1.width, h1.columns, by rw [combined_length a b hl, h1.targets]⟩
  rw [mean_gpWeights (fun _ _ => hk) h1 hs1 hp1, mean_gpWeights (fun _ _ => hk) h2 hs2 hp2, mean_gpWeights (fun _ _ => hk) h3 hs3 hp3, combined_mean a b hl]
  have : ∀ y, chosenKernel (fun _ _ => k) d X y = k := fun _ => rfl
  simp only [this, combined_getD a b hl]
  rw [mul_add, mul_add, Finset.mul_sum, Finset.mul_sum, add_add_add_comm, ← Finset.sum_add_distrib]
  congr 1
  exact Finset.sum_congr rfl fun i _ => by ring

/-- **C178** with a fixed kernel the standard deviations depend on the targets only by a factor, the standard deviation of the targets. -/
theorem C178_std {d : Nat} {k : Kernel} (hk : Covariance d k) {X : List (List ℝ)} {y1 y2 : List ℝ} (h1 : TrainingData d X y1) (h2 : TrainingData d X y2)
    {s s1 s2 : GpSurrogate} (hs1 : s.fit (fun _ _ => k) X y1 = (s1, .ok ())) (hs2 : s.fit (fun _ _ => k) X y2 = (s2, .ok ())) {r : List ℝ} {m1 σ1 m2 σ2 : ℝ}
    (hp1 : s1.predict [r] = .ok ([m1], [σ1])) (hp2 : s2.predict [r] = .ok ([m2], [σ2])) : σ1 / spread y1 = σ2 / spread y2 := by
  obtain ⟨n1, w1, -, e1, min1⟩ := C175_weights (fun _ _ => hk) h1 hs1 hp1
  obtain ⟨n2, w2, -, e2, min2⟩ := C175_weights (fun _ _ => hk) h2 hs2 hp2
  have c1 := spread_pos h1.targets_ne
  have c2 := spread_pos h2.targets_ne
  have g1 := min1 w2
  have g2 := min2 w1
  have hker : ∀ y, chosenKernel (fun _ _ => k) d X y = k := fun _ => rfl
  rw [hker] at e1 e2 g1 g2
  have hsq : (σ1 / spread y1) ^ 2 = (σ2 / spread y2) ^ 2 := by
    apply le_antisymm
    · rw [div_pow, div_pow, e2, mul_div_cancel_left₀ _ (by positivity), div_le_iff₀ (by positivity), mul_comm]
      exact g1
    · rw [div_pow, div_pow, e1, mul_div_cancel_left₀ _ (by positivity), div_le_iff₀ (by positivity), mul_comm]
      exact g2
  exact (sq_eq_sq₀ (by positivity) (by positivity)).1 hsq

/-- **C178** the same for partial dependence plots. -/
theorem C178_pdp {space : ConfigSpace ℝ} {k : Kernel} (hk : Covariance space.length k) {X : List (List ℝ)} {y1 y2 : List ℝ} (h1 : TrainingData space.length X y1)
    (h2 : TrainingData space.length X y2) (a b : ℝ) {s s1 s2 s3 : GpSurrogate} (hs1 : s.fit (fun _ _ => k) X y1 = (s1, .ok ()))
    (hs2 : s.fit (fun _ _ => k) X y2 = (s2, .ok ())) (hs3 : s.fit (fun _ _ => k) X (combined a b y1 y2) = (s3, .ok ())) {sel : Selection ℝ} {selected : List (Hp ℝ)}
    {samples : List (List ℝ)} {g : Nat} {grid : List (List ℝ)} (hin : DependenceInput space sel selected samples g grid) :
    ∃ f1 f2 v1 v2, yPdp space s1.predict sel samples g = .ok f1 ∧ yPdp space s2.predict sel samples g = .ok f2 ∧
      yPdp space s3.predict sel samples g = .ok (combined a b f1 f2) ∧ vPdp space s1.predict sel samples g = .ok v1 ∧ vPdp space s2.predict sel samples g = .ok v2 ∧
      v1.map (· / spread y1 ^ 2) = v2.map (· / spread y2 ^ 2) ∧ f1.length = grid.length ∧ f2.length = grid.length := by
  have hl : y1.length = y2.length := by rw [h1.targets, h2.targets]
  have h3 : TrainingData space.length X (combined a b y1 y2) := ⟨h1.rows, h1.width, h1.columns, by rw [combined_length a b hl, h1.targets]⟩
  have hfit : ∀ {y : List ℝ} {s' : GpSurrogate}, TrainingData space.length X y → s.fit (fun _ _ => k) X y = (s', .ok ()) → ∃ mu sd, RowWise space.length s'.predict mu sd := by
    intro y s' h hs
    obtain ⟨s'', hf, -, ⟨mu, sd, hr, -⟩, -⟩ := C99_fit (fun _ _ => hk) h s
    obtain rfl : s' = s'' := (Prod.mk.inj (hs.symm.trans hf)).1
    exact ⟨mu, sd, hr⟩
  obtain ⟨mu1, sd1, hr1⟩ := hfit h1 hs1
  obtain ⟨mu2, sd2, hr2⟩ := hfit h2 hs2
  obtain ⟨mu3, sd3, hr3⟩ := hfit h3 hs3
  have hpred : ∀ {s' : GpSurrogate} {mu sd : List ℝ → ℝ}, RowWise space.length s'.predict mu sd → ∀ r : List ℝ, r.length = space.length → s'.predict [r] = .ok ([mu r], [sd r]) :=
    fun h r hr => by rw [h [r] (by simp) (by simpa using hr)]; rfl
  have hv : ∀ {s' : GpSurrogate} {mu sd : List ℝ → ℝ}, RowWise space.length s'.predict mu sd → _ := fun {s' mu sd} h =>
    pdp_values (predict := s'.predict) hin.wf hin.sel_eq hin.mem hin.ne hin.distinct h hin.samples_ne hin.rows hin.grid_pos hin.grid_eq
  refine ⟨_, _, _, _, (hv hr1).1, (hv hr2).1, ?_, (hv hr1).2, (hv hr2).2, ?_, by simp, by simp⟩
  · rw [(hv hr3).1, combined, List.zipWith_map, List.zipWith_self]
    congr 1
    refine List.map_congr_left fun t _ => ?_
    have e : samples.map (fun r => mu3 (atPoint space selected t r)) = samples.map fun r => a * mu1 (atPoint space selected t r) + b * mu2 (atPoint space selected t r) :=
      List.map_congr_left fun r hr => by
        have hlen := atPoint_length (selected := selected) (t := t) (hin.rows r hr)
        exact C178_mean hk h1 h2 a b hs1 hs2 hs3 (hpred hr1 _ hlen) (hpred hr2 _ hlen) (hpred hr3 _ hlen)
    rw [e, List.sum_map_add, List.sum_map_mul_left, List.sum_map_mul_left]
    ring
  · rw [List.map_map, List.map_map]
    refine List.map_congr_left fun t _ => ?_
    have c1 := spread_pos h1.targets_ne
    have c2 := spread_pos h2.targets_ne
    have e : ∀ r ∈ samples, sd1 (atPoint space selected t r) ^ 2 = spread y1 ^ 2 / spread y2 ^ 2 * sd2 (atPoint space selected t r) ^ 2 := by
      intro r hr
      have hlen := atPoint_length (selected := selected) (t := t) (hin.rows r hr)
      have := C178_std hk h1 h2 hs1 hs2 (hpred hr1 _ hlen) (hpred hr2 _ hlen)
      rw [div_eq_div_iff c1.ne' c2.ne'] at this
      have h2 := congrArg (· ^ 2) this
      rw [mul_pow, mul_pow] at h2
      field_simp
      linarith
    dsimp only [Function.comp]
    rw [List.map_congr_left e, List.sum_map_mul_left]
    field_simp

/-- smoothing does not enlarge -/
theorem smoothing_le {n : Nat} {M : Matrix (Fin n) (Fin n) ℝ} (hM : M.PosSemidef) {α : ℝ} (hα : 0 < α) (t : Fin n → ℝ) :
    (M *ᵥ ((M + α • (1 : Matrix (Fin n) (Fin n) ℝ))⁻¹ *ᵥ t)) ⬝ᵥ (M *ᵥ ((M + α • (1 : Matrix (Fin n) (Fin n) ℝ))⁻¹ *ᵥ t)) ≤ t ⬝ᵥ t := by
  have hpd := pd_of hM hα
  have hu : IsUnit (M + α • (1 : Matrix (Fin n) (Fin n) ℝ)).det := (Matrix.isUnit_iff_isUnit_det _).1 hpd.isUnit
  obtain ⟨u, hudef⟩ : ∃ u, u = (M + α • (1 : Matrix (Fin n) (Fin n) ℝ))⁻¹ *ᵥ t := ⟨_, rfl⟩
  have ht : M *ᵥ u + α • u = t := by
    have : (M + α • (1 : Matrix (Fin n) (Fin n) ℝ)) *ᵥ u = t := by rw [hudef, mulVec_mulVec, mul_nonsing_inv _ hu, one_mulVec]
    rw [← this, add_mulVec, smul_mulVec, one_mulVec]
  rw [← hudef, ← ht]
  simp only [add_dotProduct, dotProduct_add, smul_dotProduct, dotProduct_smul, smul_eq_mul]
  have h1 : 0 ≤ u ⬝ᵥ (M *ᵥ u) := by simpa using hM.dotProduct_mulVec_nonneg u
  have h2 : 0 ≤ u ⬝ᵥ u := Finset.sum_nonneg fun i _ => mul_self_nonneg _
  rw [dotProduct_comm (M *ᵥ u) u]
  nlinarith [mul_nonneg hα.le h1, mul_nonneg (mul_nonneg hα.le hα.le) h2]

theorem fitted_size {d : Nat} {k : Kernel} (hk : Covariance d k) {X : List (List ℝ)} {y : List ℝ} (h : TrainingData d X y) {s s' : GpSurrogate}
    (hs : s.fit (fun _ _ => k) X y = (s', .ok ())) {ms σs : List ℝ} (hp : s'.predict X = .ok (ms, σs)) :
    (ms.map fun v => v ^ 2).sum ≤ 2 * (y.map fun v => v ^ 2).sum := by
  obtain ⟨s'', hf, -, ⟨mu, sd, hr, -⟩, -⟩ := C99_fit (fun _ _ => hk) h s
  obtain rfl : s' = s'' := (Prod.mk.inj (hs.symm.trans hf)).1
  rw [hr X h.rows h.width] at hp
  obtain rfl := (Prod.mk.inj (Except.ok.inj hp)).1
  obtain ⟨Z, hZ⟩ : ∃ Z, Z = X.map (standardised d X) := ⟨_, rfl⟩
  have hlen : Z.length = X.length := by rw [hZ, List.length_map]
  have hleny : Z.length = y.length := by rw [hlen, h.targets]
  have hM : (gram k Z).PosSemidef := by rw [hZ]; exact gram_psd hk (scaled_rows d X)
  have hpd : (gramAlpha k Z).PosDef := by rw [hZ]; exact gramAlpha_pd hk (scaled_rows d X)
  have hsymG : (gramAlpha k Z)⁻¹ᵀ = (gramAlpha k Z)⁻¹ := by
    have := hpd.inv.isHermitian
    simpa [IsHermitian] using this
  obtain ⟨c, hc⟩ : ∃ c : Fin Z.length → ℝ, c = fun i : Fin Z.length => y.getD i 0 - targetMean y := ⟨_, rfl⟩
  obtain ⟨v, hv⟩ : ∃ v : Fin Z.length → ℝ, v = gram k Z *ᵥ ((gramAlpha k Z)⁻¹ *ᵥ c) := ⟨_, rfl⟩
  have hval : ∀ i : Fin Z.length, mu (X[(i : ℕ)]'(hlen ▸ i.2)) = targetMean y + v i := by
    intro i
    have hi : (i : ℕ) < X.length := hlen ▸ i.2
    have hpi : s'.predict [X[(i : ℕ)]] = .ok ([mu X[(i : ℕ)]], [sd X[(i : ℕ)]]) := by
      rw [hr [X[(i : ℕ)]] (by simp) (by simpa using h.width _ (List.getElem_mem hi))]; rfl
    rw [mean_gpWeights (fun _ _ => hk) h hs hpi]
    congr 1
    have hzi : standardised d X X[(i : ℕ)] = Z[i] := by simp [hZ]
    have hker : chosenKernel (fun _ _ => k) d X y = k := rfl
    rw [hzi, hker, ← hZ, ← hlen, Finset.sum_range]
    have hw : ∀ j : Fin Z.length, gpWeights k Z Z[i] j = ((gramAlpha k Z)⁻¹ *ᵥ fun j => gram k Z i j) j := fun j => by
      rw [gpWeights, dif_pos j.2]
      rfl
    have : ∑ j : Fin Z.length, gpWeights k Z Z[i] j * (y.getD j 0 - targetMean y) = ((gramAlpha k Z)⁻¹ *ᵥ fun j => gram k Z i j) ⬝ᵥ c := by
      rw [hc, dotProduct]
      exact Finset.sum_congr rfl fun j _ => by rw [hw]
    rw [this, hv]
    change _ = (fun j => gram k Z i j) ⬝ᵥ ((gramAlpha k Z)⁻¹ *ᵥ c)
    rw [dotProduct_mulVec, ← mulVec_transpose, hsymG]
  have hsmall : v ⬝ᵥ v ≤ c ⬝ᵥ c := by
    rw [hv, gramAlpha_eq]
    exact smoothing_le hM gpAlpha_pos c
  have hn : (0 : ℝ) < y.length := by exact_mod_cast List.length_pos_iff.2 h.targets_ne
  have esum : ∑ i : Fin Z.length, y.getD i 0 = y.length * targetMean y := by
    rw [targetMean, mul_div_cancel₀ _ hn.ne', ← Finset.sum_range (fun i => y.getD i 0), hleny, Finset.sum_range, ← Fin.sum_univ_getElem]
    exact Finset.sum_congr rfl fun i _ => by simp
  have esq : (y.map fun v => v ^ 2).sum = ∑ i : Fin Z.length, y.getD i 0 ^ 2 := by
    rw [sum_map_fin, ← Finset.sum_range (fun i => y.getD i 0 ^ 2), hleny, Finset.sum_range]
    exact Finset.sum_congr rfl fun i _ => by simp
  have ecc : c ⬝ᵥ c = (y.map fun v => v ^ 2).sum - y.length * targetMean y ^ 2 := by
    have : c ⬝ᵥ c = ∑ i : Fin Z.length, (y.getD i 0 ^ 2 - 2 * targetMean y * y.getD i 0 + targetMean y ^ 2) := by
      rw [hc, dotProduct]
      exact Finset.sum_congr rfl fun i _ => by ring
    rw [this, Finset.sum_add_distrib, Finset.sum_sub_distrib, ← Finset.mul_sum, esum, esq, Finset.sum_const, Finset.card_univ, Fintype.card_fin, nsmul_eq_mul, hleny]
    ring
  have eleft : ((X.map mu).map fun v => v ^ 2).sum = ∑ i : Fin Z.length, (targetMean y + v i) ^ 2 := by
    rw [List.map_map, sum_map_fin]
    refine Fintype.sum_equiv (finCongr hlen.symm) _ _ fun i => ?_
    have := hval (finCongr hlen.symm i)
    simp only [finCongr_apply, Fin.val_cast] at this
    simp only [Function.comp, List.get_eq_getElem, finCongr_apply]
    rw [this]
  rw [eleft]
  have hle : ∑ i : Fin Z.length, (targetMean y + v i) ^ 2 ≤ ∑ i : Fin Z.length, (2 * targetMean y ^ 2 + 2 * (v i * v i)) :=
    Finset.sum_le_sum fun i _ => by nlinarith [sq_nonneg (targetMean y - v i)]
  refine hle.trans ?_
  have hnl : (Z.length : ℝ) = y.length := by rw [hleny]
  rw [Finset.sum_add_distrib, Finset.sum_const, Finset.card_univ, Fintype.card_fin, nsmul_eq_mul, hnl, ← Finset.mul_sum]
  have : ∑ i : Fin Z.length, v i * v i = v ⬝ᵥ v := rfl
  rw [this]
  linarith

/-- **C178** with a fixed kernel errors of the measured values are hardly amplified: the predictions for the training points change by at most twice as much (in sums of squares) as the targets do. -/
theorem C178_robust {d : Nat} {k : Kernel} (hk : Covariance d k) {X : List (List ℝ)} {y1 y2 : List ℝ} (h1 : TrainingData d X y1) (h2 : TrainingData d X y2)
    {s s1 s2 : GpSurrogate} (hs1 : s.fit (fun _ _ => k) X y1 = (s1, .ok ())) (hs2 : s.fit (fun _ _ => k) X y2 = (s2, .ok ())) {ms1 σs1 ms2 σs2 : List ℝ}
    (hp1 : s1.predict X = .ok (ms1, σs1)) (hp2 : s2.predict X = .ok (ms2, σs2)) :
    ((ms1.zip ms2).map fun p => (p.1 - p.2) ^ 2).sum ≤ 2 * ((y1.zip y2).map fun p => (p.1 - p.2) ^ 2).sum := by
  have hl : y1.length = y2.length := by rw [h1.targets, h2.targets]
  have h3 : TrainingData d X (combined 1 (-1) y1 y2) := ⟨h1.rows, h1.width, h1.columns, by rw [combined_length _ _ hl, h1.targets]⟩
  obtain ⟨s3, hs3, -, ⟨mu3, sd3, hr3, -⟩, -⟩ := C99_fit (fun _ _ => hk) h3 s
  have hfit : ∀ {y : List ℝ} {s' : GpSurrogate}, TrainingData d X y → s.fit (fun _ _ => k) X y = (s', .ok ()) → ∃ mu sd, RowWise d s'.predict mu sd := by
    intro y s' h hs
    obtain ⟨s'', hf, -, ⟨mu, sd, hr, -⟩, -⟩ := C99_fit (fun _ _ => hk) h s
    obtain rfl : s' = s'' := (Prod.mk.inj (hs.symm.trans hf)).1
    exact ⟨mu, sd, hr⟩
  obtain ⟨mu1, sd1, hr1⟩ := hfit h1 hs1
  obtain ⟨mu2, sd2, hr2⟩ := hfit h2 hs2
  rw [hr1 X h1.rows h1.width] at hp1
  rw [hr2 X h1.rows h1.width] at hp2
  obtain rfl := (Prod.mk.inj (Except.ok.inj hp1)).1
  obtain rfl := (Prod.mk.inj (Except.ok.inj hp2)).1
  have hpred : ∀ {s' : GpSurrogate} {mu sd : List ℝ → ℝ}, RowWise d s'.predict mu sd → ∀ r : List ℝ, r.length = d → s'.predict [r] = .ok ([mu r], [sd r]) :=
    fun h r hr => by rw [h [r] (by simp) (by simpa using hr)]; rfl
  have hsize := fitted_size hk h3 hs3 (hr3 X h1.rows h1.width)
  have e1 : (X.map mu3).map (fun v => v ^ 2) = ((X.map mu1).zip (X.map mu2)).map fun p => (p.1 - p.2) ^ 2 := by
    rw [List.zip_map', List.map_map, List.map_map]
    refine List.map_congr_left fun r hr => ?_
    have hlen := h1.width r hr
    have := C178_mean hk h1 h2 1 (-1) hs1 hs2 hs3 (hpred hr1 _ hlen) (hpred hr2 _ hlen) (hpred hr3 _ hlen)
    simp only [Function.comp]
    rw [this]
    ring
  have e2 : (combined 1 (-1) y1 y2).map (fun v => v ^ 2) = (y1.zip y2).map fun p => (p.1 - p.2) ^ 2 := by
    rw [combined, ← List.map_uncurry_zip_eq_zipWith, List.map_map]
    refine List.map_congr_left fun p _ => ?_
    simp only [Function.comp, Function.uncurry]
    ring
  rw [e1, e2] at hsize
  exact hsize

/-- targets 0 and 2 at the points 0 and 1, or 0 and 2 + 1/10: the predictions for the two points differ by at most 1/50 in the sum of squares -/
example {k : Kernel} (hk : Covariance 1 k) {s s1 s2 : GpSurrogate} (hs1 : s.fit (fun _ _ => k) [[0], [1]] [0, 2] = (s1, .ok ()))
    (hs2 : s.fit (fun _ _ => k) [[0], [1]] [0, 21 / 10] = (s2, .ok ())) {a b a' b' : ℝ} {σs1 σs2 : List ℝ}
    (hp1 : s1.predict [[0], [1]] = .ok ([a, b], σs1)) (hp2 : s2.predict [[0], [1]] = .ok ([a', b'], σs2)) : (a - a') ^ 2 + (b - b') ^ 2 ≤ 1 / 50 := by
  have h2 : TrainingData 1 [[0], [1]] [0, (21 / 10 : ℝ)] := ⟨by simp, by simp, le_refl 1, rfl⟩
  have := C178_robust hk exGp_data.1 h2 hs1 hs2 hp1 hp2
  norm_num at this
  linarith

end PyPDP
