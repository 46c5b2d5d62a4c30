/-
C181: what expected improvement says about the true improvement, and how good a Bayesian optimisation with it becomes.
-/
import Verif.Props.BoCertificate
import Verif.Spec.Gain

namespace PyPDP
open Spec

variable {S : Type}

theorem gain_eq (z : ℝ) : gain z = z * normCdf z + normPdf z := integral_std_pos_part z

theorem gain_pos (z : ℝ) : 0 < gain z := by
  have := C36_positive z 0 0 one_pos
  rw [eiValue, if_neg one_ne_zero] at this
  simpa [gain_eq] using this

theorem gain_mono {z w : ℝ} (h : z ≤ w) : gain z ≤ gain w := by
  rw [gain_eq, gain_eq]
  have := improvement_slope h
  have := mul_nonneg (sub_nonneg.2 h) (normCdf_pos z).le
  linarith

theorem gain_slope {z w : ℝ} (h : z ≤ w) : gain w ≤ gain z + (w - z) := by
  rw [gain_eq, gain_eq]
  have := improvement_tangent w z
  have := mul_le_mul_of_nonneg_left (normCdf_le_one w) (sub_nonneg.2 h)
  linarith

theorem eiValue_gain (eta eps m : ℝ) {σ : ℝ} (h : 0 < σ) : eiValue eta eps m σ = σ * gain ((eta - m - eps) / σ) := by
  rw [eiValue, if_neg h.ne', gain_eq]

/-- **C181** If the true value is within `B` standard deviations of the predicted mean, then expected improvement is the true improvement up to a factor and up to a multiple of the standard
deviation: the true improvement is at most `1 + B / gain (-B)` times the expected one, which is at most the true one plus `gain B` standard deviations. -/
theorem C181_bounds (eta eps : ℝ) {m f σ B : ℝ} (hσ : 0 < σ) (hB : 0 ≤ B) (h : |m - f| ≤ B * σ) :
    max (eta - eps - f) 0 ≤ (1 + B / gain (-B)) * eiValue eta eps m σ ∧ eiValue eta eps m σ ≤ max (eta - eps - f) 0 + σ * gain B := by
  have hg := gain_pos (-B)
  have hfac : 0 ≤ B / gain (-B) := div_nonneg hB hg.le
  have hpos := C36_positive eta eps m hσ
  obtain ⟨h1, h2⟩ := abs_le.1 h
  constructor
  · refine max_le ?_ (mul_nonneg (by linarith) hpos.le)
    rcases le_or_gt (eta - eps - f) 0 with hf | hf
    · exact hf.trans (mul_nonneg (by linarith) hpos.le)
    have hlow := (le_max_left _ _).trans (C126_ei_bounds eta eps m hσ).1
    have hz : -B ≤ (eta - m - eps) / σ := by
      rw [le_div_iff₀ hσ]
      linarith
    have hgain : σ * gain (-B) ≤ eiValue eta eps m σ := by
      rw [eiValue_gain _ _ _ hσ]
      exact mul_le_mul_of_nonneg_left (gain_mono hz) hσ.le
    have hBσ : B * σ ≤ B / gain (-B) * eiValue eta eps m σ := by
      rw [div_mul_eq_mul_div, le_div_iff₀ hg]
      nlinarith
    linarith
  · rw [eiValue_gain _ _ _ hσ]
    have hz : (eta - m - eps) / σ ≤ B + max (eta - eps - f) 0 / σ := by
      rw [div_le_iff₀ hσ, add_mul, div_mul_cancel₀ _ hσ.ne']
      have := le_max_left (eta - eps - f) 0
      linarith
    have h0 : 0 ≤ max (eta - eps - f) 0 / σ := div_nonneg (le_max_right _ _) hσ.le
    have hs := (gain_mono hz).trans (gain_slope (z := B) (by linarith))
    have := mul_le_mul_of_nonneg_left hs hσ.le
    have e : σ * (max (eta - eps - f) 0 / σ) = max (eta - eps - f) 0 := mul_div_cancel₀ _ hσ.ne'
    nlinarith

/-- **C181** A rule to stop: if the largest expected improvement of the candidates is `e`, then no candidate improves the incumbent by more than `(1 + B / gain (-B)) · e` (plus `eps`), if the
kernel can represent the objective with size at most `B`. -/
theorem C181_stop {d : Nat} {choose : List (List ℝ) → List ℝ → Kernel} (hk : ∀ Z t, UnitCovariance d (choose Z t)) {X : List (List ℝ)} {f : List ℝ → ℝ}
    (h : TrainingData d X (X.map f)) {s s' : GpSurrogate} (hs : s.fit choose X (X.map f) = (s', .ok ())) {R : Set (List ℝ)} {B : ℝ}
    (hf : Representable (chosenKernel choose d X (X.map f)) d X (X.map f) f R B) (hX : ∀ q ∈ X, q ∈ R) (eps eta : ℝ) (names : List String)
    (dr : Drawer (Config ℝ) S) {n : Int} (hn : 2 ≤ n) (rng : S) (hdraw : ∀ c ∈ (dr.draw rng n.toNat).1, c.vector.length = d ∧ c.vector ∈ R) :
    ∃ c, (getOptimum names dr n (gpAcq (.ei eps) true s' (some eta)) rng).2 = .ok (.config c) ∧ c ∈ (dr.draw rng n.toNat).1 ∧
      ∀ c' ∈ (dr.draw rng n.toNat).1, eta - eps - f c'.vector ≤ (1 + B / gain (-B)) * gpAcq (.ei eps) true s' (some eta) c := by
  obtain ⟨c, hopt, i, hi, hmax, -⟩ := C39_best_partial names dr hn (gpAcq (.ei eps) true s' (some eta)) rng
  obtain ⟨s'', hfit, -, mu, sd, hrow, -, hpos⟩ := C99_unit hk h
  have hs' : s' = s'' := by
    have e1 := fit_ok (fun Z t => (hk Z t).1) h s
    have e2 := fit_ok (fun Z t => (hk Z t).1) h GpSurrogate.new
    exact (Prod.mk.inj (hs.symm.trans (e1.trans (e2.symm.trans hfit)))).1
  subst hs'
  obtain ⟨_, a, p, hf, hB⟩ := hf
  have hB0 : 0 ≤ B := (Real.sqrt_nonneg _).trans hB
  have hpred : ∀ r : List ℝ, r.length = d → s'.predict [r] = .ok ([mu r], [sd r]) := fun r hr => by
    rw [hrow [r] (by simp) (by simpa using hr)]; rfl
  refine ⟨c, by rw [hopt], List.mem_of_getElem? hi, fun c' hc' => ?_⟩
  obtain ⟨hl, hR⟩ := hdraw c' hc'
  have hle : gpAcq (.ei eps) true s' (some eta) c' ≤ gpAcq (.ei eps) true s' (some eta) c := not_lt.1 (by simpa using hmax c' hc')
  have hval : gpAcq (.ei eps) true s' (some eta) c' = eiValue eta eps (mu c'.vector) (sd c'.vector) := by
    unfold gpAcq
    rw [hpred _ hl]
    rfl
  have hσ := (hpos _ hl).1
  have hcov := (C179_cover (fun Z t => (hk Z t).1) h hs hf hX hR (hpred _ hl)).trans (mul_le_mul_of_nonneg_right hB hσ.le)
  have hb := (le_max_left _ _).trans (C181_bounds eta eps hσ hB0 hcov).1
  rw [← hval] at hb
  have hfac : 0 ≤ 1 + B / gain (-B) := by
    have := div_nonneg hB0 (gain_pos (-B)).le
    linarith
  exact hb.trans (mul_le_mul_of_nonneg_left hle hfac)

/-- **C181** What an acquired point is worth: at distance at most `δ` from an evaluated point, the true improvement of every candidate over the best value so far is at most `1 + B / gain (-B)`
times the sum of that of the acquired point and `gain B · spread · √(3 (δ / ℓ)² + 1e-8)`. -/
theorem C181_certificate (ℓ : List (List ℝ) → List ℝ → ℝ) (hℓ : ∀ Z t, 0 < ℓ Z t) {d : Nat} (hd : 1 ≤ d) {eps B : ℝ}
    {initialPoints : Int} {names : List String} {drawer acqDrawer : Drawer (Config ℝ) S} {nCandidates : Int}
    (hd2 : ∀ s n, ∀ c ∈ (acqDrawer.draw s n).1, c.vector.length = d) {env : BOEnv (Config ℝ) ℝ GpSurrogate S} {m : GpSurrogate}
    (henv : gpSampler (fun Z t => matern (ℓ Z t)) (.ei eps) true initialPoints names drawer acqDrawer nCandidates = .ok (env, m))
    {cs : List (Config ℝ)} (hw : ∀ c ∈ cs, c.vector.length = d) {f : List ℝ → ℝ} {c : Config ℝ} {X : List (List ℝ)} (hX : X = cs.map Config.vector)
    (h : IsAcquired env cs (X.map f) c) {R : Set (List ℝ)}
    (hf : Representable (chosenKernel (fun Z t => matern (ℓ Z t)) d X (X.map f)) d X (X.map f) f R B) (hXR : ∀ v ∈ X, v ∈ R)
    (hR : ∀ s n, ∀ c ∈ (acqDrawer.draw s n).1, c.vector ∈ R) {l : ℝ}
    (hl : l = ℓ (X.map (standardised d X)) ((X.map f).map fun v => (v - targetMean (X.map f)) / spread (X.map f))) {δ : ℝ}
    (hδ : ∃ v ∈ X, rowDistance (standardised d X c.vector) (standardised d X v) ≤ δ) {eta : ℝ} (heta : IsLeast {v | v ∈ X.map f} eta) :
    ∃ r, c ∈ (acqDrawer.draw r nCandidates.toNat).1 ∧ ∀ c' ∈ (acqDrawer.draw r nCandidates.toNat).1,
      eta - eps - f c'.vector ≤ (1 + B / gain (-B)) * (max (eta - eps - f c.vector) 0 + spread (X.map f) * √(3 * (δ / l) ^ 2 + 1 / 10 ^ 8) * gain B) := by
  subst hX
  obtain ⟨_, a, p, hf, hB⟩ := hf
  have hB0 : 0 ≤ B := (Real.sqrt_nonneg _).trans hB
  have hlen : ((cs.map Config.vector).map f).length = cs.length := by simp
  obtain ⟨s, mu, sd, eta', r, hfit, hrow, hpos, he1, he2, i, hi, hmax, -⟩ := C101_acquired ℓ hℓ hd hd2 henv hw hlen h
  obtain rfl : eta' = eta := (show IsLeast {v | v ∈ (cs.map Config.vector).map f} eta' from ⟨he1, fun v hv => he2 v hv⟩).unique heta
  have hc := List.mem_of_getElem? hi
  refine ⟨r, hc, fun c' hc' => ?_⟩
  have hne : cs ≠ [] := by
    rintro rfl
    obtain ⟨v, hv, -⟩ := hδ
    simp at hv
  have hdata := configs_data hd hne hw hlen
  have hpred : ∀ v : List ℝ, v.length = d → s.predict [v] = .ok ([mu v], [sd v]) := fun v hv => by
    rw [hrow [v] (by simp) (by simpa using hv)]; rfl
  have hcov : ∀ c ∈ (acqDrawer.draw r nCandidates.toNat).1, |mu c.vector - f c.vector| ≤ B * sd c.vector := fun c hc =>
    (C179_cover (fun Z t => (matern_unit (hℓ Z t) d).1) hdata hfit hf hXR (hR _ _ c hc) (hpred _ (hd2 _ _ c hc))).trans
      (mul_le_mul_of_nonneg_right hB (hpos _ (hd2 _ _ c hc)).le)
  have hle := not_lt.1 (hmax c' hc')
  have hmean : ∀ q ∈ (acqDrawer.draw r nCandidates.toNat).1, acqMeaning true eta' (mu q.vector) (sd q.vector) (.ei eps) = eiValue eta' eps (mu q.vector) (sd q.vector) :=
    fun q hq => (C36_expectation eta' eps (mu q.vector) (hpos _ (hd2 _ _ q hq))).symm
  dsimp only at hle
  rw [hmean c hc, hmean c' hc'] at hle
  have hσ := hpos _ (hd2 _ _ c hc)
  have h1 := (le_max_left _ _).trans (C181_bounds eta' eps (hpos _ (hd2 _ _ c' hc')) hB0 (hcov c' hc')).1
  have h2 := (C181_bounds eta' eps hσ hB0 (hcov c hc)).2
  obtain ⟨v, hv, hvd⟩ := hδ
  have hnear := C175_matern ℓ hℓ hdata hfit (hpred _ (hd2 _ _ c hc)) hv hl
  have hl0 : 0 < l := hl ▸ hℓ _ _
  have hsp := spread_pos hdata.targets_ne
  have hmono : √(3 * (rowDistance (standardised d (cs.map Config.vector) c.vector) (standardised d (cs.map Config.vector) v) / l) ^ 2 + 1 / 10 ^ 8)
      ≤ √(3 * (δ / l) ^ 2 + 1 / 10 ^ 8) := by
    have h0 : 0 ≤ rowDistance (standardised d (cs.map Config.vector) c.vector) (standardised d (cs.map Config.vector) v) := Real.sqrt_nonneg _
    apply Real.sqrt_le_sqrt
    gcongr
  have hσ' := mul_le_mul_of_nonneg_right (hnear.trans (mul_le_mul_of_nonneg_left hmono hsp.le)) (gain_pos B).le
  have hfac : 0 ≤ 1 + B / gain (-B) := by
    have := div_nonneg hB0 (gain_pos (-B)).le
    linarith
  exact h1.trans (mul_le_mul_of_nonneg_left (hle.trans (by linarith)) hfac)

/-- all but `card N` elements repeat the class of an earlier one -/
theorem many_repeats {N : Type} [Fintype N] (cell : ℕ → N) {a n k : Nat} (h : Fintype.card N + k ≤ n - a) :
    ∃ T : Finset ℕ, k ≤ T.card ∧ ∀ j ∈ T, a ≤ j ∧ j < n ∧ ∃ i < j, cell i = cell j := by
  classical
  refine ⟨(Finset.Ico a n).filter fun j => ∃ i < j, cell i = cell j, ?_, fun j hj => ?_⟩
  · have hsum := Finset.card_filter_add_card_filter_not (s := Finset.Ico a n) fun j => ∃ i < j, cell i = cell j
    have hle : ((Finset.Ico a n).filter fun j => ¬ ∃ i < j, cell i = cell j).card ≤ Fintype.card N := by
      refine Finset.card_le_card_of_injOn cell (fun _ _ => Finset.mem_univ _) fun i hi j hj hij => ?_
      have hi := (Finset.mem_filter.1 (Finset.mem_coe.1 hi)).2
      have hj := (Finset.mem_filter.1 (Finset.mem_coe.1 hj)).2
      rcases lt_trichotomy i j with h | h | h
      · exact absurd ⟨i, h, hij⟩ hj
      · exact h
      · exact absurd ⟨j, h, hij.symm⟩ hi
    rw [Nat.card_Ico] at hsum
    omega
  · obtain ⟨h1, h2⟩ := Finset.mem_filter.1 hj
    obtain ⟨h3, h4⟩ := Finset.mem_Ico.1 h1
    exact ⟨h3, h4, h2⟩

/-- improvements add up -/
theorem improvements_sum {eta x : ℕ → ℝ} {a n : Nat} (han : a ≤ n) (h : ∀ j, a ≤ j → j < n → eta (j + 1) = min (eta j) (x j)) :
    ∑ j ∈ Finset.Ico a n, max (eta j - x j) 0 = eta a - eta n := by
  induction n, han using Nat.le_induction with
  | base => simp
  | succ n hn ih =>
    rw [Finset.sum_Ico_succ_top hn, ih fun j h1 h2 => h j h1 (by omega), h n hn (by omega)]
    rcases le_total (eta n) (x n) with hx | hx
    · rw [min_eq_left hx, max_eq_right (by linarith)]; ring
    · rw [min_eq_right hx, max_eq_left (by linarith)]; ring

/-- of a sequence of more than `M ^ d + k` points in the unit cube one is close to an earlier one and improves upon all earlier ones by at most `D / k` -/
theorem repeat_improvement {d M k a n : Nat} {cs : List (Config ℝ)} {f : List ℝ → ℝ} {R : Set (List ℝ)} {D : ℝ} (hlen : cs.length = n) (hvec : ∀ c ∈ cs, c.vector ∈ R)
    (hcube : ∀ v ∈ R, v.length = d ∧ ∀ x ∈ v, 0 ≤ x ∧ x ≤ 1) (hD : ∀ u ∈ R, ∀ v ∈ R, f u - f v ≤ D) (hip1 : 1 ≤ a) (hM : 1 ≤ M) (hk : 1 ≤ k) (hn : a + M ^ d + k ≤ n)
    {X : Nat → List (List ℝ)} (hX : ∀ j, X j = (cs.take j).map Config.vector) :
    ∃ (j : Nat) (c : Config ℝ) (eta : ℝ), a ≤ j ∧ j < n ∧ cs[j]? = some c ∧ IsLeast {v | v ∈ (X j).map f} eta ∧ max (eta - f c.vector) 0 ≤ D / k ∧
      ∃ q ∈ X j, ∀ k < d, |c.vector.getD k 0 - q.getD k 0| ≤ 1 / M := by
  obtain ⟨T, hT, hTj⟩ := many_repeats (fun i => cellOf d hM ((cs[i]?.map Config.vector).getD [])) (a := a) (n := n) (k := k) (by simp; omega)
  -- the best value of the first `j` points
  have hleast : ∀ j, ∃ eta, 1 ≤ j → IsLeast {v | v ∈ (X j).map f} eta := by
    intro j
    by_cases hj : 1 ≤ j
    · have hne : ((X j).map f) ≠ [] := by
        intro h0
        have := congrArg List.length h0
        simp only [hX, List.length_map, List.length_take, hlen, List.length_nil] at this
        omega
      obtain ⟨eta, h1, h2⟩ := Set.exists_min_image {v | v ∈ (X j).map f} id (List.finite_toSet _) (List.exists_mem_of_ne_nil _ hne)
      exact ⟨eta, fun _ => ⟨h1, fun v hv => h2 v hv⟩⟩
    · exact ⟨0, fun h => absurd h hj⟩
  choose eta heta using hleast
  obtain ⟨x, hx⟩ : ∃ x : ℕ → ℝ, x = fun j => f ((cs[j]?.map Config.vector).getD []) := ⟨_, rfl⟩
  have hstep : ∀ j, a ≤ j → j < n → eta (j + 1) = min (eta j) (x j) := by
    intro j hj hjn
    refine (heta (j + 1) (by omega)).unique ?_
    have hmem : ∀ v, v ∈ (X (j + 1)).map f ↔ v ∈ (X j).map f ∨ v = x j := by
      intro v
      rw [hX (j + 1), hX j, List.take_add_one, List.map_append, List.map_append, List.mem_append, hx]
      have : cs[j]? = some (cs[j]'(by omega)) := List.getElem?_eq_getElem _
      have hval : (cs[j]?.map Config.vector).getD [] = (cs[j]'(by omega)).vector := by rw [this]; rfl
      dsimp only
      rw [hval, this]
      simp
    have hj' := heta j (by omega)
    refine ⟨?_, fun v hv => ?_⟩
    · rw [Set.mem_ofPred_eq, hmem]
      rcases min_choice (eta j) (x j) with h | h
      · rw [h]; exact .inl hj'.1
      · rw [h]; exact .inr rfl
    · rcases (hmem v).1 hv with h | rfl
      · exact (min_le_left _ _).trans (hj'.2 h)
      · exact min_le_right _ _
  have hsum := improvements_sum (by omega) hstep
  have hin : ∀ j, 1 ≤ j → ∃ u ∈ R, f u = eta j := by
    intro j hj
    obtain ⟨u, hu, he⟩ := List.mem_map.1 (heta j hj).1
    rw [hX] at hu
    obtain ⟨c, hc, rfl⟩ := List.mem_map.1 hu
    exact ⟨_, hvec c (List.mem_of_mem_take hc), he⟩
  have hDsum : ∑ j ∈ T, max (eta j - x j) 0 ≤ D := by
    have hsub : T ⊆ Finset.Ico a n := fun j hj => Finset.mem_Ico.2 ⟨(hTj j hj).1, (hTj j hj).2.1⟩
    refine (Finset.sum_le_sum_of_subset_of_nonneg hsub fun j _ _ => le_max_right _ _).trans ?_
    rw [hsum]
    obtain ⟨u, hu, e1⟩ := hin a hip1
    obtain ⟨v, hv, e2⟩ := hin n (by omega)
    rw [← e1, ← e2]
    exact hD u hu v hv
  have hD0 : 0 ≤ D := (Finset.sum_nonneg fun j _ => le_max_right _ _).trans hDsum
  have hk0 : (0 : ℝ) < k := by exact_mod_cast hk
  obtain ⟨j, hjT, hjD⟩ := Finset.exists_le_of_sum_le (s := T) (f := fun j => max (eta j - x j) 0) (g := fun _ => D / k)
    (Finset.card_pos.1 (by omega)) (by
      rw [Finset.sum_const, nsmul_eq_mul]
      refine hDsum.trans ?_
      have : (k : ℝ) ≤ T.card := by exact_mod_cast hT
      rw [mul_div_assoc', le_div_iff₀ hk0]
      nlinarith)
  obtain ⟨hj1, hj2, i, hij, hcell⟩ := hTj j hjT
  have hcj : cs[j]? = some (cs[j]'(by omega)) := List.getElem?_eq_getElem _
  have hci : cs[i]? = some (cs[i]'(by omega)) := List.getElem?_eq_getElem _
  obtain ⟨c, hc⟩ : ∃ c, c = cs[j]'(by omega) := ⟨_, rfl⟩
  obtain ⟨q, hq⟩ : ∃ q, q = cs[i]'(by omega) := ⟨_, rfl⟩
  rw [← hc] at hcj
  rw [← hq] at hci
  have hxj : x j = f c.vector := by rw [hx]; simp [hcj]
  have hcR := hvec c (List.mem_of_getElem? hcj)
  have hqR := hvec q (List.mem_of_getElem? hci)
  rw [hcj, hci] at hcell
  have hclose := cellOf_close (hcube _ hqR).2 (hcube _ hcR).2 hcell
  have hqX : q.vector ∈ X j := by
    rw [hX]
    refine List.mem_map_of_mem ?_
    rw [List.mem_take_iff_getElem]
    exact ⟨i, by omega, hq.symm⟩
  exact ⟨j, c, eta j, hj1, hj2, hcj, heta j (by omega), by rw [← hxj]; exact hjD, q.vector, hqX, hclose⟩

/-- **C181** How good a Bayesian optimisation with expected improvement becomes: if it has acquired `M ^ d + k` points in the unit cube after its initial design and the values of the objective
differ by at most `D`, then its incumbent is worse than the best candidate of some step by at most `eps` plus `1 + B / gain (-B)` times `D / k + gain B · Y · √(3 (√d / (M w L))² + 1e-8)`.
`w`, `L` and `Y` bound the standard deviations of the columns, the length scales and the standard deviations of the values of all steps. -/
theorem C181_run (ℓ : List (List ℝ) → List ℝ → ℝ) (hℓ : ∀ Z t, 0 < ℓ Z t) {d : Nat} (hd : 1 ≤ d) {eps B : ℝ} (heps : 0 ≤ eps)
    {initialPoints : Int} (hip : 1 ≤ initialPoints) {names : List String} {drawer acqDrawer : Drawer (Config ℝ) S} {nCandidates : Int}
    {R : Set (List ℝ)} (hcube : ∀ v ∈ R, v.length = d ∧ ∀ x ∈ v, 0 ≤ x ∧ x ≤ 1)
    (hd1 : ∀ s n, ∀ c ∈ (drawer.draw s n).1, c.vector ∈ R) (hd2 : ∀ s n, ∀ c ∈ (acqDrawer.draw s n).1, c.vector ∈ R)
    {env : BOEnv (Config ℝ) ℝ GpSurrogate S} {m : GpSurrogate}
    (henv : gpSampler (fun Z t => matern (ℓ Z t)) (.ei eps) true initialPoints names drawer acqDrawer nCandidates = .ok (env, m))
    {o : Objective (Config ℝ) ℝ} {f : List ℝ → ℝ} (ho : ∀ c, o.value c = f c.vector) {D : ℝ} (hD : ∀ u ∈ R, ∀ v ∈ R, f u - f v ≤ D) (r : S) {n M k : Nat}
    (hM : 1 ≤ M) (hk : 1 ≤ k) (hn : initialPoints.toNat + M ^ d + k ≤ n)
    {s : BOState (Config ℝ) ℝ GpSurrogate S} (hs : boSample o env (freshBO r m) n = (s, none))
    {X : Nat → List (List ℝ)} {y : Nat → List ℝ} (hX : ∀ j, X j = (s.configs.take j).map Config.vector) (hy : ∀ j, y j = (X j).map f)
    (hrep : ∀ j, initialPoints.toNat ≤ j → j < n → Representable (chosenKernel (fun Z t => matern (ℓ Z t)) d (X j) (y j)) d (X j) (y j) f R B)
    {w L Y : ℝ} (hw0 : 0 < w) (hL0 : 0 < L) (hw : ∀ j, initialPoints.toNat ≤ j → j < n → ∀ k < d, w ≤ spread ((X j).map fun q => q.getD k 0))
    (hL : ∀ j, initialPoints.toNat ≤ j → j < n → L ≤ ℓ ((X j).map (standardised d (X j))) ((y j).map fun v => (v - targetMean (y j)) / spread (y j)))
    (hY : ∀ j, initialPoints.toNat ≤ j → j < n → spread (y j) ≤ Y) :
    ∃ (j : Nat) (c best : Config ℝ) (v : ℝ) (r' : S), initialPoints.toNat ≤ j ∧ j < n ∧ s.configs[j]? = some c ∧ c ∈ (acqDrawer.draw r' nCandidates.toNat).1 ∧
      incumbent true s = .ok (some best, some v) ∧
      ∀ c' ∈ (acqDrawer.draw r' nCandidates.toNat).1,
        v ≤ o.value c' + eps + (1 + B / gain (-B)) * (D / k + Y * √(3 * (√d * (1 / M / w) / L) ^ 2 + 1 / 10 ^ 8) * gain B) := by
  obtain ⟨hlen, e2, hacq, hvec⟩ := gpRun_points hip hd1 hd2 henv r (by omega) hs
  obtain ⟨j, c, eta, hj1, hj2, hcj, heta, himp, q, hqX, hclose⟩ := repeat_improvement hlen hvec hcube hD (by omega) hM hk hn hX
  have hya : (s.configs.take j).map o.value = (X j).map f := by
    rw [hX, List.map_map]
    exact List.map_congr_left fun c _ => ho c
  have hA := hacq j c hj1 hcj
  rw [hya] at hA
  have htk : ∀ c ∈ s.configs.take j, c.vector.length = d := fun c hc => (hcube _ (hvec c (List.mem_of_mem_take hc))).1
  have hXne : X j ≠ [] := List.ne_nil_of_mem hqX
  have hRj := hrep j hj1 hj2
  have hwj := hw j hj1 hj2
  have hLj := hL j hj1 hj2
  have hYj := hY j hj1 hj2
  rw [hy] at hRj hLj hYj
  obtain ⟨r', hcm, hall⟩ := C181_certificate ℓ hℓ hd (fun s n c hc => (hcube _ (hd2 s n c hc)).1) henv htk (hX j) hA hRj
    (fun v hv => by rw [hX] at hv; obtain ⟨c, hc, rfl⟩ := List.mem_map.1 hv; exact hvec c (List.mem_of_mem_take hc)) hd2 rfl
    ⟨q, hqX, standardised_close hw0 hclose hwj⟩ heta
  have hys : s.ys ≠ [] := by
    rw [e2]
    intro h0
    have := congrArg List.length h0
    rw [List.length_map, hlen, List.length_nil] at this
    omega
  obtain ⟨b, best, v, hinc, hb1, hb2, hb3, -⟩ := (C21_incumbent true s (by rw [e2, List.length_map])).2 hys
  refine ⟨j, c, best, v, r', hj1, hj2, hcj, hcm, hinc, fun c' hc' => ?_⟩
  have hv : v ≤ eta := by
    have hmem := heta.1
    rw [Set.mem_ofPred_eq, ← hya] at hmem
    have := hb3 eta (by rw [e2]; exact List.mem_of_mem_take (by rw [← List.map_take]; exact hmem))
    simpa [Better] using this
  have hcert := hall c' hc'
  have hB0 : 0 ≤ B := by
    obtain ⟨_, _, _, -, h⟩ := hRj
    exact (Real.sqrt_nonneg _).trans h
  have hfac : 0 ≤ 1 + B / gain (-B) := by
    have := div_nonneg hB0 (gain_pos (-B)).le
    linarith
  have hsp := spread_pos (y := (X j).map f) (by simpa using hXne)
  have hM0 : (0 : ℝ) < M := by exact_mod_cast hM
  have hmono : √(3 * (√d * (1 / M / w) / ℓ ((X j).map (standardised d (X j))) (((X j).map f).map fun v => (v - targetMean ((X j).map f)) / spread ((X j).map f))) ^ 2 + 1 / 10 ^ 8)
      ≤ √(3 * (√d * (1 / M / w) / L) ^ 2 + 1 / 10 ^ 8) := by
    apply Real.sqrt_le_sqrt
    have h0 : 0 ≤ √(d : ℝ) * (1 / M / w) := by positivity
    have := pow_le_pow_left₀ (div_nonneg h0 (hL0.le.trans hLj)) (div_le_div_of_nonneg_left h0 hL0 hLj) 2
    linarith
  have h1 := mul_le_mul_of_nonneg_right (mul_le_mul hYj hmono (Real.sqrt_nonneg _) (hsp.le.trans hYj)) (gain_pos B).le
  have h2 : max (eta - eps - f c.vector) 0 ≤ D / k := by
    exact le_trans (max_le_max (by linarith) le_rfl) himp
  have h3 := mul_le_mul_of_nonneg_left (add_le_add h2 h1) hfac
  rw [ho]
  linarith

/-- the value 0 was found so far, mean 0.1 and standard deviation 0.1 are predicted and the truth is within one standard deviation: expected improvement is at most the true improvement plus a
tenth of `gain 1` -/
example {f : ℝ} (h : |1 / 10 - f| ≤ 1 / 10) : eiValue 0 0 (1 / 10) (1 / 10) ≤ 1 / 10 * gain 1 := by
  have := (C181_bounds 0 0 (m := 1 / 10) (f := f) (σ := 1 / 10) (B := 1) (by norm_num) zero_le_one (by simpa using h)).2
  have h0 := (abs_le.1 h).2
  rw [max_eq_right (by linarith)] at this
  linarith

end PyPDP
