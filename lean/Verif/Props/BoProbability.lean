/-
C182: what probability of improvement says about the true improvement, and how good a Bayesian optimisation with it becomes.
-/
import Verif.Props.BoImprovement

namespace PyPDP
open Spec

variable {S : Type}

/-- **C182** If the means at two points are off by at most `B` standard deviations, the first point improves upon `eta` by at most `θ`, its standard deviation is at most `(eps - θ) / (2 B)` and
its probability of an improvement by more than `eps` is at least the one of the second point, then the second point does not improve by more than `eps`. -/
theorem C182_stop (eta : ℝ) {eps θ B m f σ m' f' σ' : ℝ} (hσ : 0 < σ) (hσ' : 0 < σ') (h : |m - f| ≤ B * σ) (h' : |m' - f'| ≤ B * σ') (hθ : eta - f ≤ θ)
    (hsmall : θ + 2 * B * σ ≤ eps) (hle : piValue true eta eps m' σ' ≤ piValue true eta eps m σ) : eta - eps ≤ f' := by
  have h1 := (abs_le.1 h).1
  have h2 := (abs_le.1 h').2
  rw [piValue, piValue, if_neg hσ.ne', if_neg hσ'.ne', if_pos rfl, if_pos rfl] at hle
  have hz : (eta - m' - eps) / σ' ≤ (eta - m - eps) / σ := by
    by_contra hlt
    exact absurd (normCdf_strict (not_le.1 hlt)) (not_lt.2 hle)
  have hB : (eta - m - eps) / σ ≤ -B := by
    rw [div_le_iff₀ hσ]
    linarith
  have := (div_le_iff₀ hσ').1 (hz.trans hB)
  linarith

/-- **C182** One step of a Bayesian optimisation with probability of improvement: if the acquired point is close to an evaluated one, so that its standard deviation is small, and improves by at
most `θ < eps`, then no candidate of the step improves by more than `eps`. -/
theorem C182_certificate (ℓ : List (List ℝ) → List ℝ → ℝ) (hℓ : ∀ Z t, 0 < ℓ Z t) {d : Nat} (hd : 1 ≤ d) {eps B : ℝ}
    {initialPoints : Int} {names : List String} {drawer acqDrawer : Drawer (Config ℝ) S} {nCandidates : Int}
    (hd2 : ∀ s n, ∀ c ∈ (acqDrawer.draw s n).1, c.vector.length = d) {env : BOEnv (Config ℝ) ℝ GpSurrogate S} {m : GpSurrogate}
    (henv : gpSampler (fun Z t => matern (ℓ Z t)) (.pi eps) true initialPoints names drawer acqDrawer nCandidates = .ok (env, m))
    {cs : List (Config ℝ)} (hw : ∀ c ∈ cs, c.vector.length = d) {f : List ℝ → ℝ} {c : Config ℝ} {X : List (List ℝ)} (hX : X = cs.map Config.vector)
    (h : IsAcquired env cs (X.map f) c) {R : Set (List ℝ)}
    (hf : Representable (chosenKernel (fun Z t => matern (ℓ Z t)) d X (X.map f)) d X (X.map f) f R B) (hXR : ∀ v ∈ X, v ∈ R)
    (hR : ∀ s n, ∀ c ∈ (acqDrawer.draw s n).1, c.vector ∈ R) {l : ℝ}
    (hl : l = ℓ (X.map (standardised d X)) ((X.map f).map fun v => (v - targetMean (X.map f)) / spread (X.map f))) {δ : ℝ}
    (hδ : ∃ v ∈ X, rowDistance (standardised d X c.vector) (standardised d X v) ≤ δ) {eta θ : ℝ} (heta : IsLeast {v | v ∈ X.map f} eta)
    (hθ : eta - f c.vector ≤ θ) (hsmall : θ + 2 * B * (spread (X.map f) * √(3 * (δ / l) ^ 2 + 1 / 10 ^ 8)) ≤ eps) :
    ∃ r, c ∈ (acqDrawer.draw r nCandidates.toNat).1 ∧ ∀ c' ∈ (acqDrawer.draw r nCandidates.toNat).1, eta - eps ≤ f c'.vector := by
  subst hX
  obtain ⟨_, a, p, hf, hB⟩ := hf
  have hB0 : 0 ≤ B := (Real.sqrt_nonneg _).trans hB
  have hlen : ((cs.map Config.vector).map f).length = cs.length := by simp
  obtain ⟨s, mu, sd, eta', r, hfit, hrow, hpos, he1, he2, i, hi, hmax, -⟩ := C101_acquired ℓ hℓ hd hd2 henv hw hlen h
  obtain rfl : eta' = eta := (show IsLeast {v | v ∈ (cs.map Config.vector).map f} eta' from ⟨he1, fun v hv => he2 v hv⟩).unique heta
  have hc := List.mem_of_getElem? hi
  refine ⟨r, hc, fun c' hc' => ?_⟩
  have hne : cs ≠ [] := by
    rintro rfl
    obtain ⟨v, hv, -⟩ := hδ
    simp at hv
  have hdata := configs_data hd hne hw hlen
  have hpred : ∀ v : List ℝ, v.length = d → s.predict [v] = .ok ([mu v], [sd v]) := fun v hv => by
    rw [hrow [v] (by simp) (by simpa using hv)]; rfl
  have hcov : ∀ c ∈ (acqDrawer.draw r nCandidates.toNat).1, |mu c.vector - f c.vector| ≤ B * sd c.vector := fun c hc =>
    (C179_cover (fun Z t => (matern_unit (hℓ Z t) d).1) hdata hfit hf hXR (hR _ _ c hc) (hpred _ (hd2 _ _ c hc))).trans
      (mul_le_mul_of_nonneg_right hB (hpos _ (hd2 _ _ c hc)).le)
  have hle := not_lt.1 (hmax c' hc')
  have hmean : ∀ q ∈ (acqDrawer.draw r nCandidates.toNat).1, acqMeaning true eta' (mu q.vector) (sd q.vector) (.pi eps) = piValue true eta' eps (mu q.vector) (sd q.vector) :=
    fun q hq => (C37_minimise eta' eps (mu q.vector) (hpos _ (hd2 _ _ q hq))).symm
  dsimp only at hle
  rw [hmean c hc, hmean c' hc'] at hle
  obtain ⟨v, hv, hvd⟩ := hδ
  have hnear := C175_matern ℓ hℓ hdata hfit (hpred _ (hd2 _ _ c hc)) hv hl
  have hl0 : 0 < l := hl ▸ hℓ _ _
  have hsp := spread_pos hdata.targets_ne
  have hmono : √(3 * (rowDistance (standardised d (cs.map Config.vector) c.vector) (standardised d (cs.map Config.vector) v) / l) ^ 2 + 1 / 10 ^ 8)
      ≤ √(3 * (δ / l) ^ 2 + 1 / 10 ^ 8) := by
    have h0 : 0 ≤ rowDistance (standardised d (cs.map Config.vector) c.vector) (standardised d (cs.map Config.vector) v) := Real.sqrt_nonneg _
    apply Real.sqrt_le_sqrt
    gcongr
  have hσ := mul_le_mul_of_nonneg_left (hnear.trans (mul_le_mul_of_nonneg_left hmono hsp.le)) (by linarith : 0 ≤ 2 * B)
  exact C182_stop eta' (hpos _ (hd2 _ _ c hc)) (hpos _ (hd2 _ _ c' hc')) (hcov c hc) (hcov c' hc') hθ (by linarith) hle

/-- **C182** How good a Bayesian optimisation with probability of improvement by `eps` becomes: if it has acquired `M ^ d + k` points in the unit cube after its initial design, the values of the
objective differ by at most `D` and `D / k + 2 B Y √(3 (√d / (M w L))² + 1e-8) ≤ eps`, then its incumbent is worse than the best candidate of some step by at most `eps`. -/
theorem C182_run (ℓ : List (List ℝ) → List ℝ → ℝ) (hℓ : ∀ Z t, 0 < ℓ Z t) {d : Nat} (hd : 1 ≤ d) {eps B : ℝ}
    {initialPoints : Int} (hip : 1 ≤ initialPoints) {names : List String} {drawer acqDrawer : Drawer (Config ℝ) S} {nCandidates : Int}
    {R : Set (List ℝ)} (hcube : ∀ v ∈ R, v.length = d ∧ ∀ x ∈ v, 0 ≤ x ∧ x ≤ 1)
    (hd1 : ∀ s n, ∀ c ∈ (drawer.draw s n).1, c.vector ∈ R) (hd2 : ∀ s n, ∀ c ∈ (acqDrawer.draw s n).1, c.vector ∈ R)
    {env : BOEnv (Config ℝ) ℝ GpSurrogate S} {m : GpSurrogate}
    (henv : gpSampler (fun Z t => matern (ℓ Z t)) (.pi eps) true initialPoints names drawer acqDrawer nCandidates = .ok (env, m))
    {o : Objective (Config ℝ) ℝ} {f : List ℝ → ℝ} (ho : ∀ c, o.value c = f c.vector) {D : ℝ} (hD : ∀ u ∈ R, ∀ v ∈ R, f u - f v ≤ D) (r : S) {n M k : Nat}
    (hM : 1 ≤ M) (hk : 1 ≤ k) (hn : initialPoints.toNat + M ^ d + k ≤ n)
    {s : BOState (Config ℝ) ℝ GpSurrogate S} (hs : boSample o env (freshBO r m) n = (s, none))
    {X : Nat → List (List ℝ)} {y : Nat → List ℝ} (hX : ∀ j, X j = (s.configs.take j).map Config.vector) (hy : ∀ j, y j = (X j).map f)
    (hrep : ∀ j, initialPoints.toNat ≤ j → j < n → Representable (chosenKernel (fun Z t => matern (ℓ Z t)) d (X j) (y j)) d (X j) (y j) f R B)
    {w L Y : ℝ} (hw0 : 0 < w) (hL0 : 0 < L) (hw : ∀ j, initialPoints.toNat ≤ j → j < n → ∀ k < d, w ≤ spread ((X j).map fun q => q.getD k 0))
    (hL : ∀ j, initialPoints.toNat ≤ j → j < n → L ≤ ℓ ((X j).map (standardised d (X j))) ((y j).map fun v => (v - targetMean (y j)) / spread (y j)))
    (hY : ∀ j, initialPoints.toNat ≤ j → j < n → spread (y j) ≤ Y)
    (heps : D / k + 2 * B * (Y * √(3 * (√d * (1 / M / w) / L) ^ 2 + 1 / 10 ^ 8)) ≤ eps) :
    ∃ (j : Nat) (c best : Config ℝ) (v : ℝ) (r' : S), initialPoints.toNat ≤ j ∧ j < n ∧ s.configs[j]? = some c ∧ c ∈ (acqDrawer.draw r' nCandidates.toNat).1 ∧
      incumbent true s = .ok (some best, some v) ∧ ∀ c' ∈ (acqDrawer.draw r' nCandidates.toNat).1, v ≤ o.value c' + eps := by
  obtain ⟨hlen, e2, hacq, hvec⟩ := gpRun_points hip hd1 hd2 henv r (by omega) hs
  obtain ⟨j, c, eta, hj1, hj2, hcj, heta, himp, q, hqX, hclose⟩ := repeat_improvement hlen hvec hcube hD (by omega) hM hk hn hX
  have hya : (s.configs.take j).map o.value = (X j).map f := by
    rw [hX, List.map_map]
    exact List.map_congr_left fun c _ => ho c
  have hA := hacq j c hj1 hcj
  rw [hya] at hA
  have htk : ∀ c ∈ s.configs.take j, c.vector.length = d := fun c hc => (hcube _ (hvec c (List.mem_of_mem_take hc))).1
  have hXne : X j ≠ [] := List.ne_nil_of_mem hqX
  have hRj := hrep j hj1 hj2
  have hwj := hw j hj1 hj2
  have hLj := hL j hj1 hj2
  have hYj := hY j hj1 hj2
  rw [hy] at hRj hLj hYj
  have hB0 : 0 ≤ B := by
    obtain ⟨_, _, _, -, h⟩ := hRj
    exact (Real.sqrt_nonneg _).trans h
  have hsp := spread_pos (y := (X j).map f) (by simpa using hXne)
  have hM0 : (0 : ℝ) < M := by exact_mod_cast hM
  have hmono : √(3 * (√d * (1 / M / w) / ℓ ((X j).map (standardised d (X j))) (((X j).map f).map fun v => (v - targetMean ((X j).map f)) / spread ((X j).map f))) ^ 2 + 1 / 10 ^ 8)
      ≤ √(3 * (√d * (1 / M / w) / L) ^ 2 + 1 / 10 ^ 8) := by
    apply Real.sqrt_le_sqrt
    have h0 : 0 ≤ √(d : ℝ) * (1 / M / w) := by positivity
    have := pow_le_pow_left₀ (div_nonneg h0 (hL0.le.trans hLj)) (div_le_div_of_nonneg_left h0 hL0 hLj) 2
    linarith
  have h1 := mul_le_mul_of_nonneg_left (mul_le_mul hYj hmono (Real.sqrt_nonneg _) (hsp.le.trans hYj)) (by linarith : 0 ≤ 2 * B)
  obtain ⟨r', hcm, hall⟩ := C182_certificate ℓ hℓ hd (fun s n c hc => (hcube _ (hd2 s n c hc)).1) henv htk (hX j) hA hRj
    (fun v hv => by rw [hX] at hv; obtain ⟨c, hc, rfl⟩ := List.mem_map.1 hv; exact hvec c (List.mem_of_mem_take hc)) hd2 rfl
    ⟨q, hqX, standardised_close hw0 hclose hwj⟩ heta ((le_max_left _ _).trans himp) (by linarith)
  have hys : s.ys ≠ [] := by
    rw [e2]
    intro h0
    have := congrArg List.length h0
    rw [List.length_map, hlen, List.length_nil] at this
    omega
  obtain ⟨b, best, v, hinc, hb1, hb2, hb3, -⟩ := (C21_incumbent true s (by rw [e2, List.length_map])).2 hys
  refine ⟨j, c, best, v, r', hj1, hj2, hcj, hcm, hinc, fun c' hc' => ?_⟩
  have hv : v ≤ eta := by
    have hmem := heta.1
    rw [Set.mem_ofPred_eq, ← hya] at hmem
    have := hb3 eta (by rw [e2]; exact List.mem_of_mem_take (by rw [← List.map_take]; exact hmem))
    simpa [Better] using this
  have := hall c' hc'
  rw [ho]
  linarith

/-- **C182** The exploration parameter is needed: with `eps = 0` a point that is predicted to be as good as the incumbent and surely is can be preferred to one that improves by 1 -/
theorem C182_needs_exploration : ∃ m f σ m' f' σ' : ℝ, 0 < σ ∧ 0 < σ' ∧ |m - f| ≤ 2 * σ ∧ |m' - f'| ≤ 2 * σ' ∧ f = 0 ∧ f' = -1 ∧
    piValue true 0 0 m' σ' < piValue true 0 0 m σ := by
  refine ⟨-1 / 1000, 0, 1 / 1000, 1 / 2, -1, 1, by norm_num, by norm_num, by norm_num, by norm_num, rfl, rfl, ?_⟩
  rw [piValue, piValue, if_neg (one_ne_zero), if_neg (by norm_num : (1 / 1000 : ℝ) ≠ 0), if_pos rfl, if_pos rfl]
  exact normCdf_strict (by norm_num)

/-- best value 0 so far, `eps = 0.1`: a point with mean 0.01 and standard deviation 0.02, whose true value 0 is one standard deviation away, is chosen before one with a better mean; the other
point is no better than -0.1 -/
example {f' σ' : ℝ} (hσ' : 0 < σ') (h' : |-1 / 100 - f'| ≤ σ') (hle : piValue true 0 (1 / 10) (-1 / 100) σ' ≤ piValue true 0 (1 / 10) (1 / 100) (1 / 50)) : -1 / 10 ≤ f' := by
  have := C182_stop 0 (eps := 1 / 10) (θ := 0) (B := 1) (m := 1 / 100) (f := 0) (σ := 1 / 50) (by norm_num) hσ' (by norm_num) (by simpa using h') (by norm_num) (by norm_num) hle
  linarith

end PyPDP
