/-
C177: how fast acquisition values can change, and what searching among finitely many candidates costs.
-/
import Verif.Props.AcquisitionSigma
import Verif.Props.BoGp
import Verif.Props.GpSmooth

namespace PyPDP
open Spec

/-- **C177** the lower confidence bound changes at most as much as the mean plus `|tau|` times as much as the standard deviation. -/
theorem C177_lcb (minimize : Bool) (tau m m' σ σ' : ℝ) : |lcbValue minimize tau m σ - lcbValue minimize tau m' σ'| ≤ |m - m'| + |tau| * |σ - σ'| := by
  rw [← abs_mul]
  cases minimize
  · have : lcbValue false tau m σ - lcbValue false tau m' σ' = (m - m') + tau * (σ - σ') := by simp [lcbValue]; ring
    rw [this]
    exact abs_add_le _ _
  · have : lcbValue true tau m σ - lcbValue true tau m' σ' = -(m - m') + tau * (σ - σ') := by simp [lcbValue]; ring
    rw [this]
    refine (abs_add_le _ _).trans ?_
    rw [abs_neg]

theorem normPdf_le (z : ℝ) : normPdf z ≤ 1 / √(2 * Real.pi) := by
  unfold normPdf ProbabilityTheory.gaussianPDFReal
  have : Real.exp (-(z - 0) ^ 2 / (2 * ((1 : NNReal) : ℝ))) ≤ 1 := Real.exp_le_one_iff.2 (by
    have := sq_nonneg (z - 0)
    rw [NNReal.coe_one, mul_one, neg_div]
    linarith)
  have h0 : (0 : ℝ) ≤ (√(2 * Real.pi * ((1 : NNReal) : ℝ)))⁻¹ := by positivity
  refine (mul_le_of_le_one_right h0 this).trans_eq ?_
  rw [NNReal.coe_one, mul_one, one_div]

/-- **C177** the expected improvement changes at most as much as the mean plus `1 / √(2π)` times as much as the standard deviation, as long as that is positive. -/
theorem C177_ei (eta eps m m' : ℝ) {σ σ' : ℝ} (h : 0 < σ) (h' : 0 < σ') :
    |eiValue eta eps m σ - eiValue eta eps m' σ'| ≤ |m - m'| + |σ - σ'| / √(2 * Real.pi) := by
  have key : ∀ {m m' σ σ' : ℝ}, 0 < σ → 0 < σ' → eiValue eta eps m σ - eiValue eta eps m' σ' ≤ |m - m'| + |σ - σ'| / √(2 * Real.pi) := by
    intro m m' σ σ' h h'
    rw [eiValue, eiValue, if_neg h.ne', if_neg h'.ne']
    dsimp only
    obtain ⟨z, hz⟩ : ∃ z, z = (eta - m - eps) / σ := ⟨_, rfl⟩
    obtain ⟨u, hu⟩ : ∃ u, u = (eta - m' - eps) / σ' := ⟨_, rfl⟩
    have ez : eta - m - eps = σ * z := by rw [hz]; field_simp
    have eu : eta - m' - eps = σ' * u := by rw [hu]; field_simp
    rw [← hz, ← hu]
    have ht := mul_le_mul_of_nonneg_left (improvement_tangent z u) h'.le
    have h1 : σ * (z * normCdf z + normPdf z) - σ' * (u * normCdf u + normPdf u) ≤ (m' - m) * normCdf z + (σ - σ') * normPdf z := by
      have : (m' - m) * normCdf z = (σ * z - σ' * u) * normCdf z := by rw [← ez, ← eu]; ring
      rw [this]
      nlinarith
    have h2 : (m' - m) * normCdf z ≤ |m - m'| := by
      have a := le_abs_self (m' - m)
      rw [abs_sub_comm] at a
      calc (m' - m) * normCdf z ≤ |m - m'| * normCdf z := mul_le_mul_of_nonneg_right a (normCdf_pos z).le
        _ ≤ |m - m'| := mul_le_of_le_one_right (abs_nonneg _) (normCdf_le_one z)
    have h3 : (σ - σ') * normPdf z ≤ |σ - σ'| / √(2 * Real.pi) := by
      calc (σ - σ') * normPdf z ≤ |σ - σ'| * normPdf z := mul_le_mul_of_nonneg_right (le_abs_self _) (normPdf_pos z).le
        _ ≤ |σ - σ'| * (1 / √(2 * Real.pi)) := mul_le_mul_of_nonneg_left (normPdf_le z) (abs_nonneg _)
        _ = _ := by ring
    linarith
  rw [abs_le]
  have k1 := key (m := m) (m' := m') h h'
  have k2 := key (m := m') (m' := m) h' h
  rw [abs_sub_comm m' m, abs_sub_comm σ' σ] at k2
  constructor <;> linarith

/-- the distribution function of the normal distribution rises at most with slope `1 / √(2π)` -/
theorem normCdf_slope {z w : ℝ} (h : z ≤ w) : normCdf w - normCdf z ≤ (w - z) / √(2 * Real.pi) := by
  have e : normCdf w - normCdf z = (ProbabilityTheory.gaussianReal 0 1).real (Set.Ioc z w) := by
    rw [normCdf_eq, normCdf_eq, ← Set.Iic_union_Ioc_eq_Iic h,
      MeasureTheory.measureReal_union (by rw [Set.disjoint_left]; intro t h1 h2; exact absurd h2.1 (not_lt.2 h1)) measurableSet_Ioc]
    ring
  rw [e, MeasureTheory.measureReal_def, ProbabilityTheory.gaussianReal_apply 0 (by norm_num)]
  have hle : ∫⁻ x in Set.Ioc z w, ProbabilityTheory.gaussianPDF 0 1 x ≤ ENNReal.ofReal ((w - z) / √(2 * Real.pi)) := by
    have h1 : ∫⁻ x in Set.Ioc z w, ProbabilityTheory.gaussianPDF 0 1 x ≤ ∫⁻ _ in Set.Ioc z w, ENNReal.ofReal (1 / √(2 * Real.pi)) :=
      MeasureTheory.lintegral_mono fun x => ENNReal.ofReal_le_ofReal (normPdf_le x)
    refine h1.trans ?_
    rw [MeasureTheory.setLIntegral_const, Real.volume_Ioc, ← ENNReal.ofReal_mul (by positivity)]
    apply ENNReal.ofReal_le_ofReal
    rw [one_div, div_eq_mul_inv, mul_comm]
  exact ENNReal.toReal_le_of_le_ofReal (div_nonneg (by linarith) (Real.sqrt_nonneg _)) hle

/-- **C177** the probability of improvement changes with the mean at most with slope `1 / (sigma √(2π))`: the more certain the prediction, the steeper. -/
theorem C177_pi (minimize : Bool) (eta eps m m' : ℝ) {σ : ℝ} (h : 0 < σ) :
    |piValue minimize eta eps m σ - piValue minimize eta eps m' σ| ≤ |m - m'| / (σ * √(2 * Real.pi)) := by
  have key : ∀ z w : ℝ, |normCdf z - normCdf w| ≤ |z - w| / √(2 * Real.pi) := by
    have mono : ∀ {z w : ℝ}, z ≤ w → |normCdf z - normCdf w| ≤ |z - w| / √(2 * Real.pi) := by
      intro z w hzw
      have hm : normCdf z ≤ normCdf w := ProbabilityTheory.monotone_cdf _ hzw
      rw [abs_sub_comm, abs_of_nonneg (sub_nonneg.2 hm), abs_sub_comm z w, abs_of_nonneg (sub_nonneg.2 hzw)]
      exact normCdf_slope hzw
    intro z w
    rcases le_total z w with hzw | hzw
    · exact mono hzw
    · rw [abs_sub_comm, abs_sub_comm z w]
      exact mono hzw
  have hfin : ∀ a b : ℝ, |a - b| = |m - m'| → |normCdf (a / σ) - normCdf (b / σ)| ≤ |m - m'| / (σ * √(2 * Real.pi)) := by
    intro a b hab
    refine (key _ _).trans_eq ?_
    rw [← sub_div, abs_div, abs_of_pos h, hab, div_div]
  cases minimize
  · simp only [piValue, if_neg h.ne', Bool.false_eq_true, if_false]
    exact hfin _ _ (by congr 1; ring)
  · simp only [piValue, if_neg h.ne', if_true]
    exact hfin _ _ (by rw [abs_sub_comm]; congr 1; ring)

/-- **C177** at `sigma = 0` expected improvement and probability of improvement do jump: with a mean that is certainly better than the incumbent's value, however small a positive standard deviation is,
the improvement is worth at least its size (and the probability at least one half), but without any it is worth nothing. -/
theorem C177_jump {eta eps m : ℝ} (h : m < eta - eps) :
    (∀ σ, 0 < σ → eta - eps - m ≤ eiValue eta eps m σ ∧ 1 / 2 ≤ piValue true eta eps m σ) ∧ eiValue eta eps m 0 = 0 ∧ piValue true eta eps m 0 = 0 := by
  refine ⟨fun σ hσ => ⟨?_, ?_⟩, C36_zero_sigma eta eps m, (C37_range true eta eps m 0).2.2⟩
  · have := (C126_ei_bounds eta eps m hσ).1
    have := le_max_left (eta - m - eps) 0
    linarith
  · simp only [piValue, if_neg hσ.ne', if_true]
    rw [← normCdf_zero]
    exact ProbabilityTheory.monotone_cdf _ (div_nonneg (by linarith) hσ.le)

/-- how much the values of an acquisition function can change per unit of standard deviation (the probability of improvement can change by any amount) -/
noncomputable def Spec.sigmaSlope : AcqKind → Option ℝ
  | .ei _ => some (1 / √(2 * Real.pi))
  | .pi _ => none
  | .lcb tau => some |tau|

/-- **C177** what is lost by looking for the optimum of the acquisition function among random candidates: the surrogate being a Gaussian process with its default kernel, fitted to any data, and the
acquisition function expected improvement or a confidence bound, `get_optimum` returns a candidate whose value is at most `spread · (10⁴ √n + b) · √3 D / ℓ` smaller than that of any
configuration that has a candidate within the standardised distance `D`, where `b` is `1 / √(2π)` or `|tau|`. -/
theorem C177_candidates {S : Type} (ℓ : List (List ℝ) → List ℝ → ℝ) (hℓ : ∀ Z t, 0 < ℓ Z t) {d : Nat} {X : List (List ℝ)} {y : List ℝ}
    (h : TrainingData d X y) {s s' : GpSurrogate} (hs : s.fit (fun Z t => matern (ℓ Z t)) X y = (s', .ok ())) {l : ℝ}
    (hl : l = ℓ (X.map (standardised d X)) (y.map fun v => (v - targetMean y) / spread y)) {kind : AcqKind} {b : ℝ} (hb : sigmaSlope kind = some b)
    (minimize : Bool) (eta : Option ℝ) (names : List String) (dr : Drawer (Config ℝ) S) {n : Int} (hn : 2 ≤ n) (rng : S)
    (hdraw : ∀ c ∈ (dr.draw rng n.toNat).1, c.vector.length = d) :
    ∃ c, (getOptimum names dr n (gpAcq kind minimize s' eta) rng).2 = .ok (.config c) ∧ c ∈ (dr.draw rng n.toNat).1 ∧
      ∀ (c' : Config ℝ) (D : ℝ), c'.vector.length = d →
        (∃ q ∈ (dr.draw rng n.toNat).1, rowDistance (standardised d X c'.vector) (standardised d X q.vector) ≤ D) →
        gpAcq kind minimize s' eta c' - spread y * (10 ^ 4 * √X.length + b) * (√3 * (D / l)) ≤ gpAcq kind minimize s' eta c := by
  obtain ⟨c, hopt, i, hi, hmax, -⟩ := C39_best_partial names dr hn (gpAcq kind minimize s' eta) rng
  refine ⟨c, by rw [hopt], List.mem_of_getElem? hi, fun c' D hc' ⟨q, hq, hD⟩ => ?_⟩
  obtain ⟨s'', hfit, -, mu, sd, hrow, -, hall⟩ := C99_default ℓ hℓ h
  have hs' : s' = s'' := by
    have e1 := fit_ok (fun Z t => (matern_unit (hℓ Z t) d).1) h s
    have e2 := fit_ok (fun Z t => (matern_unit (hℓ Z t) d).1) h GpSurrogate.new
    exact (Prod.mk.inj (hs.symm.trans (e1.trans (e2.symm.trans hfit)))).1
  subst hs'
  have hpred : ∀ r : List ℝ, r.length = d → s'.predict [r] = .ok ([mu r], [sd r]) := fun r hr => by
    rw [hrow [r] (by simp) (by simpa using hr)]; rfl
  have hval : ∀ c : Config ℝ, c.vector.length = d → gpAcq kind minimize s' eta c = kind.value minimize eta (mu c.vector) (sd c.vector) := fun c hc => by
    unfold gpAcq
    rw [hpred _ hc]
  obtain ⟨hσ, hm⟩ := C176_matern ℓ hℓ h hs (hpred _ hc') (hpred _ (hdraw q hq)) hl hD
  have hle : gpAcq kind minimize s' eta q ≤ gpAcq kind minimize s' eta c := not_lt.1 (by simpa using hmax q hq)
  refine le_trans ?_ hle
  rw [hval _ hc', hval _ (hdraw q hq)]
  have hb0 : 0 ≤ b := by
    cases kind with
    | ei eps => obtain rfl := Option.some.inj hb; positivity
    | pi eps => cases hb
    | lcb tau => obtain rfl := Option.some.inj hb; positivity
  have hdiff : kind.value minimize eta (mu c'.vector) (sd c'.vector) - kind.value minimize eta (mu q.vector) (sd q.vector)
      ≤ |mu c'.vector - mu q.vector| + b * |sd c'.vector - sd q.vector| := by
    refine (le_abs_self _).trans ?_
    cases kind with
    | ei eps =>
      obtain rfl := Option.some.inj hb
      refine (C177_ei _ _ _ _ (hall _ hc').1 (hall _ (hdraw q hq)).1).trans_eq ?_
      ring
    | pi eps => cases hb
    | lcb tau =>
      obtain rfl := Option.some.inj hb
      exact C177_lcb _ _ _ _ _ _
  have := mul_le_mul_of_nonneg_left hσ hb0
  nlinarith

/-- incumbent value 1, predicted mean 0: the expected improvement is at least 1 for every positive standard deviation, 0 for none; means 0 and 0.1 with standard deviations 1 and 2 give values that
differ by at most 0.1 plus `1 / √(2π)` -/
example : (∀ σ : ℝ, 0 < σ → 1 ≤ eiValue 1 0 0 σ) ∧ eiValue 1 0 0 0 = 0 ∧ |eiValue 1 0 0 1 - eiValue 1 0 (1 / 10) 2| ≤ 1 / 10 + 1 / √(2 * Real.pi) := by
  obtain ⟨h1, h2, -⟩ := C177_jump (eta := 1) (eps := 0) (m := 0) (by norm_num)
  refine ⟨fun σ hσ => by simpa using (h1 σ hσ).1, h2, ?_⟩
  have h3 := C177_ei 1 0 0 (1 / 10) (σ := 1) (σ' := 2) (by norm_num) (by norm_num)
  norm_num at h3 ⊢
  exact h3

/-- points 0 and 1 with targets 0 and 2, length scale 10⁶, two candidates at 1/4 and 3/4: the acquired one is at most `1/25` worse than the configuration at 1/2
(standardised distance 1/2) -/
example {s s' : GpSurrogate} (hs : s.fit (fun _ _ => matern (10 ^ 6)) [[0], [1]] [0, 2] = (s', .ok ())) {S : Type} (dr : Drawer (Config ℝ) S) (rng : S) {c1 c2 c' : Config ℝ}
    (h1 : c1.vector = [1 / 4]) (h2 : c2.vector = [3 / 4]) (h' : c'.vector = [1 / 2]) (hd : (dr.draw rng 2).1 = [c1, c2]) :
    ∃ c, (getOptimum ["x"] dr 2 (gpAcq (.lcb 1) true s' none) rng).2 = .ok (.config c) ∧ (c = c1 ∨ c = c2) ∧
      gpAcq (.lcb 1) true s' none c' - 1 / 25 ≤ gpAcq (.lcb 1) true s' none c := by
  obtain ⟨c, ho, hm, hall⟩ := C177_candidates (fun _ _ => 10 ^ 6) (fun _ _ => by norm_num) exGp_data.1 hs rfl (kind := .lcb 1) rfl true none ["x"] dr (n := 2) le_rfl rng (by
    intro c hc
    change c ∈ (dr.draw rng 2).1 at hc
    rw [hd] at hc
    simp only [List.mem_cons, List.not_mem_nil, or_false] at hc
    rcases hc with rfl | rfl
    · rw [h1]; rfl
    · rw [h2]; rfl)
  change c ∈ (dr.draw rng 2).1 at hm
  rw [hd] at hm
  refine ⟨c, ho, by simpa using hm, ?_⟩
  have hsp : spread ([0, 1] : List ℝ) = 1 / 2 := by
    unfold spread
    rw [if_neg]
    · have : squares (targetMean [0, 1]) [0, 1] / ([0, 1] : List ℝ).length = (1 / 2) ^ 2 := by norm_num [squares, targetMean]
      rw [this, Real.sqrt_sq (by norm_num)]
    · intro h
      have := h 0 (by simp) 1 (by simp)
      norm_num at this
  have hdist : rowDistance (standardised 1 [[0], [1]] [1 / 2]) (standardised 1 [[0], [1]] [1 / 4]) = 1 / 2 := by
    simp only [standardised, List.map_cons, List.map_nil, List.range_one, List.getD_cons_zero]
    rw [hsp]
    have : ((List.zipWith (fun x y : ℝ => (x - y) ^ 2) [(1 / 2 - targetMean [0, 1]) / (1 / 2)] [(1 / 4 - targetMean [0, 1]) / (1 / 2)]).sum) = (1 / 2) ^ 2 := by
      norm_num [targetMean]
    rw [rowDistance, this, Real.sqrt_sq (by norm_num)]
  have := hall c' (1 / 2) (by rw [h']; rfl) ⟨c1, by change c1 ∈ (dr.draw rng 2).1; rw [hd]; simp, by rw [h', h1]; exact hdist.le⟩
  rw [exGp_data.2] at this
  have h3 : √3 < 2 := by
    rw [Real.sqrt_lt' (by norm_num)]
    norm_num
  have h4 : √(([[0], [1]] : List (List ℝ)).length : ℝ) < 2 := by
    rw [Real.sqrt_lt' (by norm_num)]
    norm_num
  have h5 : (1 : ℝ) * (10 ^ 4 * √(([[0], [1]] : List (List ℝ)).length : ℝ) + |1|) * (√3 * (1 / 2 / 10 ^ 6)) ≤ 1 / 25 := by
    have h30 := Real.sqrt_nonneg 3
    rw [abs_one]
    calc (1 : ℝ) * (10 ^ 4 * √(([[0], [1]] : List (List ℝ)).length : ℝ) + 1) * (√3 * (1 / 2 / 10 ^ 6)) ≤ 1 * (10 ^ 4 * 2 + 1) * (2 * (1 / 2 / 10 ^ 6)) := by gcongr
      _ ≤ 1 / 25 := by norm_num
  linarith

end PyPDP
