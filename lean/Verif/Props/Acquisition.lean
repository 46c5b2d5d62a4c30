/-
C36-C39: values of the acquisition functions and their optimisation.
-/
import Verif.Props.Bayes
import Mathlib.MeasureTheory.Integral.IntegralEqImproper
import Mathlib.Analysis.SpecialFunctions.Gaussian.GaussianIntegral

namespace PyPDP
open Spec ProbabilityTheory MeasureTheory Set Filter

/-- law of `mean + sigma * T` for a standard normal `T` -/
theorem gaussian_affine (mean sigma : ℝ) :
    (gaussianReal 0 1).map (fun t => mean + sigma * t) = gaussianReal mean ⟨sigma ^ 2, sq_nonneg _⟩ := by
  have h : (fun t : ℝ => mean + sigma * t) = (fun x => mean + x) ∘ (fun t => sigma * t) := rfl
  rw [h, ← Measure.map_map (by fun_prop) (by fun_prop), gaussianReal_map_const_mul, gaussianReal_map_const_add]
  simp
  rfl

theorem integral_Iic_id_gaussian (z : ℝ) : ∫ t in Iic z, t * gaussianPDFReal 0 1 t = -gaussianPDFReal 0 1 z := by
  have hd : ∀ x ∈ Iic z, HasDerivAt (fun t => -gaussianPDFReal 0 1 t) (x * gaussianPDFReal 0 1 x) x := by
    intro x _
    have e : (fun t => -gaussianPDFReal 0 1 t) = fun t => -((Real.sqrt (2 * Real.pi))⁻¹ * Real.exp (-t ^ 2 / 2)) := by
      funext t; simp [gaussianPDFReal]
    rw [e]
    have h1 : HasDerivAt (fun t : ℝ => -t ^ 2 / 2) (-x) x := by
      have := ((hasDerivAt_pow 2 x).neg).div_const 2
      refine this.congr_deriv ?_
      push_cast; ring
    have h2 := ((h1.exp).const_mul (Real.sqrt (2 * Real.pi))⁻¹).neg
    refine h2.congr_deriv ?_
    simp [gaussianPDFReal]; ring
  have hint : Integrable (fun t : ℝ => t * gaussianPDFReal 0 1 t) := by
    have h := (integrable_mul_exp_neg_mul_sq (b := 1 / 2) (by norm_num)).const_mul (Real.sqrt (2 * Real.pi))⁻¹
    refine h.congr (Eventually.of_forall fun t => ?_)
    simp only [gaussianPDFReal, NNReal.coe_one, mul_one, sub_zero]
    rw [show -(1 / 2 : ℝ) * t ^ 2 = -t ^ 2 / 2 by ring]; ring
  have hlim : Tendsto (fun t => -gaussianPDFReal 0 1 t) atBot (nhds 0) := by
    have h1 : Tendsto (fun t : ℝ => -t ^ 2 / 2) atBot atBot := by
      have : Tendsto (fun t : ℝ => t ^ 2) atBot atTop := by
        have := tendsto_pow_atTop (α := ℝ) (n := 2) (by norm_num)
        have h := this.comp tendsto_neg_atBot_atTop
        refine h.congr fun t => ?_
        simp
      have h2 := (this.atTop_div_const (r := 2) (by norm_num))
      refine (tendsto_neg_atTop_atBot.comp h2).congr fun t => ?_
      simp [neg_div]
    have h2 := ((Real.tendsto_exp_atBot.comp h1).const_mul (Real.sqrt (2 * Real.pi))⁻¹).neg
    simp only [mul_zero, neg_zero] at h2
    refine h2.congr fun t => ?_
    simp [gaussianPDFReal]
  have := integral_Iic_of_hasDerivAt_of_tendsto' hd hint.integrableOn hlim
  rw [this, sub_zero]

theorem integrable_id_std : Integrable (fun t : ℝ => t) (gaussianReal 0 1) := by
  have := (memLp_id_gaussianReal (μ := 0) (v := 1) 1).integrable (by norm_num)
  exact this

theorem integrable_pos_part (mean sigma a : ℝ) :
    Integrable (fun t : ℝ => max (a - (mean + sigma * t)) 0) (gaussianReal 0 1) := by
  have h : Integrable (fun t : ℝ => a - (mean + sigma * t)) (gaussianReal 0 1) :=
    (integrable_const a).sub ((integrable_const mean).add (integrable_id_std.const_mul sigma))
  exact h.pos_part

theorem normCdf_eq (z : ℝ) : normCdf z = (gaussianReal 0 1).real (Iic z) := cdf_eq_real _ z

theorem integral_std_pos_part (z : ℝ) : ∫ t, max (z - t) 0 ∂gaussianReal 0 1 = z * normCdf z + normPdf z := by
  have e1 : (fun t : ℝ => max (z - t) 0) = (Iic z).indicator (fun t => z - t) := by
    funext t
    by_cases h : t ∈ Iic z
    · rw [indicator_of_mem h, max_eq_left (by simpa using h)]
    · rw [indicator_of_notMem h, max_eq_right (by simp at h; linarith)]
  rw [e1, integral_indicator measurableSet_Iic, integral_sub (integrable_const z) integrable_id_std.integrableOn,
    setIntegral_const, ← normCdf_eq, smul_eq_mul]
  have e2 : ∫ t in Iic z, t ∂gaussianReal 0 1 = -normPdf z := by
    rw [normPdf, ← integral_Iic_id_gaussian]
    rw [← integral_indicator measurableSet_Iic, integral_gaussianReal_eq_integral_smul (by norm_num),
      ← integral_indicator measurableSet_Iic]
    congr 1
    funext t
    by_cases h : t ∈ Iic z
    · rw [indicator_of_mem h, indicator_of_mem h, smul_eq_mul, mul_comm]
    · rw [indicator_of_notMem h, indicator_of_notMem h, smul_zero]
  rw [e2]; ring

/-- **C36** for `sigma > 0` the value is the expectation of `max (eta - eps - Y) 0` for `Y ~ N(mean, sigma²)`. -/
theorem C36_expectation (eta eps mean : ℝ) {sigma : ℝ} (hs : 0 < sigma) :
    eiValue eta eps mean sigma = ∫ y, max (eta - eps - y) 0 ∂gaussianReal mean ⟨sigma ^ 2, sq_nonneg _⟩ := by
  rw [eiValue, if_neg hs.ne', ← gaussian_affine, integral_map (by fun_prop) (by fun_prop)]
  dsimp only
  rw [← integral_std_pos_part, ← integral_const_mul]
  congr 1
  funext t
  have hm : ∀ a : ℝ, max (sigma * a) 0 = sigma * max a 0 := fun a => by rw [mul_max_of_nonneg _ _ hs.le, mul_zero]
  rw [← hm]
  congr 1
  field_simp
  ring

/-- **C36** exactly 0 for `sigma = 0`; maximisation is refused. -/
theorem C36_zero_sigma (eta eps mean : ℝ) : eiValue eta eps mean 0 = 0 := if_pos rfl

theorem C36_no_maximisation : eiInit false = .error .notImplemented ∧ eiInit true = .ok () := ⟨rfl, rfl⟩

theorem normCdf_pos (z : ℝ) : 0 < normCdf z := by
  rw [normCdf_eq, measureReal_def]
  refine ENNReal.toReal_pos (fun h => ?_) (measure_ne_top _ _)
  have := gaussianReal_absolutelyContinuous' 0 (v := 1) (by norm_num) h
  simp at this

theorem normCdf_le_one (z : ℝ) : normCdf z ≤ 1 := cdf_le_one _ z

/-- the standardised improvement grows at least with slope `normCdf z` to the right of `z` -/
theorem improvement_slope {z w : ℝ} (h : z ≤ w) :
    z * normCdf z + normPdf z + (w - z) * normCdf z ≤ w * normCdf w + normPdf w := by
  have hi : ∀ a : ℝ, Integrable (fun t : ℝ => max (a - t) 0) (gaussianReal 0 1) := fun a => by
    simpa using integrable_pos_part 0 1 a
  have e : (w - z) * normCdf z = ∫ t, (Iic z).indicator (fun _ => w - z) t ∂gaussianReal 0 1 := by
    rw [integral_indicator measurableSet_Iic, setIntegral_const, normCdf_eq, smul_eq_mul, mul_comm]
  rw [← integral_std_pos_part, ← integral_std_pos_part, e, ← integral_add (hi z)
    ((integrable_const _).indicator measurableSet_Iic)]
  refine integral_mono ((hi z).add ((integrable_const _).indicator measurableSet_Iic)) (hi w) fun t => ?_
  by_cases ht : t ∈ Iic z
  · rw [indicator_of_mem ht]
    rw [mem_Iic] at ht
    rw [max_eq_left (by linarith), max_eq_left (by linarith)]; linarith
  · rw [indicator_of_notMem ht, add_zero]
    exact max_le_max (by linarith) le_rfl

/-- **C36** positive for `sigma > 0` (so never negative). -/
theorem C36_positive (eta eps mean : ℝ) {sigma : ℝ} (hs : 0 < sigma) : 0 < eiValue eta eps mean sigma := by
  rw [eiValue, if_neg hs.ne']
  dsimp only
  obtain ⟨z, hz⟩ : ∃ z, z = (eta - mean - eps) / sigma := ⟨_, rfl⟩
  rw [← hz]
  apply mul_pos hs
  have h1 := improvement_slope (z := z - 1) (w := z) (by linarith)
  have h2 := normCdf_pos (z - 1)
  have h3 : 0 ≤ (z - 1) * normCdf (z - 1) + normPdf (z - 1) := by
    rw [← integral_std_pos_part]
    exact integral_nonneg fun t => le_max_right _ _
  linarith

/-- **C36** a smaller predicted mean gives a strictly larger value. -/
theorem C36_strictly_decreasing (eta eps : ℝ) {sigma m m' : ℝ} (hs : 0 < sigma) (h : m < m') :
    eiValue eta eps m' sigma < eiValue eta eps m sigma := by
  rw [eiValue, eiValue, if_neg hs.ne', if_neg hs.ne']
  dsimp only
  apply mul_lt_mul_of_pos_left _ hs
  have hlt : (eta - m' - eps) / sigma < (eta - m - eps) / sigma := by
    apply div_lt_div_of_pos_right _ hs; linarith
  have h1 := improvement_slope hlt.le
  have h2 := mul_pos (sub_pos.2 hlt) (normCdf_pos ((eta - m' - eps) / sigma))
  linarith

/-- a larger exploration parameter never helps, a larger incumbent value always does -/
theorem C36_increasing_in_eta (eps mean : ℝ) {sigma eta eta' : ℝ} (hs : 0 < sigma) (h : eta < eta') :
    eiValue eta eps mean sigma < eiValue eta' eps mean sigma := by
  have e : ∀ a, eiValue a eps mean sigma = eiValue 0 eps (mean - a) sigma := fun a => by
    simp only [eiValue]; rw [show a - mean - eps = 0 - (mean - a) - eps by ring]
  rw [e, e]
  exact C36_strictly_decreasing 0 eps hs (by linarith)

/-- **C37** minimising: the probability of `Y ≤ eta - eps` for `Y ~ N(mean, sigma²)`. -/
theorem C37_minimise (eta eps mean : ℝ) {sigma : ℝ} (hs : 0 < sigma) :
    piValue true eta eps mean sigma = (gaussianReal mean ⟨sigma ^ 2, sq_nonneg _⟩).real (Iic (eta - eps)) := by
  rw [piValue, if_neg hs.ne', if_pos rfl, normCdf_eq, ← gaussian_affine, map_measureReal_apply (by fun_prop) measurableSet_Iic]
  congr 1
  ext t
  simp only [mem_Iic, mem_preimage]
  rw [le_div_iff₀ hs]
  constructor <;> intro h <;> linarith

/-- **C37** maximising: the probability of `Y ≥ eta + eps`. -/
theorem C37_maximise (eta eps mean : ℝ) {sigma : ℝ} (hs : 0 < sigma) :
    piValue false eta eps mean sigma = (gaussianReal mean ⟨sigma ^ 2, sq_nonneg _⟩).real (Ici (eta + eps)) := by
  have hneg : gaussianReal mean ⟨sigma ^ 2, sq_nonneg _⟩ = (gaussianReal 0 1).map (fun t => mean + (-sigma) * t) := by
    rw [gaussian_affine]
    congr 2
    exact (neg_sq sigma).symm
  rw [piValue, if_neg hs.ne', if_neg (by simp), normCdf_eq, hneg, map_measureReal_apply (by fun_prop) measurableSet_Ici]
  congr 1
  ext t
  simp only [mem_Iic, mem_Ici, mem_preimage]
  rw [le_div_iff₀ hs]
  constructor <;> intro h <;> linarith

/-- **C37** always a probability, and 0 for `sigma = 0`. -/
theorem C37_range (minimize : Bool) (eta eps mean sigma : ℝ) :
    0 ≤ piValue minimize eta eps mean sigma ∧ piValue minimize eta eps mean sigma ≤ 1 ∧ piValue minimize eta eps mean 0 = 0 := by
  refine ⟨?_, ?_, if_pos rfl⟩
  all_goals
    unfold piValue
    split
    · norm_num
    · split
      · first | exact (normCdf_pos _).le | exact normCdf_le_one _
      · first | exact (normCdf_pos _).le | exact normCdf_le_one _

/-- **C37** better predictions have a larger probability of improvement. -/
theorem C37_strict {sigma : ℝ} (minimize : Bool) (eta eps : ℝ) (hs : 0 < sigma) {m m' : ℝ}
    (h : if minimize then m < m' else m' < m) : piValue minimize eta eps m' sigma < piValue minimize eta eps m sigma := by
  have strict : ∀ {z w : ℝ}, z < w → normCdf z < normCdf w := by
    intro z w hzw
    rw [normCdf_eq, normCdf_eq, ← Iic_union_Ioc_eq_Iic hzw.le,
      measureReal_union (by rw [Set.disjoint_left]; intro t h1 h2; exact absurd h2.1 (not_lt.2 h1)) measurableSet_Ioc]
    have : 0 < (gaussianReal 0 1).real (Ioc z w) := by
      rw [measureReal_def]
      refine ENNReal.toReal_pos (fun h => ?_) (measure_ne_top _ _)
      have := gaussianReal_absolutelyContinuous' 0 (v := 1) (by norm_num) h
      simp at this
      linarith
    linarith
  cases minimize
  · simp only [Bool.false_eq_true, if_false] at h
    simp only [piValue, if_neg hs.ne', Bool.false_eq_true, if_false]
    exact strict (div_lt_div_of_pos_right (by linarith) hs)
  · simp only [if_true] at h
    simp only [piValue, if_neg hs.ne', if_true]
    exact strict (div_lt_div_of_pos_right (by linarith) hs)

/-- **C38** a candidate has maximal value iff its optimistic bound is best: minimal `mean - tau * sigma` when minimising, maximal
`mean + tau * sigma` when maximising. -/
theorem C38_optimistic {C K : Type} [Field K] [LinearOrder K] [IsStrictOrderedRing K] (tau : K) (mean sigma : C → K)
    (cands : List C) (c : C) :
    ((∀ d ∈ cands, lcbValue true tau (mean d) (sigma d) ≤ lcbValue true tau (mean c) (sigma c)) ↔
      ∀ d ∈ cands, mean c - tau * sigma c ≤ mean d - tau * sigma d) ∧
    ((∀ d ∈ cands, lcbValue false tau (mean d) (sigma d) ≤ lcbValue false tau (mean c) (sigma c)) ↔
      ∀ d ∈ cands, mean d + tau * sigma d ≤ mean c + tau * sigma c) := by
  constructor
  · apply forall₂_congr
    intro d _
    simp only [lcbValue, if_true]
    constructor <;> intro h <;> linarith
  · apply forall₂_congr
    intro d _
    simp [lcbValue]

section optimum
variable {C K S : Type}

/-- **C39**, partial: with at least two candidates (100 by default), `get_optimum` returns the first best of the drawn candidates,
and the random state moves on by exactly that draw. Missing: one candidate, see `C39_counterexample`. -/
theorem C39_best_partial [LinearOrder K] (names : List String) (d : Drawer C S) {n : Int} (hn : 2 ≤ n) (value : C → K) (rng : S) :
    ∃ c, getOptimum names d n value rng = ((d.draw rng n.toNat).2, .ok (.config c)) ∧
      FirstMax value (d.draw rng n.toNat).1 c := by
  have hne : (d.draw rng n.toNat).1 ≠ [] := by
    intro h
    have := d.draw_length rng n.toNat
    rw [h] at this
    simp at this
    omega
  obtain ⟨x, xs, hl⟩ := List.exists_cons_of_ne_nil hne
  have h1 : ∃ c v, pickMax names value (.many (d.draw rng n.toNat).1) = .ok (.config c, v) := by
    rw [hl]
    unfold pickMax
    dsimp only
    rw [List.map_cons]
    have gen : ∀ (l : List C) (b : Picked C × K), (∃ c, b.1 = .config c) →
        ∃ c, ((l.map fun c => (Picked.config c, value c)).foldl (fun best x => if best.2 < x.2 then x else best) b).1 = .config c := by
      intro l
      induction l with
      | nil => intro b h; simpa using h
      | cons y ys ih =>
        intro b h
        rw [List.map_cons, List.foldl_cons]
        apply ih
        split
        · exact ⟨y, rfl⟩
        · exact h
    obtain ⟨c, hc⟩ := gen xs (.config x, value x) ⟨x, rfl⟩
    refine ⟨c, ((xs.map fun c => (Picked.config c, value c)).foldl (fun best x => if best.2 < x.2 then x else best)
      (.config x, value x)).2, ?_⟩
    rw [pyMaxBy, ← hc]
  obtain ⟨c, v, hcv⟩ := h1
  have h2 : getOptimum names d n value rng = ((d.draw rng n.toNat).2, .ok (.config c)) := by
    unfold getOptimum Drawer.sampleConfiguration
    rw [if_neg (by omega)]
    dsimp only
    rw [if_neg (by omega)]
    dsimp only
    rw [hcv]
    rfl
  exact ⟨c, h2, getOptimum_config h2⟩

/-- **C39** is false for one candidate: whatever is drawn, `get_optimum` returns the name of the first hyperparameter instead of a
configuration. -/
theorem C39_counterexample [LinearOrder K] (name : String) (names : List String) (d : Drawer C S) (value : C → K) (rng : S) :
    (getOptimum (name :: names) d 1 value rng).2 = .ok (.name name) := by
  obtain ⟨a, ha⟩ := List.length_eq_one_iff.1 (d.draw_length rng 1)
  have e : (d.draw rng (1 : Int).toNat).1 = [a] := ha
  unfold getOptimum Drawer.sampleConfiguration
  simp only [Int.lt_irrefl, if_false, if_true, e]
  simp [pickMax, pyMaxBy]

end optimum

/-- non-vacuity: at `mean = eta`, `eps = 0`, the improvement is `sigma / sqrt (2 pi)` -/
example : eiValue 3 0 3 2 = 2 * (Real.sqrt (2 * Real.pi))⁻¹ := by
  simp [eiValue, normPdf, gaussianPDFReal]

example : (getOptimum ["x"] (⟨fun s k => (List.replicate k s, s), by simp⟩ : Drawer Nat Nat) 2 (fun c => c) 7).2 =
    .ok (.config 7) := by decide +kernel

end PyPDP
