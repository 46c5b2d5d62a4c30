/-
C197: plotted lines and marked minima of a PDP against the partial dependence of the blackbox function.
-/
import Verif.Props.MarkedMinimum
import Verif.Props.GpCover
import Verif.Spec.TrueDependence

namespace PyPDP
open Spec

section truth

theorem meanOver_rms {S : List (List ℝ)} (hS : S ≠ []) (m : List ℝ → ℝ) : meanOver S m ≤ √(meanOver S fun r => m r ^ 2) := by
  have hm : (0 : ℝ) < S.length := by exact_mod_cast List.length_pos_iff.2 hS
  apply Real.le_sqrt_of_sq_le
  unfold meanOver
  rw [sum_map_fin, sum_map_fin]
  have := sq_sum_le_card_mul_sum_sq (s := (Finset.univ : Finset (Fin S.length))) (f := fun i => m (S.get i))
  rw [Finset.card_univ, Fintype.card_fin] at this
  rw [div_pow, div_le_div_iff₀ (by positivity) hm]
  nlinarith

theorem meanOver_mono (S : List (List ℝ)) {m m' : List ℝ → ℝ} (h : ∀ r ∈ S, m r ≤ m' r) : meanOver S m ≤ meanOver S m' :=
  div_le_div_of_nonneg_right (List.sum_le_sum h) (Nat.cast_nonneg _)

theorem meanOver_const_mul (S : List (List ℝ)) (c : ℝ) (m : List ℝ → ℝ) : (meanOver S fun r => c * m r) = c * meanOver S m := by
  unfold meanOver
  rw [List.sum_map_mul_left, mul_div_assoc]

/-- averages of predictions are as many average standard deviations off as the predictions -/
theorem dependence_error {S : List (List ℝ)} (hS : S ≠ []) {mu sd h : List ℝ → ℝ} {B : ℝ} (hB : 0 ≤ B) {f : Nat} {t : ℝ}
    (hcov : ∀ r ∈ S, |mu (r.set f t) - h (r.set f t)| ≤ B * sd (r.set f t)) :
    |dependenceAt S mu f t - dependenceAt S h f t| ≤ B * deviationAt S sd f t := by
  have h1 := meanOver_mono S (m := fun r => mu (r.set f t) - h (r.set f t)) (m' := fun r => B * sd (r.set f t)) fun r hr => (abs_le.1 (hcov r hr)).2
  have h2 := meanOver_mono S (m := fun r => h (r.set f t) - mu (r.set f t)) (m' := fun r => B * sd (r.set f t)) fun r hr => by linarith [(abs_le.1 (hcov r hr)).1]
  have h3 := mul_le_mul_of_nonneg_left (meanOver_rms hS fun r => sd (r.set f t)) hB
  rw [meanOver_sub, meanOver_const_mul] at h1 h2
  unfold dependenceAt deviationAt
  rw [abs_le]
  constructor <;> linarith

/-- **C197** The plots of a PDP of one hyperparameter against the blackbox function `h` itself. Let the surrogate be off by at most `B` predicted standard deviations, and let its means and standard
deviations change by at most `C` and `D` times the change of the normalised hyperparameter. With `n` grid points, and with the band half as wide as `deviationAt`:
over every value between the bounds the line of `plot_values` is within `B` times `deviationAt` plus `C / (2 (n - 1))` of the true partial dependence;
at the vertical line of `plot_incumbent` the true partial dependence is larger than anywhere else by at most `B` times the sum of both values of `deviationAt` plus `C / (2 (n - 1))`;
and if `B ≤ 2` the true partial dependence lies between the outer lines of `plot_confidences`, up to `(C + 2 D) / (2 (n - 1))`. -/
theorem C197_truth {s : PdpState ℝ} (hs : PdpFresh s) (hi : s.ice = none) {mu sd : List ℝ → ℝ} (hc : Plottable s.cfg mu sd) {hp : Hp ℝ}
    (hsel : s.cfg.selected = [hp]) {l u : ℝ} {g : Bool} (hk : hp.kind = .float l u g ∨ hp.kind = .integer l u g) (hlu : l < u) (hg : g = true → 0 < l) {f : Nat}
    (hf : IsFeature s.cfg.space hp f) (hn : 2 ≤ s.cfg.perAxis) {ax ax' : Ax ℝ} (hax : checkAndSetAxis [hp] true "Prediction" ax = (ax', .ok ()))
    (hlin : g = false → ax.xlog = false) (color gradientColor : String) {maxSigma : ℝ} (hmax : 0 < maxSigma) {B C D : ℝ} (hB : 0 ≤ B) (hD : 0 ≤ D) {h : List ℝ → ℝ}
    (hcov : ∀ r ∈ s.cfg.samples, ∀ t ∈ Set.Icc (0 : ℝ) 1, |mu (r.set f t) - h (r.set f t)| ≤ B * sd (r.set f t))
    (hCD : ∀ r ∈ s.cfg.samples, ∀ t ∈ Set.Icc (0 : ℝ) 1, ∀ t' ∈ Set.Icc (0 : ℝ) 1, |mu (r.set f t) - mu (r.set f t')| ≤ C * |t - t'| ∧
      |sd (r.set f t) - sd (r.set f t')| ≤ D * |t - t'|) :
    (∃ s' xs ys, pdpPlotValues color s ax = (s', ax'.draw [.line color xs ys], .ok ()) ∧ ∀ t ∈ Set.Icc (0 : ℝ) 1, (∃ y, OnLine ax'.xlog xs ys (interpolate l u g t) y) ∧
      ∀ y, OnLine ax'.xlog xs ys (interpolate l u g t) y →
        |y - dependenceAt s.cfg.samples h f t| ≤ B * deviationAt s.cfg.samples sd f t + C / (2 * ((s.cfg.perAxis : ℝ) - 1))) ∧
    (∃ c t, (pdpCurve s).2 = .ok c ∧ t ∈ Set.Icc (0 : ℝ) 1 ∧ curveIncumbent color c ax = (ax'.draw [.vline color (interpolate l u g t)], .ok ()) ∧ ∀ t' ∈ Set.Icc (0 : ℝ) 1,
      dependenceAt s.cfg.samples h f t ≤ dependenceAt s.cfg.samples h f t' + B * (deviationAt s.cfg.samples sd f t + deviationAt s.cfg.samples sd f t') +
        C / (2 * ((s.cfg.perAxis : ℝ) - 1))) ∧
    (B ≤ 2 → ∃ (s' : PdpState ℝ) (bands : List (Shape ℝ)) (xs lo1 hi1 lo2 hi2 : List ℝ), pdpPlotConfidences color gradientColor maxSigma s ax =
        (s', ax'.draw (bands ++ [.line color xs lo1, .line color xs hi1, .line color xs lo2, .line color xs hi2]), .ok ()) ∧ bands.length = 100 ∧ ∀ t ∈ Set.Icc (0 : ℝ) 1,
      ∃ y y', OnLine ax'.xlog xs lo2 (interpolate l u g t) y ∧ OnLine ax'.xlog xs hi2 (interpolate l u g t) y' ∧
        y - (C + 2 * D) / (2 * ((s.cfg.perAxis : ℝ) - 1)) ≤ dependenceAt s.cfg.samples h f t ∧
        dependenceAt s.cfg.samples h f t ≤ y' + (C + 2 * D) / (2 * ((s.cfg.perAxis : ℝ) - 1))) := by
  have herr : ∀ t ∈ Set.Icc (0 : ℝ) 1, |dependenceAt s.cfg.samples mu f t - dependenceAt s.cfg.samples h f t| ≤ B * deviationAt s.cfg.samples sd f t := fun t ht =>
    dependence_error hc.samples hB fun r hr => hcov r hr t ht
  refine ⟨?_, ?_, fun hB2 => ?_⟩
  · obtain ⟨s', xs, ys, h1, h2, -⟩ := C195_pdp hs hi hc hsel hk hlu hg hf hn hax hlin color
    refine ⟨s', xs, ys, h1, fun t ht => ⟨(h2 C (fun r hr t ht t' ht' => (hCD r hr t ht t' ht').1) t ht).1, fun y hy => ?_⟩⟩
    have h3 : |y - dependenceAt s.cfg.samples mu f t| ≤ C / (2 * ((s.cfg.perAxis : ℝ) - 1)) := (h2 C (fun r hr t ht t' ht' => (hCD r hr t ht t' ht').1) t ht).2 y hy
    have h4 := herr t ht
    rw [abs_le] at h3 h4 ⊢
    constructor <;> linarith
  · obtain ⟨c, t, h1, h2, h3, h4, -⟩ := C196_one hs hi hc hsel hk hf hn hax color
    refine ⟨c, t, h1, h2, h3, fun t' ht' => ?_⟩
    have h5 : dependenceAt s.cfg.samples mu f t ≤ dependenceAt s.cfg.samples mu f t' + C / (2 * ((s.cfg.perAxis : ℝ) - 1)) :=
      h4 C (fun r hr t ht t' ht' => (hCD r hr t ht t' ht').1) t' ht'
    have h6 := abs_le.1 (herr t h2)
    have h7 := abs_le.1 (herr t' ht')
    linarith
  · obtain ⟨s', bands, xs, lo1, hi1, lo2, hi2, h1, h2, h3, -⟩ := C195_confidence hs hi hc hsel hk hlu hg hf hn hax hlin color gradientColor hmax hD hCD
    refine ⟨s', bands, xs, lo1, hi1, lo2, hi2, h1, h2, fun t ht => ?_⟩
    obtain ⟨⟨y, hy⟩, ly⟩ := h3 (-2) lo2 (by simp) t ht
    obtain ⟨⟨y', hy'⟩, uy⟩ := h3 2 hi2 (by simp) t ht
    have a : |y - (dependenceAt s.cfg.samples mu f t + -2 * deviationAt s.cfg.samples sd f t)| ≤ (C + |-2| * D) / (2 * ((s.cfg.perAxis : ℝ) - 1)) := ly y hy
    have b : |y' - (dependenceAt s.cfg.samples mu f t + 2 * deviationAt s.cfg.samples sd f t)| ≤ (C + |2| * D) / (2 * ((s.cfg.perAxis : ℝ) - 1)) := uy y' hy'
    rw [show |(-2 : ℝ)| = 2 by norm_num] at a
    rw [show |(2 : ℝ)| = 2 by norm_num] at b
    have e := abs_le.1 (herr t ht)
    have hS : B * deviationAt s.cfg.samples sd f t ≤ 2 * deviationAt s.cfg.samples sd f t := mul_le_mul_of_nonneg_right hB2 (Real.sqrt_nonneg _)
    refine ⟨y, y', hy, hy', ?_, ?_⟩
    · linarith [(abs_le.1 a).2]
    · linarith [(abs_le.1 b).1]

/-- moving one hyperparameter moves the standardised vector accordingly -/
theorem standardised_set {d : Nat} {X : List (List ℝ)} {r : List ℝ} (hr : r.length = d) {f : Nat} (hf : f < d) (t t' : ℝ) :
    rowDistance (standardised d X (r.set f t)) (standardised d X (r.set f t')) = |t - t'| / |spread (X.map fun q => q.getD f 0)| := by
  unfold rowDistance
  rw [zipWith_sum (standardised_length d X _) (standardised_length d X _), Finset.sum_eq_single ⟨f, hf⟩]
  · have : ∀ t, (standardised d X (r.set f t)).getD f 0 = (t - targetMean (X.map fun q => q.getD f 0)) / spread (X.map fun q => q.getD f 0) := by
      intro t
      simp [standardised, List.getD_eq_getElem?_getD, hf, hr]
    rw [this, this, ← sub_div, Real.sqrt_sq_eq_abs, abs_div]
    congr 2
    ring
  · intro k _ hk
    have hk' : f ≠ (k : Nat) := fun e => hk (Fin.ext e.symm)
    have : ∀ t, (standardised d X (r.set f t)).getD k 0 = (r.getD k 0 - targetMean (X.map fun q => q.getD k 0)) / spread (X.map fun q => q.getD k 0) := by
      intro t
      simp [standardised, List.getD_eq_getElem?_getD, hk']
    rw [this, this, sub_self]
    norm_num
  · simp

/-- **C197** The same for the surrogate with its default arguments, fitted to values of the blackbox function `h`. If its kernel represents `h` with size at most `B` at the evaluated vectors and where the PDP
looks, everything in `C197_truth` holds with `B`, with the rate `L` of the standard deviations and the rate `10⁴ √n L` of the means (`n` evaluations). -/
theorem C197_gp (ℓ : List (List ℝ) → List ℝ → ℝ) (hℓ : ∀ Z t, 0 < ℓ Z t) {s : PdpState ℝ} (hs : PdpFresh s) (hi : s.ice = none) {mu sd : List ℝ → ℝ} (hc : Plottable s.cfg mu sd)
    {X : List (List ℝ)} {h : List ℝ → ℝ} (hT : TrainingData s.cfg.space.length X (X.map h)) {m m' : GpSurrogate} (hm : m.fit (fun Z t => matern (ℓ Z t)) X (X.map h) = (m', .ok ()))
    (hpred : s.cfg.predict = m'.predict) {l₀ : ℝ} (hl : l₀ = ℓ (X.map (standardised s.cfg.space.length X)) ((X.map h).map fun v => (v - targetMean (X.map h)) / spread (X.map h)))
    {hp : Hp ℝ} (hsel : s.cfg.selected = [hp]) {l u : ℝ} {g : Bool} (hk : hp.kind = .float l u g ∨ hp.kind = .integer l u g) (hlu : l < u) (hg : g = true → 0 < l) {f : Nat}
    (hf : IsFeature s.cfg.space hp f) (hn : 2 ≤ s.cfg.perAxis) {ax ax' : Ax ℝ} (hax : checkAndSetAxis [hp] true "Prediction" ax = (ax', .ok ()))
    (hlin : g = false → ax.xlog = false) (color gradientColor : String) {maxSigma : ℝ} (hmax : 0 < maxSigma) {R : Set (List ℝ)} {B : ℝ}
    (hrep : Representable (matern l₀) s.cfg.space.length X (X.map h) h R B) (hX : ∀ q ∈ X, q ∈ R) (hR : ∀ r ∈ s.cfg.samples, ∀ t ∈ Set.Icc (0 : ℝ) 1, r.set f t ∈ R)
    {C L : ℝ} (hL : L = spread (X.map h) * (√3 / (l₀ * spread (X.map fun q => q.getD f 0)))) (hCL : C = 10 ^ 4 * √X.length * L) :
    (∃ s' xs ys, pdpPlotValues color s ax = (s', ax'.draw [.line color xs ys], .ok ()) ∧ ∀ t ∈ Set.Icc (0 : ℝ) 1, (∃ y, OnLine ax'.xlog xs ys (interpolate l u g t) y) ∧
      ∀ y, OnLine ax'.xlog xs ys (interpolate l u g t) y →
        |y - dependenceAt s.cfg.samples h f t| ≤ B * deviationAt s.cfg.samples sd f t + C / (2 * ((s.cfg.perAxis : ℝ) - 1))) ∧
    (∃ c t, (pdpCurve s).2 = .ok c ∧ t ∈ Set.Icc (0 : ℝ) 1 ∧ curveIncumbent color c ax = (ax'.draw [.vline color (interpolate l u g t)], .ok ()) ∧ ∀ t' ∈ Set.Icc (0 : ℝ) 1,
      dependenceAt s.cfg.samples h f t ≤ dependenceAt s.cfg.samples h f t' + B * (deviationAt s.cfg.samples sd f t + deviationAt s.cfg.samples sd f t') +
        C / (2 * ((s.cfg.perAxis : ℝ) - 1))) ∧
    (B ≤ 2 → ∃ (s' : PdpState ℝ) (bands : List (Shape ℝ)) (xs lo1 hi1 lo2 hi2 : List ℝ), pdpPlotConfidences color gradientColor maxSigma s ax =
        (s', ax'.draw (bands ++ [.line color xs lo1, .line color xs hi1, .line color xs lo2, .line color xs hi2]), .ok ()) ∧ bands.length = 100 ∧ ∀ t ∈ Set.Icc (0 : ℝ) 1,
      ∃ y y', OnLine ax'.xlog xs lo2 (interpolate l u g t) y ∧ OnLine ax'.xlog xs hi2 (interpolate l u g t) y' ∧
        y - (C + 2 * L) / (2 * ((s.cfg.perAxis : ℝ) - 1)) ≤ dependenceAt s.cfg.samples h f t ∧
        dependenceAt s.cfg.samples h f t ≤ y' + (C + 2 * L) / (2 * ((s.cfg.perAxis : ℝ) - 1))) := by
  have hl0 : 0 < l₀ := hl ▸ hℓ _ _
  have hker : chosenKernel (fun Z t => matern (ℓ Z t)) s.cfg.space.length X (X.map h) = matern l₀ := by rw [hl]; rfl
  obtain ⟨q, a, p, hrep, hnorm⟩ := hrep
  have hB : 0 ≤ B := (Real.sqrt_nonneg _).trans hnorm
  have hfd : f < s.cfg.space.length := by
    obtain ⟨_, hf, -⟩ := hf
    exact (List.getElem?_eq_some_iff.1 hf).1
  have hsX : 0 < spread (X.map fun q => q.getD f 0) := spread_pos (by simpa using hT.rows)
  have hsY : 0 < spread (X.map h) := spread_pos hT.targets_ne
  have hL0 : 0 ≤ L := by rw [hL]; positivity
  have hone : ∀ r : List ℝ, r.length = s.cfg.space.length → m'.predict [r] = .ok ([mu r], [sd r]) := fun r hr => by
    rw [← hpred, hc.predict [r] (by simp) (by simpa using hr)]; rfl
  have hlen : ∀ r ∈ s.cfg.samples, ∀ t, (r.set f t).length = s.cfg.space.length := fun r hr t => by rw [List.length_set]; exact hc.valid.rows r hr
  refine C197_truth hs hi hc hsel hk hlu hg hf hn hax hlin color gradientColor hmax hB hL0 (h := h) (fun r hr t ht => ?_) (fun r hr t ht t' ht' => ?_)
  · have hp := hone _ (hlen r hr t)
    obtain ⟨hσ, -⟩ := C175_weights (fun Z t => (matern_unit (hℓ Z t) _).1) hT hm hp
    have := C179_cover (fun Z t => (matern_unit (hℓ Z t) _).1) hT hm (by rw [hker]; exact hrep) hX (hR r hr t ht) hp
    rw [hker] at this
    exact this.trans (mul_le_mul_of_nonneg_right hnorm hσ)
  · obtain ⟨h1, h2⟩ := C176_matern ℓ hℓ hT hm (hone _ (hlen r hr t)) (hone _ (hlen r hr t')) hl (le_of_eq (standardised_set (hc.valid.rows r hr) hfd t t'))
    rw [abs_of_pos hsX] at h1 h2
    refine ⟨h2.trans_eq ?_, h1.trans_eq ?_⟩
    · rw [hCL, hL]; field_simp
    · rw [hL]; field_simp

/-- the size of a combination of kernels at 1 and -1 -/
theorem hump_size : matern 1 [1] [-1] ≤ 1 / 2 ∧ matern 1 [-1] [1] = matern 1 [1] [-1] ∧ matern 1 [1] [1] = 1 ∧ matern 1 [-1] [-1] = 1 := by
  have hs : √((1 + 1 : ℝ) ^ 2) = 2 := by rw [Real.sqrt_sq (by norm_num)]; norm_num
  have e : matern 1 [1] [-1] = (1 + √3 * 2) * Real.exp (-(√3 * 2)) := by
    simp [matern, hs]
  have h3 : 17 / 10 ≤ √3 := Real.le_sqrt_of_sq_le (by norm_num)
  refine ⟨?_, ?_, by simp [matern], by simp [matern]⟩
  · have hq := Real.quadratic_le_exp_of_nonneg (x := √3 * 2) (by positivity)
    rw [e, Real.exp_neg, ← div_eq_mul_inv, div_le_iff₀ (Real.exp_pos _)]
    have h33 : √3 * √3 = 3 := Real.mul_self_sqrt (by norm_num)
    have h4 : √3 ≤ 9 / 5 := Real.sqrt_le_iff.2 ⟨by norm_num, by norm_num⟩
    nlinarith
  · rw [e]
    have : √((-1 - 1 : ℝ) ^ 2) = 2 := by rw [show (-1 - 1 : ℝ) = -2 by norm_num, neg_sq, Real.sqrt_sq (by norm_num)]
    simp [matern, this]

/-- A blackbox function of one hyperparameter between 0 and 1, evaluated at both ends: a difference of two kernels. Its values at the ends are -1 and 1. -/
noncomputable def humpFn (r : List ℝ) : ℝ :=
  (matern 1 [2 * r.getD 0 0 - 1] [1] - matern 1 [2 * r.getD 0 0 - 1] [-1]) / (1 - matern 1 [1] [-1])

/-- The default surrogate, with length scale 1, fitted to the two values: the size of the function is at most 2, so on a plot of 1001 grid points the function is between the outer lines of the confidence
plot, up to a 2000th of the rate. -/
example : ∃ (m' : GpSurrogate) (mu sd : List ℝ → ℝ), RowWise 1 m'.predict mu sd ∧
    ∃ (s' : PdpState ℝ) (bands : List (Shape ℝ)) (xs lo1 hi1 lo2 hi2 : List ℝ),
      pdpPlotConfidences "black" "blue" 2 (⟨⟨[⟨"x", .float 0 1 false⟩], [⟨"x", .float 0 1 false⟩], [[1 / 2]], 1, 1001, 1001, false, m'.predict⟩, none, none, none, none⟩ : PdpState ℝ) Ax.new =
        (s', (⟨"x", "Prediction", false, false, some (0, 1), none, []⟩ : Ax ℝ).draw (bands ++ [.line "black" xs lo1, .line "black" xs hi1, .line "black" xs lo2, .line "black" xs hi2]), .ok ()) ∧
      bands.length = 100 ∧ ∀ t ∈ Set.Icc (0 : ℝ) 1, ∃ y y', OnLine false xs lo2 t y ∧ OnLine false xs hi2 t y' ∧
        y - (10 ^ 4 * √2 + 2) * (√3 * 2) / 2000 ≤ humpFn [t] ∧ humpFn [t] ≤ y' + (10 ^ 4 * √2 + 2) * (√3 * 2) / 2000 := by
  obtain ⟨k1, k2, k3, k4⟩ := hump_size
  have hκ : 0 < 1 - matern 1 [1] [-1] := by linarith
  have h0 : humpFn [0] = -1 := by
    unfold humpFn
    rw [show (2 * [(0 : ℝ)].getD 0 0 - 1) = -1 by norm_num, k2, k4, div_eq_iff hκ.ne']
    ring
  have h1 : humpFn [1] = 1 := by
    unfold humpFn
    rw [show (2 * [(1 : ℝ)].getD 0 0 - 1) = 1 by norm_num, k3, div_self hκ.ne']
  have hy : ([[0], [1]] : List (List ℝ)).map humpFn = [-1, 1] := by simp [h0, h1]
  have hT : TrainingData 1 [[0], [1]] (([[0], [1]] : List (List ℝ)).map humpFn) := ⟨by simp, by simp, le_rfl, by simp⟩
  have hsp : ∀ a b c : ℝ, a ≠ b → 0 ≤ c → (a - (a + b) / 2) ^ 2 = c ^ 2 → (b - (a + b) / 2) ^ 2 = c ^ 2 → spread [a, b] = c := by
    intro a b c hab hc e1 e2
    unfold spread
    rw [if_neg]
    · have : squares (targetMean [a, b]) [a, b] / ([a, b] : List ℝ).length = c ^ 2 := by
        simp [squares, targetMean, e1, e2]
      rw [this, Real.sqrt_sq hc]
    · intro h
      exact hab (h a (by simp) b (by simp))
  have hsX : spread (([[0], [1]] : List (List ℝ)).map fun q => q.getD 0 0) = 1 / 2 := hsp 0 1 _ (by norm_num) (by norm_num) (by norm_num) (by norm_num)
  have hsY : spread (([[0], [1]] : List (List ℝ)).map humpFn) = 1 := by rw [hy]; exact hsp (-1) 1 _ (by norm_num) (by norm_num) (by norm_num) (by norm_num)
  obtain ⟨m', hfit, -, ⟨mu, sd, hrow, -⟩, -⟩ := C99_fit (choose := fun _ _ => matern 1) (fun _ _ => (matern_unit one_pos 1).1) hT GpSurrogate.new
  refine ⟨m', mu, sd, hrow, ?_⟩
  have hwf : ConfigSpace.WF ([⟨"x", .float 0 1 false⟩] : ConfigSpace ℝ) := by simp [ConfigSpace.WF]
  have hc : Plottable (⟨[⟨"x", .float 0 1 false⟩], [⟨"x", .float 0 1 false⟩], [[1 / 2]], 1, 1001, 1001, false, m'.predict⟩ : IceCfg ℝ) mu sd := by
    refine ⟨⟨hwf, by simp, by simp, by simp, by simp, rfl, by simp⟩, ?_, ?_, by simp, by norm_num, hrow⟩
    · intro hp hm
      simp only [List.mem_cons, List.not_mem_nil, or_false] at hm
      subst hm
      exact ⟨0, 1, false, hwf, ⟨_, by simp, rfl, .inl rfl⟩, by norm_num, by simp⟩
    · intro r hr e he
      simp only [List.mem_cons, List.not_mem_nil, or_false] at hr
      subst hr
      simp only [List.mem_cons, List.not_mem_nil, or_false] at he
      subst he
      norm_num
  have hrep : Representable (matern 1) 1 [[0], [1]] (([[0], [1]] : List (List ℝ)).map humpFn) humpFn {r | r.length = 1} 2 := by
    refine ⟨2, ![1 / (1 - matern 1 [1] [-1]), -(1 / (1 - matern 1 [1] [-1]))], ![[1], [-1]], ⟨fun j => by fin_cases j <;> rfl, fun r hr => ?_⟩, ?_⟩
    · obtain ⟨v, rfl⟩ := List.length_eq_one_iff.1 hr
      have e : standardised 1 [[0], [1]] [v] = [2 * v - 1] := by
        have : spread [(0 : ℝ), 1] = 1 / 2 := hsX
        simp only [standardised, List.map_cons, List.map_nil, List.range_one, List.getD_cons_zero, this, targetMean]
        norm_num
        ring
      have em : targetMean (([[0], [1]] : List (List ℝ)).map humpFn) = 0 := by rw [hy]; norm_num [targetMean]
      rw [e, em, hsY]
      simp only [kernelSum, Fin.sum_univ_two, Matrix.cons_val_zero, Matrix.cons_val_one, humpFn, List.getD_cons_zero]
      ring
    · unfold kernelNorm
      simp only [Fin.sum_univ_two, Matrix.cons_val_zero, Matrix.cons_val_one]
      rw [k2, k3, k4]
      refine Real.sqrt_le_iff.2 ⟨by norm_num, ?_⟩
      have : 1 / (1 - matern 1 [1] [-1]) ≤ 2 := by rw [div_le_iff₀ hκ]; linarith
      have e : 1 / (1 - matern 1 [1] [-1]) * (1 - matern 1 [1] [-1]) = 1 := by field_simp
      generalize 1 / (1 - matern 1 [1] [-1]) = a at this e ⊢
      generalize matern 1 [1] [-1] = κ at *
      nlinarith
  have key := (C197_gp (fun _ _ => 1) (fun _ _ => one_pos) (s := ⟨_, none, none, none, none⟩) ⟨rfl, rfl, rfl⟩ rfl hc hT hfit rfl (l₀ := 1) rfl (hp := ⟨"x", .float 0 1 false⟩) rfl
    (.inl rfl) (by norm_num) (by simp) (f := 0) ⟨_, rfl, rfl⟩ (by norm_num) (ax := Ax.new) (ax' := ⟨"x", "Prediction", false, false, some (0, 1), none, []⟩) rfl (fun _ => rfl) "black" "blue"
    (maxSigma := 2) (by norm_num) hrep (by simp) (by simp) rfl rfl).2.2 le_rfl
  obtain ⟨s', bands, xs, lo1, hi1, lo2, hi2, a1, a2, a3⟩ := key
  refine ⟨s', bands, xs, lo1, hi1, lo2, hi2, a1, a2, fun t ht => ?_⟩
  obtain ⟨y, y', b1, b2, b3, b4⟩ := a3 t ht
  have ei : interpolate 0 1 false t = t := by simp [interpolate]
  have ed : dependenceAt [[1 / 2]] humpFn 0 t = humpFn [t] := by simp [dependenceAt, meanOver]
  rw [ei] at b1 b2
  have er : (10 ^ 4 * √(([[0], [1]] : List (List ℝ)).length : ℝ) * (spread (([[0], [1]] : List (List ℝ)).map humpFn) * (√3 / (1 * spread (([[0], [1]] : List (List ℝ)).map fun q => q.getD 0 0)))) +
      2 * (spread (([[0], [1]] : List (List ℝ)).map humpFn) * (√3 / (1 * spread (([[0], [1]] : List (List ℝ)).map fun q => q.getD 0 0))))) / (2 * (((1001 : ℕ) : ℝ) - 1)) =
      (10 ^ 4 * √2 + 2) * (√3 * 2) / 2000 := by
    rw [hsX, hsY]
    norm_num
    ring
  dsimp only at b3 b4
  rw [er, ed] at b3 b4
  exact ⟨y, y', b1, b2, b3, b4⟩

end truth

end PyPDP
