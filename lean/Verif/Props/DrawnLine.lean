/-
C195: how far the line of a plot is from the curve between the grid points.
-/
import Verif.Props.PdpPlots
import Verif.Props.PlotFunction
import Verif.Props.GpSmooth
import Verif.Spec.DrawnLine
import Mathlib.Analysis.Convex.Deriv

namespace PyPDP
open Spec

section line

theorem screen_interpolate {l u : ℝ} {g : Bool} (hlu : l < u) (hg : g = true → 0 < l) (t : ℝ) :
    screenOf g (interpolate l u g t) = (1 - t) * screenOf g l + t * screenOf g u := by
  unfold screenOf interpolate
  cases g with
  | false => simp
  | true =>
    have hl := hg rfl
    have hu := hl.trans hlu
    simp only [if_true]
    rw [Real.log_mul (Real.rpow_pos_of_pos hl _).ne' (Real.rpow_pos_of_pos hu _).ne', Real.log_rpow hl, Real.log_rpow hu]

theorem screen_lt {l u : ℝ} {g : Bool} (hlu : l < u) (hg : g = true → 0 < l) : screenOf g l < screenOf g u := by
  unfold screenOf
  cases g with
  | false => simpa using hlu
  | true => simpa using Real.log_lt_log (hg rfl) hlu

/-- the points of the line through values of a function at evenly spaced places -/
theorem line_points {l u : ℝ} {g : Bool} (hlu : l < u) (hg : g = true → 0 < l) {n : Nat} (hn : 2 ≤ n) {xs ys : List ℝ} {F : ℝ → ℝ} (hx : xs.length = n)
    (h : ∀ i < n, xs[i]? = some (interpolate l u g (gridValue n i)) ∧ ys[i]? = some (F (gridValue n i))) {t : ℝ} (ht : t ∈ Set.Icc (0 : ℝ) 1) :
    (∃ y, OnLine g xs ys (interpolate l u g t) y) ∧
    ∀ y, OnLine g xs ys (interpolate l u g t) y → ∃ a b w, a ∈ Set.Icc (0 : ℝ) 1 ∧ b ∈ Set.Icc (0 : ℝ) 1 ∧ b - a = 1 / ((n : ℝ) - 1) ∧ 0 ≤ w ∧ w ≤ 1 ∧
      t = (1 - w) * a + w * b ∧ y = (1 - w) * F a + w * F b := by
  have hn1 : (0 : ℝ) < (n : ℝ) - 1 := by
    have : (2 : ℝ) ≤ n := by exact_mod_cast hn
    linarith
  have hv : ∀ i, gridValue n i = (i : ℝ) / ((n : ℝ) - 1) := fun i => by rw [gridValue, if_neg (by omega)]
  constructor
  · obtain ⟨i, hi⟩ : ∃ i, i = min ⌊t * ((n : ℝ) - 1)⌋₊ (n - 2) := ⟨_, rfl⟩
    have hin : i + 1 < n := by omega
    have h0 : 0 ≤ t * ((n : ℝ) - 1) := mul_nonneg ht.1 hn1.le
    have f1 := Nat.floor_le h0
    have f2 := Nat.lt_floor_add_one (t * ((n : ℝ) - 1))
    have w0 : (i : ℝ) ≤ t * ((n : ℝ) - 1) := le_trans (by exact_mod_cast (by omega : i ≤ ⌊t * ((n : ℝ) - 1)⌋₊)) f1
    have w1 : t * ((n : ℝ) - 1) ≤ i + 1 := by
      rcases le_total ⌊t * ((n : ℝ) - 1)⌋₊ (n - 2) with h | h
      · rw [min_eq_left h] at hi
        rw [hi]
        exact f2.le
      · rw [min_eq_right h] at hi
        have : (i : ℝ) + 1 = (n : ℝ) - 1 := by
          have : i + 2 = n := by omega
          rw [← this]
          push_cast
          ring
        rw [this]
        nlinarith [ht.2]
    refine ⟨_, i, _, _, _, _, t * ((n : ℝ) - 1) - i, (h i (by omega)).1, (h (i + 1) hin).1, (h i (by omega)).2, (h (i + 1) hin).2, by linarith, by linarith, ?_, rfl⟩
    rw [screen_interpolate hlu hg, screen_interpolate hlu hg, screen_interpolate hlu hg, hv, hv]
    push_cast
    have : t = (1 - (t * ((n : ℝ) - 1) - i)) * ((i : ℝ) / ((n : ℝ) - 1)) + (t * ((n : ℝ) - 1) - i) * (((i : ℝ) + 1) / ((n : ℝ) - 1)) := by
      field_simp
      ring
    obtain ⟨w, hw⟩ : ∃ w, w = t * ((n : ℝ) - 1) - i := ⟨_, rfl⟩
    obtain ⟨a, ha⟩ : ∃ a, a = (i : ℝ) / ((n : ℝ) - 1) := ⟨_, rfl⟩
    obtain ⟨b, hb⟩ : ∃ b, b = ((i : ℝ) + 1) / ((n : ℝ) - 1) := ⟨_, rfl⟩
    rw [← hw, ← ha, ← hb] at this ⊢
    rw [this]
    ring
  · rintro y ⟨i, a, b, c, d, w, h1, h2, h3, h4, w0, w1, hxw, hy⟩
    have hin : i + 1 < n := by rw [← hx]; exact (List.getElem?_eq_some_iff.1 h2).1
    have e1 := (h i (by omega)).1
    have e2 := (h (i + 1) hin).1
    have e3 := (h i (by omega)).2
    have e4 := (h (i + 1) hin).2
    rw [e1] at h1
    rw [e2] at h2
    rw [e3] at h3
    rw [e4] at h4
    obtain rfl := Option.some.inj h1
    obtain rfl := Option.some.inj h2
    obtain rfl := Option.some.inj h3
    obtain rfl := Option.some.inj h4
    rw [screen_interpolate hlu hg, screen_interpolate hlu hg, screen_interpolate hlu hg] at hxw
    have hb : ∀ j < n, gridValue n j ∈ Set.Icc (0 : ℝ) 1 := by
      intro j hj
      rw [hv]
      refine ⟨by positivity, (div_le_one hn1).2 ?_⟩
      have : (j : ℝ) + 1 ≤ n := by exact_mod_cast hj
      linarith
    refine ⟨gridValue n i, gridValue n (i + 1), w, hb _ (by omega), hb _ hin, ?_, w0, w1, ?_, hy⟩
    · rw [hv, hv]
      push_cast
      ring
    · have hs := screen_lt hlu hg
      have : (t - ((1 - w) * gridValue n i + w * gridValue n (i + 1))) * (screenOf g u - screenOf g l) = 0 := by linear_combination hxw
      rcases mul_eq_zero.1 this with h | h
      · linarith
      · linarith

theorem chord_lipschitz {F : ℝ → ℝ} {C : ℝ} (hC : ∀ t ∈ Set.Icc (0 : ℝ) 1, ∀ t' ∈ Set.Icc (0 : ℝ) 1, |F t - F t'| ≤ C * |t - t'|) {a b w : ℝ} (ha : a ∈ Set.Icc (0 : ℝ) 1)
    (hb : b ∈ Set.Icc (0 : ℝ) 1) (hab : a ≤ b) (w0 : 0 ≤ w) (w1 : w ≤ 1) :
    |(1 - w) * F a + w * F b - F ((1 - w) * a + w * b)| ≤ C * (b - a) / 2 := by
  have hC0 : 0 ≤ C := by
    have := hC 0 ⟨le_rfl, zero_le_one⟩ 1 ⟨zero_le_one, le_rfl⟩
    have h0 := abs_nonneg (F 0 - F 1)
    norm_num at this
    linarith
  have ht : (1 - w) * a + w * b ∈ Set.Icc (0 : ℝ) 1 := by
    constructor
    · have := ha.1; have := hb.1; have := sub_nonneg.2 w1; positivity
    · nlinarith [ha.2, hb.2]
  have h1 := hC a ha _ ht
  have h2 := hC b hb _ ht
  rw [show a - ((1 - w) * a + w * b) = -(w * (b - a)) by ring, abs_neg, abs_of_nonneg (mul_nonneg w0 (sub_nonneg.2 hab))] at h1
  rw [show b - ((1 - w) * a + w * b) = (1 - w) * (b - a) by ring, abs_of_nonneg (mul_nonneg (sub_nonneg.2 w1) (sub_nonneg.2 hab))] at h2
  rw [abs_le] at *
  have k1 := mul_le_mul_of_nonneg_left h1.2 (sub_nonneg.2 w1)
  have k2 := mul_le_mul_of_nonneg_left h2.2 w0
  have k3 := mul_le_mul_of_nonneg_left h1.1 (sub_nonneg.2 w1)
  have k4 := mul_le_mul_of_nonneg_left h2.1 w0
  have k5 : 0 ≤ C * (b - a) * (1 - 2 * w) ^ 2 := mul_nonneg (mul_nonneg hC0 (sub_nonneg.2 hab)) (sq_nonneg _)
  constructor <;> nlinarith

theorem chord_smooth {F F' F'' : ℝ → ℝ} {M : ℝ} (h1 : ∀ t ∈ Set.Icc (0 : ℝ) 1, HasDerivAt F (F' t) t) (h2 : ∀ t ∈ Set.Icc (0 : ℝ) 1, HasDerivAt F' (F'' t) t)
    (hM : ∀ t ∈ Set.Icc (0 : ℝ) 1, |F'' t| ≤ M) {a b w : ℝ} (ha : a ∈ Set.Icc (0 : ℝ) 1) (hb : b ∈ Set.Icc (0 : ℝ) 1) (w0 : 0 ≤ w) (w1 : w ≤ 1) :
    |(1 - w) * F a + w * F b - F ((1 - w) * a + w * b)| ≤ M * (b - a) ^ 2 / 8 := by
  have hM0 : 0 ≤ M := (abs_nonneg _).trans (hM 0 ⟨le_rfl, zero_le_one⟩)
  have hi : ∀ {t}, t ∈ interior (Set.Icc (0 : ℝ) 1) → t ∈ Set.Icc (0 : ℝ) 1 := fun h => interior_subset h
  have q1 : ∀ t : ℝ, HasDerivAt (fun t : ℝ => M / 2 * t ^ 2) (M * t) t := fun t => by
    have := (hasDerivAt_pow 2 t).const_mul (M / 2)
    refine this.congr_deriv ?_
    norm_num
    ring
  have q2 : ∀ t : ℝ, HasDerivAt (fun t : ℝ => M * t) M t := fun t => by simpa using (hasDerivAt_id t).const_mul M
  have up : ConvexOn ℝ (Set.Icc (0 : ℝ) 1) fun t => F t + M / 2 * t ^ 2 := by
    refine convexOn_of_hasDerivWithinAt2_nonneg (convex_Icc 0 1) (f' := fun t => F' t + M * t) (f'' := fun t => F'' t + M) ?_ ?_ ?_ ?_
    · exact fun t ht => ((h1 t ht).add (q1 t)).continuousAt.continuousWithinAt
    · exact fun t ht => ((h1 t (hi ht)).add (q1 t)).hasDerivWithinAt
    · exact fun t ht => ((h2 t (hi ht)).add (q2 t)).hasDerivWithinAt
    · intro t ht
      have := (abs_le.1 (hM t (hi ht))).1
      linarith
  have lo : ConcaveOn ℝ (Set.Icc (0 : ℝ) 1) fun t => F t - M / 2 * t ^ 2 := by
    refine concaveOn_of_hasDerivWithinAt2_nonpos (convex_Icc 0 1) (f' := fun t => F' t - M * t) (f'' := fun t => F'' t - M) ?_ ?_ ?_ ?_
    · exact fun t ht => ((h1 t ht).sub (q1 t)).continuousAt.continuousWithinAt
    · exact fun t ht => ((h1 t (hi ht)).sub (q1 t)).hasDerivWithinAt
    · exact fun t ht => ((h2 t (hi ht)).sub (q2 t)).hasDerivWithinAt
    · intro t ht
      have := (abs_le.1 (hM t (hi ht))).2
      linarith
  have k1 := up.2 ha hb (sub_nonneg.2 w1) w0 (by ring)
  have k2 := lo.2 ha hb (sub_nonneg.2 w1) w0 (by ring)
  simp only [smul_eq_mul] at k1 k2
  have k3 : 0 ≤ M * (b - a) ^ 2 * (1 - 2 * w) ^ 2 := mul_nonneg (mul_nonneg hM0 (sq_nonneg _)) (sq_nonneg _)
  rw [abs_le]
  constructor <;> nlinarith

/-- the scale of an axis that has been set for a hyperparameter -/
theorem axis_scale {hp : Hp ℝ} {l u : ℝ} {g : Bool} (hk : hp.kind = .float l u g ∨ hp.kind = .integer l u g) {ax ax' : Ax ℝ}
    (hax : checkAndSetAxis [hp] true "Prediction" ax = (ax', .ok ())) (hlin : g = false → ax.xlog = false) : ax'.xlog = g := by
  have hnum : hp.numerical? = some (l, u, g) := by
    unfold Hp.numerical?
    rcases hk with h | h <;> rw [h]
  unfold checkAndSetAxis at hax
  simp only at hax
  split at hax
  · cases hax
  · split at hax
    · cases hax
    · obtain rfl := (Prod.mk.inj hax).1
      simp only [Ax.boundX, hnum]
      cases g with
      | true => simp
      | false => simpa using hlin rfl

theorem meanOver_lipschitz {S : List (List ℝ)} {m : List ℝ → ℝ → ℝ} {C : ℝ} (hS : S ≠ []) {t t' : ℝ} (h : ∀ r ∈ S, |m r t - m r t'| ≤ C * |t - t'|) :
    |meanOver S (fun r => m r t) - meanOver S (fun r => m r t')| ≤ C * |t - t'| := by
  have hn : (0 : ℝ) < S.length := by exact_mod_cast List.length_pos_iff.2 hS
  have : ∀ S : List (List ℝ), (∀ r ∈ S, |m r t - m r t'| ≤ C * |t - t'|) → |(S.map fun r => m r t).sum - (S.map fun r => m r t').sum| ≤ S.length * (C * |t - t'|) := by
    intro S h
    induction S with
    | nil => simp
    | cons a as ih =>
      simp only [List.map_cons, List.sum_cons, List.length_cons]
      have h1 := h a (by simp)
      have h2 := ih fun r hr => h r (by simp [hr])
      push_cast
      rw [abs_le] at *
      constructor <;> linarith [h1.1, h1.2, h2.1, h2.2]
  unfold meanOver
  rw [← sub_div, abs_div, Nat.abs_cast, div_le_iff₀ hn, mul_comm]
  exact this S h

theorem meanOver_deriv (S : List (List ℝ)) {m m' : List ℝ → ℝ → ℝ} {t : ℝ} (h : ∀ r ∈ S, HasDerivAt (m r) (m' r t) t) :
    HasDerivAt (fun t => meanOver S fun r => m r t) (meanOver S fun r => m' r t) t := by
  unfold meanOver
  refine HasDerivAt.div_const ?_ _
  induction S with
  | nil => simpa using hasDerivAt_const t (0 : ℝ)
  | cons a as ih =>
    simp only [List.map_cons, List.sum_cons]
    exact (h a (by simp)).add (ih fun r hr => h r (by simp [hr]))

theorem meanOver_abs_le {S : List (List ℝ)} (hS : S ≠ []) {m : List ℝ → ℝ} {M : ℝ} (h : ∀ r ∈ S, |m r| ≤ M) : |meanOver S m| ≤ M := by
  have hn : (0 : ℝ) < S.length := by exact_mod_cast List.length_pos_iff.2 hS
  have : ∀ S : List (List ℝ), (∀ r ∈ S, |m r| ≤ M) → |(S.map m).sum| ≤ S.length * M := by
    intro S h
    induction S with
    | nil => simp
    | cons a as ih =>
      simp only [List.map_cons, List.sum_cons, List.length_cons]
      have h1 := h a (by simp)
      have h2 := ih fun r hr => h r (by simp [hr])
      push_cast
      rw [abs_le] at *
      constructor <;> linarith [h1.1, h1.2, h2.1, h2.2]
  unfold meanOver
  rw [abs_div, Nat.abs_cast, div_le_iff₀ hn, mul_comm]
  exact this S h

/-- **C195** The line of a PDP plot. Let the mean of the surrogate change by at most `C` times the change of the normalised selected hyperparameter. Then the plot of
`n` grid points consists of one line that has, over every value of the hyperparameter between its bounds, a point; and every such point is within `C / (2 (n - 1))` of the
average of the means of the surrogate at this very value, also between grid points. If the means have second derivatives of at most `M`, it is within `M / (8 (n - 1) ^ 2)`. -/
theorem C195_pdp {s : PdpState ℝ} (hs : PdpFresh s) (hi : s.ice = none) {mu sd : List ℝ → ℝ} (hc : Plottable s.cfg mu sd) {hp : Hp ℝ}
    (hsel : s.cfg.selected = [hp]) {l u : ℝ} {g : Bool} (hk : hp.kind = .float l u g ∨ hp.kind = .integer l u g) (hlu : l < u) (hg : g = true → 0 < l) {f : Nat}
    (hf : IsFeature s.cfg.space hp f) (hn : 2 ≤ s.cfg.perAxis) {ax ax' : Ax ℝ} (hax : checkAndSetAxis [hp] true "Prediction" ax = (ax', .ok ()))
    (hlin : g = false → ax.xlog = false) (color : String) :
    ∃ s' xs ys, pdpPlotValues color s ax = (s', ax'.draw [.line color xs ys], .ok ()) ∧
      (∀ C, (∀ r ∈ s.cfg.samples, ∀ t ∈ Set.Icc (0 : ℝ) 1, ∀ t' ∈ Set.Icc (0 : ℝ) 1, |mu (r.set f t) - mu (r.set f t')| ≤ C * |t - t'|) →
        DrawnNear ax'.xlog l u g xs ys (fun t => meanOver s.cfg.samples fun r => mu (r.set f t)) (C / (2 * ((s.cfg.perAxis : ℝ) - 1)))) ∧
      ∀ M (m' m'' : List ℝ → ℝ → ℝ), (∀ r ∈ s.cfg.samples, ∀ t ∈ Set.Icc (0 : ℝ) 1, HasDerivAt (fun t => mu (r.set f t)) (m' r t) t ∧ HasDerivAt (m' r) (m'' r t) t ∧ |m'' r t| ≤ M) →
        DrawnNear ax'.xlog l u g xs ys (fun t => meanOver s.cfg.samples fun r => mu (r.set f t)) (M / (8 * ((s.cfg.perAxis : ℝ) - 1) ^ 2)) := by
  obtain ⟨s', xs, ys, h1, h2, h3, h4⟩ := C83_pdp_one hs hi hc hsel hk hf hax color
  rw [axis_scale hk hax hlin]
  have hpts := fun {t : ℝ} (ht : t ∈ Set.Icc (0 : ℝ) 1) => line_points (F := fun t => meanOver s.cfg.samples fun r => mu (r.set f t)) hlu hg hn h2 h4 ht
  have hn1 : (0 : ℝ) < (s.cfg.perAxis : ℝ) - 1 := by
    have : (2 : ℝ) ≤ s.cfg.perAxis := by exact_mod_cast hn
    linarith
  refine ⟨s', xs, ys, h1, fun C hC t ht => ⟨(hpts ht).1, fun y hy => ?_⟩, fun M m' m'' hM t ht => ⟨(hpts ht).1, fun y hy => ?_⟩⟩
  · obtain ⟨a, b, w, ha, hb, hab, w0, w1, rfl, rfl⟩ := (hpts ht).2 y hy
    have hpos : 0 < b - a := by rw [hab]; positivity
    refine (chord_lipschitz (F := fun t => meanOver s.cfg.samples fun r => mu (r.set f t)) (fun t ht t' ht' =>
      meanOver_lipschitz (m := fun r t => mu (r.set f t)) hc.samples fun r hr => hC r hr t ht t' ht') ha hb (by linarith) w0 w1).trans_eq ?_
    rw [hab]
    field_simp
  · obtain ⟨a, b, w, ha, hb, hab, w0, w1, rfl, rfl⟩ := (hpts ht).2 y hy
    refine (chord_smooth (F := fun t => meanOver s.cfg.samples fun r => mu (r.set f t)) (F' := fun t => meanOver s.cfg.samples fun r => m' r t)
      (F'' := fun t => meanOver s.cfg.samples fun r => m'' r t) (fun t ht => meanOver_deriv _ fun r hr => (hM r hr t ht).1) (fun t ht => meanOver_deriv _ fun r hr => (hM r hr t ht).2.1)
      (fun t ht => meanOver_abs_le hc.samples fun r hr => (hM r hr t ht).2.2) ha hb w0 w1).trans_eq ?_
    rw [hab]
    field_simp

theorem rms_lipschitz {S : List (List ℝ)} (hS : S ≠ []) {m : List ℝ → ℝ → ℝ} {D : ℝ} (hD : 0 ≤ D) {t t' : ℝ} (h : ∀ r ∈ S, |m r t - m r t'| ≤ D * |t - t'|) :
    |√(meanOver S fun r => m r t ^ 2) - √(meanOver S fun r => m r t' ^ 2)| ≤ D * |t - t'| := by
  have hd : 0 ≤ D * |t - t'| := mul_nonneg hD (abs_nonneg _)
  have key := fun {a b : ℝ} (h : ∀ r ∈ S, |m r a - m r b| ≤ D * |t - t'|) => rms_le S hS (fun r => |m r a|) (fun r => |m r b|) hd (fun _ _ => abs_nonneg _) (fun _ _ => abs_nonneg _)
    (fun r hr => by
      have := abs_sub_abs_le_abs_sub (m r a) (m r b)
      linarith [h r hr])
  simp only [sq_abs] at key
  have k1 := key h
  have k2 := key (a := t') (b := t) fun r hr => by rw [abs_sub_comm]; exact h r hr
  unfold meanOver
  rw [abs_le]
  constructor <;> linarith

/-- **C195** The lines and bands of the confidence plot of a PDP. Let the means of the surrogate change by at most `C` times and its standard deviations by at most `D`
times the change of the normalised selected hyperparameter. Over every value of the hyperparameter between its bounds every line `k` standard deviations off, and
every edge of a band, has a point; and every such point is within `(C + k D) / (2 (n - 1))` of the average of the means plus (or minus) `k` times the root of the average
of the variances at this very value. -/
theorem C195_confidence {s : PdpState ℝ} (hs : PdpFresh s) (hi : s.ice = none) {mu sd : List ℝ → ℝ} (hc : Plottable s.cfg mu sd) {hp : Hp ℝ}
    (hsel : s.cfg.selected = [hp]) {l u : ℝ} {g : Bool} (hk : hp.kind = .float l u g ∨ hp.kind = .integer l u g) (hlu : l < u) (hg : g = true → 0 < l) {f : Nat}
    (hf : IsFeature s.cfg.space hp f) (hn : 2 ≤ s.cfg.perAxis) {ax ax' : Ax ℝ} (hax : checkAndSetAxis [hp] true "Prediction" ax = (ax', .ok ()))
    (hlin : g = false → ax.xlog = false) (lineColor gradientColor : String) {maxSigma : ℝ} (hmax : 0 < maxSigma) {C D : ℝ} (hD : 0 ≤ D)
    (hCD : ∀ r ∈ s.cfg.samples, ∀ t ∈ Set.Icc (0 : ℝ) 1, ∀ t' ∈ Set.Icc (0 : ℝ) 1, |mu (r.set f t) - mu (r.set f t')| ≤ C * |t - t'| ∧
      |sd (r.set f t) - sd (r.set f t')| ≤ D * |t - t'|) :
    ∃ (s' : PdpState ℝ) (bands : List (Shape ℝ)) (xs lo1 hi1 lo2 hi2 : List ℝ), pdpPlotConfidences lineColor gradientColor maxSigma s ax =
        (s', ax'.draw (bands ++ [.line lineColor xs lo1, .line lineColor xs hi1, .line lineColor xs lo2, .line lineColor xs hi2]), .ok ()) ∧ bands.length = 100 ∧
      (∀ k ys, (k, ys) ∈ [(-1, lo1), (1, hi1), (-2, lo2), (2, hi2)] → DrawnNear ax'.xlog l u g xs ys
        (fun t => (meanOver s.cfg.samples fun r => mu (r.set f t)) + k * √(meanOver s.cfg.samples fun r => sd (r.set f t) ^ 2)) ((C + |k| * D) / (2 * ((s.cfg.perAxis : ℝ) - 1)))) ∧
      ∀ b ∈ bands, ∃ κ lo hi, 0 ≤ κ ∧ κ < maxSigma ∧ b = .band gradientColor xs lo hi ∧ ∀ k ys, (k, ys) ∈ [(-κ, lo), (κ, hi)] → DrawnNear ax'.xlog l u g xs ys
        (fun t => (meanOver s.cfg.samples fun r => mu (r.set f t)) + k * √(meanOver s.cfg.samples fun r => sd (r.set f t) ^ 2)) ((C + |k| * D) / (2 * ((s.cfg.perAxis : ℝ) - 1))) := by
  obtain ⟨s', xs, ys, σ, shapes, h1, h2, h3, h4, h5, fs, bands, one, two, rfl, hb, hfl, -, hfs, -, ⟨lo1, hi1, rfl, l1, u1⟩, ⟨lo2, hi2, rfl, l2, u2⟩⟩ :=
    C84_pdp_one hs hi hc hsel hk hf hax lineColor gradientColor hmax
  have hn1 : (0 : ℝ) < (s.cfg.perAxis : ℝ) - 1 := by
    have : (2 : ℝ) ≤ s.cfg.perAxis := by exact_mod_cast hn
    linarith
  have near : ∀ k zs, OffsetOf k ys σ zs → DrawnNear ax'.xlog l u g xs zs
      (fun t => (meanOver s.cfg.samples fun r => mu (r.set f t)) + k * √(meanOver s.cfg.samples fun r => sd (r.set f t) ^ 2)) ((C + |k| * D) / (2 * ((s.cfg.perAxis : ℝ) - 1))) := by
    intro k zs hz
    rw [axis_scale hk hax hlin]
    have hvals : ∀ i < s.cfg.perAxis, xs[i]? = some (interpolate l u g (gridValue s.cfg.perAxis i)) ∧
        zs[i]? = some ((fun t => (meanOver s.cfg.samples fun r => mu (r.set f t)) + k * √(meanOver s.cfg.samples fun r => sd (r.set f t) ^ 2)) (gridValue s.cfg.perAxis i)) := by
      intro i hi
      obtain ⟨a1, a2, t, a3, a4, a5⟩ := h5 i hi
      refine ⟨a1, ?_⟩
      rw [hz.2 i _ _ a2 a3]
      dsimp only
      rw [← a5, Real.sqrt_mul_self a4]
    have hpts := fun {t : ℝ} (ht : t ∈ Set.Icc (0 : ℝ) 1) => line_points (ys := zs) (F := fun t => (meanOver s.cfg.samples fun r => mu (r.set f t)) + k * √(meanOver s.cfg.samples fun r => sd (r.set f t) ^ 2)) hlu hg hn h2 hvals ht
    refine fun t ht => ⟨(hpts ht).1, fun y hy => ?_⟩
    obtain ⟨a, b, w, ha, hb, hab, w0, w1, rfl, rfl⟩ := (hpts ht).2 y hy
    have hpos : 0 < b - a := by rw [hab]; positivity
    refine (chord_lipschitz (F := fun t => (meanOver s.cfg.samples fun r => mu (r.set f t)) + k * √(meanOver s.cfg.samples fun r => sd (r.set f t) ^ 2)) (C := C + |k| * D) ?_ ha hb
      (by linarith) w0 w1).trans_eq ?_
    · intro t ht t' ht'
      have k1 := meanOver_lipschitz (m := fun r t => mu (r.set f t)) hc.samples fun r hr => (hCD r hr t ht t' ht').1
      have k2 := rms_lipschitz (m := fun r t => sd (r.set f t)) hc.samples hD fun r hr => (hCD r hr t ht t' ht').2
      obtain ⟨p, hp⟩ : ∃ p, p = (√(meanOver s.cfg.samples fun r => sd (r.set f t) ^ 2) - √(meanOver s.cfg.samples fun r => sd (r.set f t') ^ 2)) := ⟨_, rfl⟩
      obtain ⟨q, hq⟩ : ∃ q, q = ((meanOver s.cfg.samples fun r => mu (r.set f t)) - meanOver s.cfg.samples fun r => mu (r.set f t')) := ⟨_, rfl⟩
      rw [← hp] at k2
      rw [← hq] at k1
      have : (meanOver s.cfg.samples fun r => mu (r.set f t)) + k * √(meanOver s.cfg.samples fun r => sd (r.set f t) ^ 2) -
          ((meanOver s.cfg.samples fun r => mu (r.set f t')) + k * √(meanOver s.cfg.samples fun r => sd (r.set f t') ^ 2)) = q + k * p := by rw [hp, hq]; ring
      rw [this]
      refine (abs_add_le _ _).trans ?_
      rw [abs_mul]
      have := mul_le_mul_of_nonneg_left k2 (abs_nonneg k)
      linarith
    · rw [hab]
      field_simp
  refine ⟨s', bands, xs, lo1, hi1, lo2, hi2, by rw [h1]; simp, by rw [← hb.length_eq, hfl], ?_, ?_⟩
  · intro k zs hz
    simp only [List.mem_cons, Prod.mk.injEq, List.not_mem_nil, or_false] at hz
    rcases hz with ⟨rfl, rfl⟩ | ⟨rfl, rfl⟩ | ⟨rfl, rfl⟩ | ⟨rfl, rfl⟩
    exacts [near _ _ l1, near _ _ u1, near _ _ l2, near _ _ u2]
  · intro b hbm
    obtain ⟨i, hi, rfl⟩ := List.getElem_of_mem hbm
    have hi' : i < fs.length := by rw [hb.length_eq]; exact hi
    obtain ⟨lo, hi2, e, e1, e2⟩ := (List.forall₂_iff_get.1 hb).2 i hi' hi
    obtain ⟨k0, k1⟩ := hfs _ (List.getElem_mem hi')
    refine ⟨_, lo, hi2, k0, k1, e, fun k zs hz => ?_⟩
    simp only [List.mem_cons, Prod.mk.injEq, List.not_mem_nil, or_false] at hz
    rcases hz with ⟨rfl, rfl⟩ | ⟨rfl, rfl⟩
    exacts [near _ _ e1, near _ _ e2]

/-- evenly spaced values are the values at evenly spaced fractions -/
theorem evenAxis_values {l u : ℝ} {g : Bool} (hlu : l < u) (hg : g = true → 0 < l) {n : Nat} (hn : 2 ≤ n) {xs : List ℝ} (h : EvenAxis l u g n xs) :
    ∀ i < n, xs[i]? = some (interpolate l u g (gridValue n i)) := by
  have hn1 : (0 : ℝ) < (n : ℝ) - 1 := by
    have : (2 : ℝ) ≤ n := by exact_mod_cast hn
    linarith
  obtain ⟨d, hd⟩ := h.step
  have hat : ∀ i < n, ∃ x, xs[i]? = some x ∧ l ≤ x := by
    intro i hi
    have hi' : i < xs.length := by rw [h.length]; exact hi
    refine ⟨xs[i], List.getElem?_eq_getElem hi', ?_⟩
    have h0 := h.head
    have hl0 : 0 < xs.length := by omega
    rw [List.getElem?_eq_getElem hl0] at h0
    rw [← Option.some.inj h0]
    rcases Nat.eq_zero_or_pos i with rfl | hp
    · exact le_rfl
    · exact (List.pairwise_iff_getElem.1 h.increasing 0 i hl0 hi' hp).le
  have hscr : ∃ c, ∀ i < n, ∀ x, xs[i]? = some x → screenOf g x = screenOf g l + i * c := by
    cases g with
    | false =>
      refine ⟨d, fun i => ?_⟩
      induction i with
      | zero =>
        intro _ x hx
        rw [h.head] at hx
        obtain rfl := Option.some.inj hx
        simp
      | succ i ih =>
        intro hi x hx
        obtain ⟨z, hz, -⟩ := hat i (by omega)
        have h1 := ih (by omega) z hz
        have h2 := hd i z x hz hx
        simp only [Bool.false_eq_true, if_false, screenOf] at h1 h2 ⊢
        push_cast
        linarith
    | true =>
      have hl := hg rfl
      refine ⟨Real.log d, fun i => ?_⟩
      induction i with
      | zero =>
        intro _ x hx
        rw [h.head] at hx
        obtain rfl := Option.some.inj hx
        simp
      | succ i ih =>
        intro hi x hx
        obtain ⟨z, hz, hz0⟩ := hat i (by omega)
        obtain ⟨x', hx', hx0⟩ := hat (i + 1) hi
        rw [hx] at hx'
        obtain rfl := Option.some.inj hx'
        have h1 := ih (by omega) z hz
        have h2 := hd i z x hz hx
        simp only [if_true, screenOf] at h1 h2 ⊢
        have hzp : 0 < z := by linarith
        have hd0 : d ≠ 0 := by
          rintro rfl
          rw [mul_zero] at h2
          linarith
        rw [h2, Real.log_mul hzp.ne' hd0, h1]
        push_cast
        ring
  obtain ⟨c, hc⟩ := hscr
  have hlast := hc (n - 1) (by omega) u h.last
  rw [Nat.cast_sub (by omega), Nat.cast_one] at hlast
  intro i hi
  obtain ⟨x, hx, hx0⟩ := hat i hi
  rw [hx]
  congr 1
  have e1 := hc i hi x hx
  have e2 := screen_interpolate hlu hg (gridValue n i)
  have hv : gridValue n i = (i : ℝ) / ((n : ℝ) - 1) := by rw [gridValue, if_neg (by omega)]
  have e3 : screenOf g x = screenOf g (interpolate l u g (gridValue n i)) := by
    rw [e1, e2, hlast, hv]
    field_simp
    ring
  cases g with
  | false => simpa [screenOf] using e3
  | true =>
    have hl := hg rfl
    simp only [screenOf, if_true] at e3
    refine Real.log_injOn_pos (Set.mem_Ioi.2 (by linarith)) ?_ e3
    simp only [interpolate, if_true, Set.mem_Ioi]
    have := Real.rpow_pos_of_pos hl (1 - gridValue n i)
    have := Real.rpow_pos_of_pos (hl.trans hlu) (gridValue n i)
    positivity

/-- **C195** The line that `plot_function` draws for a function of one hyperparameter with `n` samples per axis is within `C / (2 (n - 1))` of the function, over every
value between the bounds, if the function changes by at most `C` times the change of the normalised hyperparameter. -/
theorem C195_function {cs : ConfigSpace ℝ} {p : Hp ℝ} (hcs : varying cs = [p]) {l u : ℝ} {g : Bool} (hp : ValidNumerical p l u g) {n : Nat}
    (hn : 2 ≤ n) (f : List (String × Val ℝ) → Py ℝ) (color : String) {ax ax' : Ax ℝ} (hax : checkAndSetAxis [p] true "Prediction" ax = (ax', .ok ()))
    (hlin : g = false → ax.xlog = false) {V : ℝ → ℝ} (hV : ∀ consts, ConstantsOf cs consts → ∀ a ∈ Set.Icc l u, f ((p.name, .num a) :: consts) = .ok (V a)) {C : ℝ}
    (hC : ∀ t ∈ Set.Icc (0 : ℝ) 1, ∀ t' ∈ Set.Icc (0 : ℝ) 1, |V (interpolate l u g t) - V (interpolate l u g t')| ≤ C * |t - t'|) :
    ∃ xs ys, plotFunction f cs n color ax = (ax'.draw [.line color xs ys], .ok ()) ∧
      DrawnNear ax'.xlog l u g xs ys (fun t => V (interpolate l u g t)) (C / (2 * ((n : ℝ) - 1))) := by
  obtain ⟨xs, consts, h1, h2, h3, -⟩ := C73_one hcs hp hn f color hax
  have hval := evenAxis_values hp.2.1 hp.2.2 hn h1
  have hin : ∀ a ∈ xs, a ∈ Set.Icc l u := by
    intro a ha
    obtain ⟨i, hi, rfl⟩ := List.getElem_of_mem ha
    have hl0 : 0 < xs.length := by omega
    have hlast : xs.length - 1 < xs.length := by omega
    have e0 := h1.head
    have e1 := h1.last
    rw [← h1.length, List.getElem?_eq_getElem hlast] at e1
    rw [List.getElem?_eq_getElem hl0] at e0
    constructor
    · rw [← Option.some.inj e0]
      rcases Nat.eq_zero_or_pos i with rfl | hp
      · exact le_rfl
      · exact (List.pairwise_iff_getElem.1 h1.increasing 0 i hl0 hi hp).le
    · rw [← Option.some.inj e1]
      rcases Nat.lt_or_ge i (xs.length - 1) with h | h
      · exact (List.pairwise_iff_getElem.1 h1.increasing i _ hi hlast h).le
      · have : i = xs.length - 1 := by omega
        subst this
        exact le_rfl
  refine ⟨xs, xs.map V, h3 V fun a ha => hV consts h2 a (hin a ha), ?_⟩
  rw [axis_scale hp.1 hax hlin]
  have hn1 : (0 : ℝ) < (n : ℝ) - 1 := by
    have : (2 : ℝ) ≤ n := by exact_mod_cast hn
    linarith
  intro t ht
  have hpts := line_points (ys := xs.map V) (F := fun t => V (interpolate l u g t)) hp.2.1 hp.2.2 hn h1.length (fun i hi => ⟨hval i hi, by rw [List.getElem?_map, hval i hi]; rfl⟩) ht
  refine ⟨hpts.1, fun y hy => ?_⟩
  obtain ⟨a, b, w, ha, hb, hab, w0, w1, rfl, rfl⟩ := hpts.2 y hy
  have hpos : 0 < b - a := by rw [hab]; positivity
  refine (chord_lipschitz (F := fun t => V (interpolate l u g t)) hC ha hb (by linarith) w0 w1).trans_eq ?_
  rw [hab]
  field_simp

/-- the squares of one hyperparameter between 0 and 2, eleven samples: the line is nowhere further than 2/5 from the parabola -/
example : ∃ xs ys, plotFunction (fun kw => match kw with | (_, .num a) :: _ => .ok (a ^ 2) | _ => .error .type) [⟨"x", .float 0 2 false⟩] 11 "red" (Ax.new : Ax ℝ) =
      ((⟨"x", "Prediction", false, false, some (0, 2), none, []⟩ : Ax ℝ).draw [.line "red" xs ys], .ok ()) ∧
    ∀ t ∈ Set.Icc (0 : ℝ) 1, ∃ y, OnLine false xs ys (2 * t) y ∧ |y - (2 * t) ^ 2| ≤ 2 / 5 := by
  obtain ⟨xs, ys, h1, h2⟩ := C195_function (cs := [⟨"x", .float 0 2 false⟩]) (p := ⟨"x", .float 0 2 false⟩) rfl (l := 0) (u := 2) (g := false) ⟨.inl rfl, by norm_num, by simp⟩
    (n := 11) (by norm_num) (fun kw => match kw with | (_, .num a) :: _ => .ok (a ^ 2) | _ => .error .type) "red" (ax := Ax.new)
    (ax' := ⟨"x", "Prediction", false, false, some (0, 2), none, []⟩) rfl (fun _ => rfl) (V := fun a => a ^ 2) (fun _ _ _ _ => rfl) (C := 8) (by
      intro t ht t' ht'
      simp only [interpolate, Bool.false_eq_true, if_false, mul_zero, zero_add]
      rw [show (t * 2) ^ 2 - (t' * 2) ^ 2 = 4 * (t + t') * (t - t') by ring, abs_mul]
      refine mul_le_mul_of_nonneg_right ?_ (abs_nonneg _)
      rw [abs_of_nonneg (by have := ht.1; have := ht'.1; positivity)]
      linarith [ht.2, ht'.2])
  refine ⟨xs, ys, h1, fun t ht => ?_⟩
  obtain ⟨⟨y, hy⟩, hb⟩ := h2 t ht
  have hx : interpolate 0 2 false t = 2 * t := by simp [interpolate, mul_comm]
  have := hb y hy
  rw [hx] at hy
  refine ⟨y, hy, ?_⟩
  simp only [hx] at this
  norm_num at this ⊢
  linarith

/-- a logarithmic axis from 1 to 100 with six grid points: the line passes over 10 within 3/400 of the partial dependence 1/8 there -/
example : ∃ s' xs ys, pdpPlotValues "red" (⟨⟨[⟨"lr", .float 1 100 true⟩, ⟨"x2", .float 0 1 false⟩], [⟨"lr", .float 1 100 true⟩], [[0, 1 / 4], [1 / 2, 3 / 4]], 2, 6, 6, false,
      fun X => .ok (X.map fun r => r.getD 0 0 ^ 2 * r.getD 1 0, X.map fun _ => 1)⟩, none, none, none, none⟩ : PdpState ℝ) Ax.new =
        (s', (⟨"lr", "Prediction", true, false, some (1, 100), none, []⟩ : Ax ℝ).draw [.line "red" xs ys], .ok ()) ∧
      ∃ y, OnLine true xs ys 10 y ∧ |y - 1 / 8| ≤ 3 / 400 := by
  have hwf : ConfigSpace.WF ([⟨"lr", .float 1 100 true⟩, ⟨"x2", .float 0 1 false⟩] : ConfigSpace ℝ) := by simp [ConfigSpace.WF]
  have hc : Plottable (⟨[⟨"lr", .float 1 100 true⟩, ⟨"x2", .float 0 1 false⟩], [⟨"lr", .float 1 100 true⟩], [[0, 1 / 4], [1 / 2, 3 / 4]], 2, 6, 6, false,
      fun X => .ok (X.map fun r => r.getD 0 0 ^ 2 * r.getD 1 0, X.map fun _ => 1)⟩ : IceCfg ℝ) (fun r => r.getD 0 0 ^ 2 * r.getD 1 0) fun _ => 1 := by
    refine ⟨⟨hwf, by simp, by simp, by simp, by simp, rfl, rfl⟩, ?_, ?_, by simp, by norm_num, fun _ _ _ => rfl⟩
    · intro hp hm
      simp only [List.mem_cons, List.not_mem_nil, or_false] at hm
      rcases hm with rfl | rfl
      · exact ⟨1, 100, true, hwf, ⟨_, by simp, rfl, .inl rfl⟩, by norm_num, by norm_num⟩
      · exact ⟨0, 1, false, hwf, ⟨_, by simp, rfl, .inl rfl⟩, by norm_num, by simp⟩
    · intro r hr e he
      simp only [List.mem_cons, List.not_mem_nil, or_false] at hr
      rcases hr with rfl | rfl <;> simp only [List.mem_cons, List.not_mem_nil, or_false] at he <;> rcases he with rfl | rfl <;> norm_num
  obtain ⟨s', xs, ys, h1, -, h2⟩ := C195_pdp (s := ⟨_, none, none, none, none⟩) ⟨rfl, rfl, rfl⟩ rfl hc (hp := ⟨"lr", .float 1 100 true⟩) rfl (.inl rfl) (by norm_num) (by norm_num) (f := 0)
    ⟨_, rfl, rfl⟩ (by norm_num) (ax := Ax.new) (ax' := ⟨"lr", "Prediction", true, false, some (1, 100), none, []⟩) rfl (by simp) "red"
  refine ⟨s', xs, ys, h1, ?_⟩
  obtain ⟨⟨y, hy⟩, hb⟩ := h2 (3 / 2) (fun r t => 2 * t * r.getD 1 0) (fun r t => 2 * r.getD 1 0) (by
    intro r hr t ht
    have : ∃ a b, r = [a, b] ∧ 0 ≤ b ∧ b ≤ 3 / 4 := by
      simp only [List.mem_cons, List.not_mem_nil, or_false] at hr
      rcases hr with rfl | rfl
      · exact ⟨_, _, rfl, by norm_num, by norm_num⟩
      · exact ⟨_, _, rfl, by norm_num, by norm_num⟩
    obtain ⟨a, b, rfl, b0, b1⟩ := this
    simp only [List.set_cons_zero, List.getD_cons_zero, List.getD_cons_succ]
    refine ⟨?_, ?_, ?_⟩
    · have := (hasDerivAt_pow 2 t).mul_const b
      simpa using this
    · have := ((hasDerivAt_id t).const_mul 2).mul_const b
      simpa using this
    · rw [abs_of_nonneg (by positivity)]
      linarith) (1 / 2) ⟨by norm_num, by norm_num⟩
  have hx : interpolate 1 100 true (1 / 2) = 10 := by
    simp only [interpolate, if_true, Real.one_rpow, one_mul, ← Real.sqrt_eq_rpow]
    rw [show (100 : ℝ) = 10 ^ 2 by norm_num, Real.sqrt_sq (by norm_num)]
  have hy2 := hb y hy
  rw [hx] at hy
  refine ⟨y, hy, ?_⟩
  norm_num [meanOver] at hy2 ⊢
  exact hy2

end line

end PyPDP
