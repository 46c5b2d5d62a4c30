/-
C185: the maximum mean discrepancy is at most the mean distance of matched points, in units of the median distance.
-/
import Verif.Lemmas.Matern
import Verif.Props.MMD
import Mathlib.Analysis.InnerProductSpace.PiL2
import Mathlib.Analysis.Matrix.Order

namespace PyPDP
open Spec Matrix MatrixOrder

/-! ### the kernel as an inner product -/

theorem rbf_features (d : Nat) (l : ℝ) (L : List (List ℝ)) :
    ∃ F : List ℝ → EuclideanSpace ℝ (Fin L.length), ∀ a ∈ L, ∀ b ∈ L, inner ℝ (F a) (F b) = rbfKernel d l a b := by
  obtain ⟨v, hv⟩ : ∃ v : Fin L.length → Fin d → ℝ, v = fun i k => L[i].getD k 0 := ⟨_, rfl⟩
  have hpos := Matern.gaussian v (τ := 1 / (2 * l ^ 2)) (by positivity)
  have hk : ∀ i j : Fin L.length, Real.exp (-(1 / (2 * l ^ 2) * Matern.dist2 v i j)) = rbfKernel d l L[i] L[j] := by
    intro i j
    unfold rbfKernel euclid Matern.dist2
    rw [Real.sq_sqrt (Finset.sum_nonneg fun _ _ => sq_nonneg _), Finset.sum_range, hv]
    congr 1
    ring
  obtain ⟨B, hB⟩ := CStarAlgebra.nonneg_iff_eq_star_mul_self.mp (Matern.pos_iff.1 hpos).nonneg
  have hin : ∃ G : Fin L.length → EuclideanSpace ℝ (Fin L.length), ∀ i j : Fin L.length, inner ℝ (G i) (G j) = rbfKernel d l L[i] L[j] := by
    refine ⟨fun i => WithLp.toLp 2 fun k => B k i, fun i j => ?_⟩
    rw [← hk i j]
    have := congrFun (congrFun hB i) j
    simp only [of_apply, star_eq_conjTranspose, mul_apply, conjTranspose_apply, star_trivial] at this
    rw [this, PiLp.inner_apply]
    exact Finset.sum_congr rfl fun k _ => by simp [mul_comm]
  obtain ⟨G, hin⟩ := hin
  refine ⟨fun a => if h : ∃ i : Fin L.length, L[i] = a then G h.choose else 0, fun a ha b hb => ?_⟩
  have hex : ∀ a ∈ L, ∃ i : Fin L.length, L[i] = a := fun a ha => by
    obtain ⟨i, hi, h⟩ := List.mem_iff_getElem.1 ha
    exact ⟨⟨i, hi⟩, h⟩
  dsimp only
  rw [dif_pos (hex a ha), dif_pos (hex b hb), hin, (hex a ha).choose_spec, (hex b hb).choose_spec]

/-- features of points are not further apart than the points, in units of the length scale, nor than `√2` -/
theorem feature_distance {d : Nat} {l : ℝ} (hl : 0 < l) {E : Type} [NormedAddCommGroup E] [InnerProductSpace ℝ E] {F : List ℝ → E} {a b : List ℝ}
    (h1 : inner ℝ (F a) (F a) = rbfKernel d l a a) (h2 : inner ℝ (F b) (F b) = rbfKernel d l b b) (h3 : inner ℝ (F a) (F b) = rbfKernel d l a b) :
    ‖F a - F b‖ ≤ min (√2) (euclid d a b / l) := by
  have hself : ∀ c, rbfKernel d l c c = 1 := fun c => by simp [rbfKernel, euclid]
  have e : ‖F a - F b‖ ^ 2 = 2 - 2 * rbfKernel d l a b := by
    rw [norm_sub_sq_real, ← real_inner_self_eq_norm_sq, ← real_inner_self_eq_norm_sq, h1, h2, h3, hself, hself]
    ring
  have hk0 : 0 ≤ rbfKernel d l a b := (Real.exp_pos _).le
  have hk1 : 1 - (euclid d a b) ^ 2 / (2 * l ^ 2) ≤ rbfKernel d l a b := by
    have := Real.add_one_le_exp (-(euclid d a b) ^ 2 / (2 * l ^ 2))
    unfold rbfKernel
    have e : -(euclid d a b) ^ 2 / (2 * l ^ 2) = -((euclid d a b) ^ 2 / (2 * l ^ 2)) := by ring
    linarith
  have hE : 0 ≤ euclid d a b := Real.sqrt_nonneg _
  refine le_min ?_ ?_
  · refine Real.le_sqrt_of_sq_le ?_
    linarith
  · refine abs_le_of_sq_le_sq' ?_ (by positivity) |>.2
    rw [e, div_pow]
    have : (euclid d a b) ^ 2 / (2 * l ^ 2) * 2 = (euclid d a b) ^ 2 / l ^ 2 := by field_simp
    linarith

/-! ### the estimate and the distance of the mean features -/

section features
variable {E : Type} [NormedAddCommGroup E] [InnerProductSpace ℝ E]

/-- the mean of the features of the points -/
noncomputable def meanFeature (F : List ℝ → E) (X : List (List ℝ)) : E := (1 / (X.length : ℝ)) • ∑ i ∈ Finset.range X.length, F (X.getD i [])

theorem getD_mem {α : Type} {X : List α} {i : Nat} {z : α} (h : i < X.length) : X.getD i z ∈ X := by
  simp [h]

theorem inner_meanFeature {k : List ℝ → List ℝ → ℝ} {F : List ℝ → E} {X Y : List (List ℝ)} (h : ∀ a ∈ X, ∀ b ∈ Y, inner ℝ (F a) (F b) = k a b) :
    inner ℝ (meanFeature F X) (meanFeature F Y) = meanCross k X Y := by
  unfold meanFeature meanCross
  rw [inner_smul_left, inner_smul_right, sum_inner]
  simp only [inner_sum]
  rw [Finset.sum_congr rfl fun i hi => Finset.sum_congr rfl fun j hj =>
    h _ (getD_mem (z := []) (Finset.mem_range.1 hi)) _ (getD_mem (z := []) (Finset.mem_range.1 hj))]
  simp only [conj_trivial]
  field_simp

/-- the mean over different points is at most the mean over all points -/
theorem meanWithin_le {k : List ℝ → List ℝ → ℝ} (h1 : ∀ a, k a a = 1) (hk : ∀ a b, k a b ≤ 1) {X : List (List ℝ)} (hn : 2 ≤ X.length) :
    meanWithin k X ≤ meanCross k X X := by
  unfold meanWithin meanCross
  obtain ⟨S, hS⟩ : ∃ S, S = ∑ i ∈ Finset.range X.length, ∑ j ∈ Finset.range X.length, k (X.getD i []) (X.getD j []) := ⟨_, rfl⟩
  have hsum : ∑ i ∈ Finset.range X.length, ∑ j ∈ (Finset.range X.length).erase i, k (X.getD i []) (X.getD j []) = S - X.length := by
    rw [hS, eq_sub_iff_add_eq]
    have : (X.length : ℝ) = ∑ i ∈ Finset.range X.length, k (X.getD i []) (X.getD i []) := by simp [h1]
    rw [this, ← Finset.sum_add_distrib]
    exact Finset.sum_congr rfl fun i hi => Finset.sum_erase_add _ _ hi
  have hle : S ≤ (X.length : ℝ) * X.length := by
    rw [hS]
    calc _ ≤ ∑ i ∈ Finset.range X.length, ∑ j ∈ Finset.range X.length, (1 : ℝ) := Finset.sum_le_sum fun i _ => Finset.sum_le_sum fun j _ => hk _ _
      _ = _ := by simp
  rw [hsum, ← hS]
  have hn' : (2 : ℝ) ≤ X.length := by exact_mod_cast hn
  rw [div_le_div_iff₀ (by nlinarith) (by nlinarith)]
  nlinarith [mul_nonneg (by linarith : (0 : ℝ) ≤ X.length) (sub_nonneg.2 hle)]

theorem rbf_self (d : Nat) (l : ℝ) (a : List ℝ) : rbfKernel d l a a = 1 := by simp [rbfKernel, euclid]

/-- what is estimated without bias is at most the squared distance of the mean features -/
theorem mmdSquared_le {d : Nat} {l : ℝ} {F : List ℝ → E} {X Y : List (List ℝ)} (hn : 2 ≤ X.length) (hm : 2 ≤ Y.length)
    (h : ∀ a ∈ X ++ Y, ∀ b ∈ X ++ Y, inner ℝ (F a) (F b) = rbfKernel d l a b) :
    mmdSquared (rbfKernel d l) X Y ≤ ‖meanFeature F X - meanFeature F Y‖ ^ 2 := by
  rw [norm_sub_sq_real, ← real_inner_self_eq_norm_sq, ← real_inner_self_eq_norm_sq,
    inner_meanFeature (k := rbfKernel d l) fun a ha b hb => h a (by simp [ha]) b (by simp [hb]),
    inner_meanFeature (k := rbfKernel d l) fun a ha b hb => h a (by simp [ha]) b (by simp [hb]),
    inner_meanFeature (k := rbfKernel d l) fun a ha b hb => h a (by simp [ha]) b (by simp [hb])]
  unfold mmdSquared
  have hX := meanWithin_le (rbf_self d l) (rbfKernel_le_one d l) hn
  have hY := meanWithin_le (rbf_self d l) (rbfKernel_le_one d l) hm
  linarith

end features

/-- the result, in terms of features -/
theorem mmd_features {d : Nat} {Xs Xu : List (List ℝ)} (hXs : ∀ r ∈ Xs, r.length = d) (hXu : ∀ r ∈ Xu, r.length = d) {r l : ℝ}
    (hl : medianDistanceBetweenPoints (Xs ++ Xu) = .ok l) (h : maximumMeanDiscrepancy Xs Xu = .ok r) (R : List (List ℝ)) :
    0 < l ∧ Xs ≠ [] ∧ Xu ≠ [] ∧ ∃ (N : Nat) (F : List ℝ → EuclideanSpace ℝ (Fin N)),
      (∀ a ∈ Xs ++ Xu ++ R, ∀ b ∈ Xs ++ Xu ++ R, ‖F a - F b‖ ≤ min (√2) (euclid d a b / l)) ∧ (∀ a ∈ Xs ++ Xu ++ R, ‖F a‖ = 1) ∧
      r ≤ ‖meanFeature F Xs - meanFeature F Xu‖ := by
  have hnm : 2 ≤ Xs.length ∧ 2 ≤ Xu.length := by
    unfold maximumMeanDiscrepancy at h
    rw [hl, Py.ok_bind] at h
    dsimp only at h
    by_contra hc
    rw [if_pos (by omega)] at h
    cases h
  have hne : ∃ a ∈ Xs ++ Xu, ∃ b ∈ Xs ++ Xu, a ≠ b := by
    by_contra hc
    push Not at hc
    rw [C33_undefined hXs hXu (.inr (.inr hc))] at h
    cases h
  obtain ⟨l', r', h1, h2, h3, h4, h5⟩ := C33_value hXs hXu hnm.1 hnm.2 hne
  rw [hl] at h1
  obtain rfl := Except.ok.inj h1
  rw [h] at h3
  obtain rfl := Except.ok.inj h3
  obtain ⟨F, hF⟩ := rbf_features d l (Xs ++ Xu ++ R)
  refine ⟨h2, by rintro rfl; simp at hnm, by rintro rfl; simp at hnm, _, F, fun a ha b hb => feature_distance h2 (hF a ha a ha) (hF b hb b hb) (hF a ha b hb), fun a ha => ?_, ?_⟩
  · have := hF a ha a ha
    rw [rbf_self, real_inner_self_eq_norm_sq] at this
    nlinarith [norm_nonneg (F a)]
  · refine abs_le_of_sq_le_sq' ?_ (norm_nonneg _) |>.2
    rw [h5]
    refine max_le (sq_nonneg _) (mmdSquared_le hnm.1 hnm.2 fun a ha b hb => hF a (by simp at ha ⊢; tauto) b (by simp at hb ⊢; tauto))

/-- **C185** The discrepancy is at most the mean distance of matched points, in units of the median distance of all points: if the samples and the uniform points
are matched with weights `w` (every sample has the total weight `1 / n`, every uniform point `1 / m`), then the result is at most the weighted mean of the
distances divided by the median distance; every summand may also be replaced by `√2`. -/
theorem C185_transport {d : Nat} {Xs Xu : List (List ℝ)} (hXs : ∀ r ∈ Xs, r.length = d) (hXu : ∀ r ∈ Xu, r.length = d) {r l : ℝ}
    (hl : medianDistanceBetweenPoints (Xs ++ Xu) = .ok l) (h : maximumMeanDiscrepancy Xs Xu = .ok r) {w : Nat → Nat → ℝ} (hw : ∀ i j, 0 ≤ w i j)
    (hrow : ∀ i < Xs.length, ∑ j ∈ Finset.range Xu.length, w i j = 1 / Xs.length) (hcol : ∀ j < Xu.length, ∑ i ∈ Finset.range Xs.length, w i j = 1 / Xu.length) :
    r ≤ ∑ i ∈ Finset.range Xs.length, ∑ j ∈ Finset.range Xu.length, w i j * min (√2) (euclid d (Xs.getD i []) (Xu.getD j []) / l) := by
  obtain ⟨-, -, -, N, F, h1, -, h3⟩ := mmd_features hXs hXu hl h []
  refine h3.trans ?_
  have e : meanFeature F Xs - meanFeature F Xu =
      ∑ i ∈ Finset.range Xs.length, ∑ j ∈ Finset.range Xu.length, w i j • (F (Xs.getD i []) - F (Xu.getD j [])) := by
    simp only [smul_sub, Finset.sum_sub_distrib]
    congr 1
    · unfold meanFeature
      rw [Finset.smul_sum]
      refine Finset.sum_congr rfl fun i hi => ?_
      rw [← Finset.sum_smul, hrow i (Finset.mem_range.1 hi)]
    · unfold meanFeature
      rw [Finset.smul_sum, Finset.sum_comm]
      refine Finset.sum_congr rfl fun j hj => ?_
      rw [← Finset.sum_smul, hcol j (Finset.mem_range.1 hj)]
  rw [e]
  refine (norm_sum_le _ _).trans (Finset.sum_le_sum fun i hi => (norm_sum_le _ _).trans (Finset.sum_le_sum fun j hj => ?_))
  rw [norm_smul, Real.norm_eq_abs, abs_of_nonneg (hw i j)]
  refine mul_le_mul_of_nonneg_left (h1 _ ?_ _ ?_) (hw i j)
  · exact List.mem_append_left _ (List.mem_append_left _ (getD_mem (Finset.mem_range.1 hi)))
  · exact List.mem_append_left _ (List.mem_append_right _ (getD_mem (Finset.mem_range.1 hj)))

/-- **C185** If the `i`-th sample is at most `δ` away from the `i`-th uniform point, the result is at most `δ` divided by the median distance. -/
theorem C185_matched {d : Nat} {Xs Xu : List (List ℝ)} (hXs : ∀ r ∈ Xs, r.length = d) (hXu : ∀ r ∈ Xu, r.length = d) {r l : ℝ}
    (hl : medianDistanceBetweenPoints (Xs ++ Xu) = .ok l) (h : maximumMeanDiscrepancy Xs Xu = .ok r) (hlen : Xs.length = Xu.length) {δ : ℝ}
    (hδ : ∀ i < Xs.length, euclid d (Xs.getD i []) (Xu.getD i []) ≤ δ) : r ≤ δ / l := by
  obtain ⟨hl0, hne, -, -⟩ := mmd_features hXs hXu hl h []
  have hn : (0 : ℝ) < Xs.length := by exact_mod_cast List.length_pos_iff.2 hne
  refine (C185_transport hXs hXu hl h (w := fun i j => if i = j then 1 / (Xs.length : ℝ) else 0) (fun i j => by split <;> positivity) (fun i hi => ?_)
    fun j hj => ?_).trans ?_
  · rw [Finset.sum_ite_eq, if_pos (by rw [Finset.mem_range]; omega)]
  · rw [Finset.sum_ite_eq', if_pos (by rw [Finset.mem_range]; omega), hlen]
  · calc _ ≤ ∑ i ∈ Finset.range Xs.length, 1 / (Xs.length : ℝ) * (δ / l) := by
          refine Finset.sum_le_sum fun i hi => ?_
          have hi := Finset.mem_range.1 hi
          rw [Finset.sum_congr rfl fun j _ => ite_mul _ _ _ _]
          simp only [zero_mul]
          rw [Finset.sum_ite_eq, if_pos (by rw [Finset.mem_range]; omega)]
          refine mul_le_mul_of_nonneg_left ((min_le_right _ _).trans ?_) (by positivity)
          exact div_le_div_of_nonneg_right (hδ i hi) hl0.le
      _ = _ := by
          rw [Finset.sum_const, Finset.card_range, nsmul_eq_mul, ← mul_assoc, mul_one_div_cancel hn.ne', one_mul]

/-- how often the points are in the cell -/
noncomputable def Spec.frequency {ι : Type} [DecidableEq ι] (cell : List ℝ → ι) (X : List (List ℝ)) (c : ι) : ℝ :=
  (X.countP fun x => decide (cell x = c)) / X.length

/-- **C185** The discrepancy is small if the samples and the uniform points are in the cells of a partition about equally often: with `δ` the largest distance of a
point from the representative of its cell, the result is at most `2 δ` divided by the median distance plus the sum of the differences of the frequencies. -/
theorem C185_cells {d : Nat} {Xs Xu : List (List ℝ)} (hXs : ∀ r ∈ Xs, r.length = d) (hXu : ∀ r ∈ Xu, r.length = d) {r l : ℝ}
    (hl : medianDistanceBetweenPoints (Xs ++ Xu) = .ok l) (h : maximumMeanDiscrepancy Xs Xu = .ok r) {ι : Type} [DecidableEq ι] [Fintype ι]
    (cell : List ℝ → ι) (rep : ι → List ℝ) {δ : ℝ} (hδ : ∀ x ∈ Xs ++ Xu, euclid d x (rep (cell x)) ≤ δ) :
    r ≤ 2 * δ / l + ∑ c, |frequency cell Xs c - frequency cell Xu c| := by
  obtain ⟨hl0, hne1, hne2, N, F, h1, h2, h3⟩ := mmd_features hXs hXu hl h (Finset.univ.toList.map rep)
  have hrep : ∀ c, rep c ∈ Xs ++ Xu ++ Finset.univ.toList.map rep := fun c => by simp
  -- the mean feature is near the one of the representatives
  have hone : ∀ X : List (List ℝ), X ≠ [] → (∀ x ∈ X, x ∈ Xs ++ Xu) → ‖meanFeature F X - ∑ c, frequency cell X c • F (rep c)‖ ≤ δ / l := by
    intro X hX hsub
    have hn : (0 : ℝ) < X.length := by exact_mod_cast List.length_pos_iff.2 hX
    have e : ∑ c, frequency cell X c • F (rep c) = (1 / (X.length : ℝ)) • ∑ i ∈ Finset.range X.length, F (rep (cell (X.getD i []))) := by
      have hcount : ∀ c, ((X.countP fun x => decide (cell x = c) : Nat) : ℝ) = ∑ i ∈ Finset.range X.length, if cell (X.getD i []) = c then (1 : ℝ) else 0 := by
        intro c
        rw [sum_range_getD X fun x => if cell x = c then (1 : ℝ) else 0]
        clear hn hX hsub
        induction X with
        | nil => simp
        | cons x xs ih =>
          rw [List.countP_cons, List.map_cons, List.sum_cons, ← ih]
          by_cases hc : cell x = c <;> simp [hc, add_comm]
      simp only [frequency, hcount, div_eq_inv_mul, mul_smul, ← Finset.smul_sum, Finset.sum_smul]
      rw [one_smul, Finset.sum_comm]
      congr 1
      refine Finset.sum_congr rfl fun i _ => ?_
      simp only [ite_smul, one_smul, zero_smul]
      rw [Finset.sum_ite_eq, if_pos (Finset.mem_univ _)]
    rw [meanFeature, e, ← smul_sub, ← Finset.sum_sub_distrib, norm_smul, Real.norm_eq_abs, abs_of_pos (by positivity)]
    calc _ ≤ 1 / (X.length : ℝ) * ∑ i ∈ Finset.range X.length, δ / l := by
          refine mul_le_mul_of_nonneg_left ((norm_sum_le _ _).trans (Finset.sum_le_sum fun i hi => ?_)) (by positivity)
          have hx := hsub _ (getD_mem (z := []) (Finset.mem_range.1 hi))
          refine (h1 _ (List.mem_append_left _ hx) _ (hrep _)).trans ((min_le_right _ _).trans ?_)
          exact div_le_div_of_nonneg_right (hδ _ hx) hl0.le
      _ = _ := by
          rw [Finset.sum_const, Finset.card_range, nsmul_eq_mul, ← mul_assoc, one_div_mul_cancel hn.ne', one_mul]
  have hmid : ‖∑ c, frequency cell Xs c • F (rep c) - ∑ c, frequency cell Xu c • F (rep c)‖ ≤ ∑ c, |frequency cell Xs c - frequency cell Xu c| := by
    rw [← Finset.sum_sub_distrib]
    refine (norm_sum_le _ _).trans (Finset.sum_le_sum fun c _ => ?_)
    rw [← sub_smul, norm_smul, Real.norm_eq_abs, h2 _ (hrep c), mul_one]
  have a1 := hone Xs hne1 fun x hx => by simp [hx]
  have a2 := hone Xu hne2 fun x hx => by simp [hx]
  rw [norm_sub_rev] at a2
  have t1 := norm_sub_le_norm_sub_add_norm_sub (meanFeature F Xs) (∑ c, frequency cell Xs c • F (rep c)) (meanFeature F Xu)
  have t2 := norm_sub_le_norm_sub_add_norm_sub (∑ c, frequency cell Xs c • F (rep c)) (∑ c, frequency cell Xu c • F (rep c)) (meanFeature F Xu)
  have : 2 * δ / l = δ / l + δ / l := by ring
  linarith

end PyPDP
