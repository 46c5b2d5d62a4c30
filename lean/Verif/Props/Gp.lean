/-
C99: the Gaussian process surrogate.
-/
import Verif.Spec.Gp
import Verif.Spec.Surrogate
import Verif.Lemmas.Matern

namespace PyPDP
open Spec Matrix

theorem gpAlpha_pos : 0 < gpAlpha := by unfold gpAlpha; positivity

/-- the covariance matrix of some rows -/
noncomputable def gram (k : Kernel) (Z : List (List ℝ)) : Matrix (Fin Z.length) (Fin Z.length) ℝ := Matrix.of fun i j => k Z[i] Z[j]

theorem gram_psd {d : Nat} {k : Kernel} (hk : Covariance d k) {Z : List (List ℝ)} (hZ : ∀ z ∈ Z, z.length = d) : (gram k Z).PosSemidef := by
  have hl : ∀ i : Fin Z.length, (Z[i]).length = d := fun i => hZ _ (List.getElem_mem _)
  refine PosSemidef.of_dotProduct_mulVec_nonneg ?_ fun c => ?_
  · ext i j
    simp only [gram, conjTranspose_apply, of_apply, star_trivial]
    exact hk.1 _ _ (hl j) (hl i)
  · have h := hk.2 Z.length (fun i => Z[i]) c hl
    have e : star c ⬝ᵥ (gram k Z *ᵥ c) = ∑ i, ∑ j, c i * c j * k Z[i] Z[j] := by
      simp only [dotProduct, mulVec, gram, of_apply, Pi.star_apply, star_trivial, Finset.mul_sum]
      exact Finset.sum_congr rfl fun i _ => Finset.sum_congr rfl fun j _ => by ring
    rw [e]; exact h

theorem gramAlpha_eq (k : Kernel) (Z : List (List ℝ)) : gramAlpha k Z = gram k Z + gpAlpha • 1 := rfl

theorem gramAlpha_pd {d : Nat} {k : Kernel} (hk : Covariance d k) {Z : List (List ℝ)} (hZ : ∀ z ∈ Z, z.length = d) :
    (gramAlpha k Z).PosDef := by
  rw [gramAlpha_eq]
  exact PosDef.posSemidef_add (gram_psd hk hZ) (PosDef.one.smul gpAlpha_pos)

theorem Scaler.row_length {s : Scaler} {d : Nat} (h1 : s.mean.length = d) (h2 : s.scale.length = d) {r : List ℝ} (hr : r.length = d) :
    (s.row r).length = d := by
  simp [Scaler.row, h1, h2, hr]

theorem Scaler.fit_length (d : Nat) (X : List (List ℝ)) : (Scaler.fit d X).mean.length = d ∧ (Scaler.fit d X).scale.length = d := by
  simp [Scaler.fit]

/-- the normalised targets -/
noncomputable def normalised (y : List ℝ) : List ℝ := y.map fun v => (v - npMean y) / handleZeros (npStd y)

/-- what a successful fit stores -/
noncomputable def fitted (d : Nat) (choose : List (List ℝ) → List ℝ → Kernel) (X : List (List ℝ)) (y : List ℝ) : GpFit :=
  ⟨Scaler.fit d X, d, choose (X.map (Scaler.fit d X).row) (normalised y), X.map (Scaler.fit d X).row, npMean y, handleZeros (npStd y),
    fun i => (y.getD i 0 - npMean y) / handleZeros (npStd y)⟩

theorem pipelineFit_ok {d : Nat} {choose : List (List ℝ) → List ℝ → Kernel} (hk : ∀ Z t, Covariance d (choose Z t)) {X : List (List ℝ)}
    {y : List ℝ} (h : TrainingData d X y) :
    pipelineFit choose X y = .ok (fitted d choose X y) := by
  obtain ⟨hX, hw, hd, hy⟩ := h
  match X, hX, hw, hy with
  | r :: X, _, hw, hy =>
    have hr : r.length = d := hw r (by simp)
    unfold pipelineFit
    dsimp only
    rw [if_neg]
    · rw [if_pos]
      · rw [hr]; rfl
      · rw [hr]
        refine gramAlpha_pd (hk _ _) fun z hz => ?_
        obtain ⟨q, hq, rfl⟩ := List.mem_map.1 hz
        exact Scaler.row_length (Scaler.fit_length _ _).1 (Scaler.fit_length _ _).2 (hw q hq)
    · rintro (h0 | ⟨q, hq, hne⟩ | hne)
      · omega
      · exact hne (by rw [hw q hq, hr])
      · exact hne hy

theorem fit_ok {d : Nat} {choose : List (List ℝ) → List ℝ → Kernel} (hk : ∀ Z t, Covariance d (choose Z t)) {X : List (List ℝ)}
    {y : List ℝ} (h : TrainingData d X y) (s : GpSurrogate) :
    s.fit choose X y = (⟨y.length, some (fitted d choose X y)⟩, .ok ()) := by
  rw [GpSurrogate.fit, pipelineFit_ok hk h]

theorem predict_rowWise (n : Nat) (g : GpFit) :
    RowWise g.dim (GpSurrogate.predict ⟨n, some g⟩) (fun r => g.meanAt (g.scaler.row r)) (fun r => g.stdAt (g.scaler.row r)) := by
  intro Q hQ hd
  rw [GpSurrogate.predict]
  dsimp only
  rw [if_neg, List.map_map, List.map_map]
  · rfl
  · rintro (h0 | ⟨r, hr, hne⟩)
    · exact hQ h0
    · exact hne (hd r hr)

theorem predict_one {n : Nat} {g : GpFit} {r : List ℝ} (hr : r.length = g.dim) :
    GpSurrogate.predict ⟨n, some g⟩ [r] = .ok ([g.meanAt (g.scaler.row r)], [g.stdAt (g.scaler.row r)]) := by
  rw [predict_rowWise n g [r] (by simp) (by simpa using hr)]; rfl

/-- **C99** fitting to data with a covariance function succeeds, `num_fitted_points` is the number of training points, and the
predictions are row by row: a mean and a non-negative standard deviation for each row of the training width. Arrays without rows or
with rows of another width are a ValueError, as is predicting before fitting. -/
theorem C99_fit {d : Nat} {choose : List (List ℝ) → List ℝ → Kernel} (hk : ∀ Z t, Covariance d (choose Z t)) {X : List (List ℝ)}
    {y : List ℝ} (h : TrainingData d X y) (s : GpSurrogate) :
    ∃ s', s.fit choose X y = (s', .ok ()) ∧ s'.numFitted = X.length ∧
      (∃ mu sd, RowWise d s'.predict mu sd ∧ ∀ r, 0 ≤ sd r) ∧
      (∀ Q, Q = [] ∨ (∃ r ∈ Q, r.length ≠ d) → s'.predict Q = .error .value) ∧
      ∀ Q, GpSurrogate.new.predict Q = .error .value := by
  refine ⟨_, fit_ok hk h s, h.targets, ⟨_, _, predict_rowWise _ (fitted d choose X y), fun r => Real.sqrt_nonneg _⟩, fun Q hQ => ?_,
    fun Q => rfl⟩
  rw [GpSurrogate.predict]
  dsimp only
  exact if_pos hQ

/-! ### normalisation of the targets -/

theorem npMean_affine {y : List ℝ} (hy : y ≠ []) (a b : ℝ) : npMean (y.map fun v => a * v + b) = a * npMean y + b := by
  have hn : (y.length : ℝ) ≠ 0 := by simpa using hy
  have e : ∀ l : List ℝ, (l.map fun v => a * v + b).sum = a * l.sum + l.length * b := by
    intro l
    induction l with
    | nil => simp
    | cons x l ih => simp [ih]; ring
  unfold npMean
  rw [e, List.length_map]
  field_simp

theorem npStd_affine {y : List ℝ} (hy : y ≠ []) {a : ℝ} (ha : 0 < a) (b : ℝ) : npStd (y.map fun v => a * v + b) = a * npStd y := by
  have e : ((y.map fun v => a * v + b).map fun v => (v - (a * npMean y + b)) ^ 2) =
      ((y.map fun v => (v - npMean y) ^ 2).map fun v => a ^ 2 * v + 0) := by
    rw [List.map_map, List.map_map]
    refine List.map_congr_left fun v _ => ?_
    simp only [Function.comp]
    ring
  unfold npStd
  rw [npMean_affine hy, e, npMean_affine (by simpa using hy), add_zero, Real.sqrt_mul (by positivity), Real.sqrt_sq ha.le]

theorem squares_eq_zero {m : ℝ} {y : List ℝ} (h : squares m y = 0) : ∀ v ∈ y, v = m := by
  intro v hv
  unfold squares at h
  have h1 : ∀ x ∈ (y.map fun v => (v - m) ^ 2), (0 : ℝ) ≤ x := by
    intro x hx
    obtain ⟨w, -, rfl⟩ := List.mem_map.1 hx
    positivity
  have h2 : (v - m) ^ 2 ≤ 0 := by
    rw [← h]
    exact List.single_le_sum h1 _ (List.mem_map.2 ⟨v, hv, rfl⟩)
  nlinarith [sq_nonneg (v - m)]

theorem npStd_eq (y : List ℝ) : npStd y = √(squares (targetMean y) y / y.length) := by
  unfold npStd
  rw [npMean, List.length_map]
  rfl

theorem npStd_eq_zero {y : List ℝ} (hy : y ≠ []) : npStd y = 0 ↔ ∀ v ∈ y, ∀ w ∈ y, v = w := by
  have hn : (0 : ℝ) < y.length := by
    have := List.length_pos_iff.2 hy
    exact_mod_cast this
  have hs : 0 ≤ squares (targetMean y) y := List.sum_nonneg fun x hx => by
    obtain ⟨w, -, rfl⟩ := List.mem_map.1 hx
    positivity
  rw [npStd_eq]
  constructor
  · intro h v hv w hw
    rw [Real.sqrt_eq_zero (by positivity), div_eq_zero_iff] at h
    have h' : squares (targetMean y) y = 0 := h.resolve_right hn.ne'
    rw [squares_eq_zero h' v hv, squares_eq_zero h' w hw]
  · intro h
    obtain ⟨v, ys, rfl⟩ := List.exists_cons_of_ne_nil hy
    have hr : ∀ w ∈ v :: ys, w = v := fun w hw => h w hw v (by simp)
    have e : v :: ys = List.replicate (ys.length + 1) v := List.eq_replicate_iff.2 ⟨by simp, hr⟩
    have hm : targetMean (v :: ys) = v := by
      unfold targetMean
      rw [e, List.sum_replicate, List.length_replicate, nsmul_eq_mul]
      field_simp
    rw [hm, e]
    simp [squares]

/-- `spread` is the divisor of the normalisation -/
theorem handleZeros_npStd {y : List ℝ} (hy : y ≠ []) : handleZeros (npStd y) = spread y := by
  unfold handleZeros spread
  by_cases h : ∀ v ∈ y, ∀ w ∈ y, v = w
  · rw [if_pos ((npStd_eq_zero hy).2 h), if_pos h]
  · rw [if_neg (fun h' => h ((npStd_eq_zero hy).1 h')), if_neg h, npStd_eq]

theorem spread_pos {y : List ℝ} (hy : y ≠ []) : 0 < spread y := by
  rw [← handleZeros_npStd hy]
  unfold handleZeros
  split_ifs with h
  · norm_num
  · exact lt_of_le_of_ne (Real.sqrt_nonneg _) (Ne.symm h)

theorem Spec.TrainingData.targets_ne {d : Nat} {X : List (List ℝ)} {y : List ℝ} (h : TrainingData d X y) : y ≠ [] := by
  intro h0
  have := h.targets
  rw [h0] at this
  exact h.rows (List.length_eq_zero_iff.1 this.symm)

/-- **C99** measuring the targets in other units (`a * y + b` with `a > 0`) changes the predicted means in the same way and multiplies the
predicted standard deviations by `a`, provided the targets are not all equal. -/
theorem C99_targets {d : Nat} {choose : List (List ℝ) → List ℝ → Kernel} (hk : ∀ Z t, Covariance d (choose Z t)) {X : List (List ℝ)}
    {y : List ℝ} (h : TrainingData d X y) (hne : ∃ v ∈ y, ∃ w ∈ y, v ≠ w) {a : ℝ} (ha : 0 < a) (b : ℝ) {s s' t t' : GpSurrogate}
    (hs : s.fit choose X y = (s', .ok ())) (ht : t.fit choose X (y.map fun v => a * v + b) = (t', .ok ()))
    {r : List ℝ} {m σ : ℝ} (hp : s'.predict [r] = .ok ([m], [σ])) : t'.predict [r] = .ok ([a * m + b], [a * σ]) := by
  have hy := h.targets_ne
  have h' : TrainingData d X (y.map fun v => a * v + b) := ⟨h.rows, h.width, h.columns, by simpa using h.targets⟩
  rw [fit_ok hk h] at hs
  rw [fit_ok hk h'] at ht
  obtain rfl := (Prod.mk.inj hs).1.symm
  obtain rfl := (Prod.mk.inj ht).1.symm
  have hz : npStd y ≠ 0 := by
    intro h0
    obtain ⟨v, hv, w, hw, hvw⟩ := hne
    exact hvw ((npStd_eq_zero hy).1 h0 v hv w hw)
  have hc : handleZeros (npStd y) = npStd y := if_neg hz
  have hc' : handleZeros (npStd (y.map fun v => a * v + b)) = a * npStd y := by
    rw [npStd_affine hy ha, handleZeros, if_neg (mul_ne_zero ha.ne' hz)]
  have hm' := npMean_affine hy a b
  have hnorm : ∀ v, (a * v + b - (a * npMean y + b)) / (a * npStd y) = (v - npMean y) / npStd y := by
    intro v
    have := ha.ne'
    field_simp
    ring
  have e : fitted d choose X (y.map fun v => a * v + b) =
      { fitted d choose X y with ymean := a * npMean y + b, ystd := a * npStd y } := by
    have e1 : normalised (y.map fun v => a * v + b) = normalised y := by
      unfold normalised
      rw [hm', hc', hc, List.map_map]
      exact List.map_congr_left fun v _ => hnorm v
    unfold fitted
    rw [e1, hm', hc', hc]
    congr 1
    funext i
    have hi : (i : Nat) < y.length := by
      have := i.isLt.trans_eq (List.length_map ..)
      rw [h.targets]; exact this
    dsimp only
    rw [List.getD_eq_getElem?_getD, List.getD_eq_getElem?_getD, List.getElem?_map, List.getElem?_eq_getElem hi]
    exact hnorm _
  have hr : r.length = d := by
    by_contra hr
    rw [GpSurrogate.predict] at hp
    dsimp only at hp
    rw [if_pos (Or.inr ⟨r, by simp, hr⟩)] at hp
    cases hp
  rw [predict_one hr] at hp
  obtain ⟨e1, e2⟩ := Prod.mk.inj (Except.ok.inj hp)
  obtain rfl := (List.cons.inj e1).1
  obtain rfl := (List.cons.inj e2).1
  rw [e, predict_one hr]
  congr 2
  · congr 1
    simp only [GpFit.meanAt, fitted, hc]
    ring
  · congr 1
    simp only [GpFit.stdAt, fitted, hc]
    rw [mul_pow, show ∀ u : ℝ, u * (a ^ 2 * npStd y ^ 2) = a ^ 2 * (u * npStd y ^ 2) from fun u => by ring,
      Real.sqrt_mul (by positivity), Real.sqrt_sq ha.le]

theorem predict_width {n : Nat} {g : GpFit} {r : List ℝ} {p} (hp : GpSurrogate.predict ⟨n, some g⟩ [r] = .ok p) : r.length = g.dim := by
  by_contra hr
  rw [GpSurrogate.predict] at hp
  dsimp only at hp
  rw [if_pos (Or.inr ⟨r, by simp, hr⟩)] at hp
  cases hp

/-- **C99** equal targets are predicted everywhere. -/
theorem C99_constant {d : Nat} {choose : List (List ℝ) → List ℝ → Kernel} (hk : ∀ Z t, Covariance d (choose Z t)) {X : List (List ℝ)}
    {y : List ℝ} (h : TrainingData d X y) {v : ℝ} (hv : ∀ w ∈ y, w = v) {s s' : GpSurrogate} (hs : s.fit choose X y = (s', .ok ()))
    {r : List ℝ} {m σ : ℝ} (hp : s'.predict [r] = .ok ([m], [σ])) : m = v := by
  have hy := h.targets_ne
  rw [fit_ok hk h] at hs
  obtain rfl := (Prod.mk.inj hs).1.symm
  rw [predict_one (predict_width hp)] at hp
  obtain rfl := (List.cons.inj (Prod.mk.inj (Except.ok.inj hp)).1).1
  have hm : npMean y = v := by
    have e : y = List.replicate y.length v := List.eq_replicate_iff.2 ⟨rfl, hv⟩
    have hn : (y.length : ℝ) ≠ 0 := by simpa using hy
    rw [npMean, e, List.sum_replicate, List.length_replicate, nsmul_eq_mul]
    field_simp
  have ht : (fitted d choose X y).targets = 0 := by
    funext i
    have hi : (i : Nat) < y.length := by
      have := i.isLt.trans_eq (List.length_map ..)
      rw [h.targets]; exact this
    simp only [fitted, Pi.zero_apply]
    rw [List.getD_eq_getElem?_getD, List.getElem?_eq_getElem hi, Option.getD_some, hv _ (List.getElem_mem hi), hm, sub_self, zero_div]
  rw [GpFit.meanAt, ht, mulVec_zero, dotProduct_zero, mul_zero, zero_add]
  exact hm

/-! ### scaling of the inputs -/

/-- the row in other units: entry `j` becomes `a * x + b` with the `j`-th pair -/
noncomputable def Spec.inUnits (ab : List (ℝ × ℝ)) (r : List ℝ) : List ℝ := List.zipWith (fun x p => p.1 * x + p.2) r ab

theorem inUnits_getD {ab : List (ℝ × ℝ)} {r : List ℝ} {d j : Nat} (ha : ab.length = d) (hr : r.length = d) (hj : j < d) :
    (inUnits ab r).getD j 0 = (ab.getD j (1, 0)).1 * r.getD j 0 + (ab.getD j (1, 0)).2 := by
  simp [inUnits, List.getD_eq_getElem?_getD, ha, hr, hj]

theorem scaler_inUnits {d : Nat} {X : List (List ℝ)} (hX : X ≠ []) (hw : ∀ r ∈ X, r.length = d) {ab : List (ℝ × ℝ)} (hab : ab.length = d)
    (hpos : ∀ p ∈ ab, 0 < p.1) (hvar : ∀ j < d, ∃ r ∈ X, ∃ q ∈ X, r.getD j 0 ≠ q.getD j 0) {r : List ℝ} (hr : r.length = d) :
    (Scaler.fit d (X.map (inUnits ab))).row (inUnits ab r) = (Scaler.fit d X).row r := by
  have hl : (inUnits ab r).length = d := by simp [inUnits, hab, hr]
  refine List.ext_getElem (by simp [Scaler.row, Scaler.fit, hl, hr]) fun j h1 h2 => ?_
  have hj : j < d := by simpa [Scaler.row, Scaler.fit, hr] using h2
  obtain ⟨p, hpj⟩ : ∃ p, p = ab.getD j (1, 0) := ⟨_, rfl⟩
  have hp0 : 0 < p.1 := by
    rw [hpj, List.getD_eq_getElem?_getD, List.getElem?_eq_getElem (by omega)]
    exact hpos _ (List.getElem_mem _)
  have hcol : (X.map (inUnits ab)).map (·.getD j 0) = (X.map (·.getD j 0)).map fun x => p.1 * x + p.2 := by
    rw [List.map_map, List.map_map]
    refine List.map_congr_left fun q hq => ?_
    simp only [Function.comp]
    rw [inUnits_getD hab (hw q hq) hj, ← hpj]
  have hne : X.map (·.getD j 0) ≠ [] := by simpa using hX
  have hz : npStd (X.map (·.getD j 0)) ≠ 0 := by
    intro h0
    obtain ⟨r, hr, q, hq, hrq⟩ := hvar j hj
    exact hrq ((npStd_eq_zero hne).1 h0 _ (List.mem_map.2 ⟨r, hr, rfl⟩) _ (List.mem_map.2 ⟨q, hq, rfl⟩))
  have hx := inUnits_getD hab hr hj
  rw [List.getD_eq_getElem?_getD, List.getElem?_eq_getElem (by omega), Option.getD_some, ← hpj, List.getD_eq_getElem?_getD,
    List.getElem?_eq_getElem (by omega), Option.getD_some] at hx
  simp only [Scaler.row, Scaler.fit, List.getElem_zipWith, List.getElem_zip, List.getElem_map, List.getElem_range]
  rw [hcol, npMean_affine hne, npStd_affine hne hp0, hx, handleZeros, if_neg (mul_ne_zero hp0.ne' hz), handleZeros, if_neg hz]
  have := hp0.ne'
  field_simp
  ring

/-- **C99** the units of the inputs do not matter: if every column is multiplied by a positive number and shifted, in the training data
and in the rows asked for, the predictions are the same (no column of the training data being constant). -/
theorem C99_inputs {d : Nat} {choose : List (List ℝ) → List ℝ → Kernel} (hk : ∀ Z t, Covariance d (choose Z t)) {X : List (List ℝ)}
    {y : List ℝ} (h : TrainingData d X y) {ab : List (ℝ × ℝ)} (hab : ab.length = d) (hpos : ∀ p ∈ ab, 0 < p.1)
    (hvar : ∀ j < d, ∃ r ∈ X, ∃ q ∈ X, r.getD j 0 ≠ q.getD j 0) {s s' t t' : GpSurrogate}
    (hs : s.fit choose X y = (s', .ok ())) (ht : t.fit choose (X.map (inUnits ab)) y = (t', .ok ()))
    {Q : List (List ℝ)} (hQ : Q ≠ []) (hw : ∀ r ∈ Q, r.length = d) : t'.predict (Q.map (inUnits ab)) = s'.predict Q := by
  have hl : ∀ r : List ℝ, r.length = d → (inUnits ab r).length = d := fun r hr => by simp [inUnits, hab, hr]
  have h' : TrainingData d (X.map (inUnits ab)) y :=
    ⟨by simpa using h.rows, fun r hr => by
      obtain ⟨q, hq, rfl⟩ := List.mem_map.1 hr
      exact hl q (h.width q hq), h.columns, by simpa using h.targets⟩
  rw [fit_ok hk h] at hs
  rw [fit_ok hk h'] at ht
  obtain rfl := (Prod.mk.inj hs).1.symm
  obtain rfl := (Prod.mk.inj ht).1.symm
  have hrows : (X.map (inUnits ab)).map (Scaler.fit d (X.map (inUnits ab))).row = X.map (Scaler.fit d X).row := by
    rw [List.map_map]
    exact List.map_congr_left fun q hq => scaler_inUnits h.rows h.width hab hpos hvar (h.width q hq)
  have e : fitted d choose (X.map (inUnits ab)) y = { fitted d choose X y with scaler := Scaler.fit d (X.map (inUnits ab)) } := by
    unfold fitted
    rw [hrows]
  rw [e, predict_rowWise _ (fitted d choose X y) Q hQ hw]
  rw [predict_rowWise y.length { fitted d choose X y with scaler := Scaler.fit d (X.map (inUnits ab)) } (Q.map (inUnits ab))
    (by simpa using hQ) (fun r hr => by
      obtain ⟨q, hq, rfl⟩ := List.mem_map.1 hr
      exact hl q (hw q hq)), List.map_map, List.map_map]
  congr 2
  · refine List.map_congr_left fun q hq => ?_
    simp only [Function.comp]
    rw [scaler_inUnits h.rows h.width hab hpos hvar (hw q hq)]
    rfl
  · refine List.map_congr_left fun q hq => ?_
    simp only [Function.comp]
    rw [scaler_inUnits h.rows h.width hab hpos hvar (hw q hq)]
    rfl

/-! ### uncertainty and fit at the training points -/

section linear
variable {n : Nat} {M : Matrix (Fin n) (Fin n) ℝ} {α : ℝ}

theorem pd_of (hM : M.PosSemidef) (hα : 0 < α) : (M + α • (1 : Matrix (Fin n) (Fin n) ℝ)).PosDef :=
  PosDef.posSemidef_add hM (PosDef.one.smul hα)

/-- explained variance is not negative -/
theorem explained_nonneg (hM : M.PosSemidef) (hα : 0 < α) (k : Fin n → ℝ) : 0 ≤ k ⬝ᵥ ((M + α • (1 : Matrix (Fin n) (Fin n) ℝ))⁻¹ *ᵥ k) := by
  have := (pd_of hM hα).inv.posSemidef.dotProduct_mulVec_nonneg k
  simpa using this

/-- variance left at a training point -/
theorem left_at_training (hM : M.PosSemidef) (hα : 0 < α) (i : Fin n) :
    M i i - (fun j => M i j) ⬝ᵥ ((M + α • (1 : Matrix (Fin n) (Fin n) ℝ))⁻¹ *ᵥ fun j => M i j) ≤ α := by
  obtain ⟨G, hG⟩ : ∃ G, G = M + α • (1 : Matrix (Fin n) (Fin n) ℝ) := ⟨_, rfl⟩
  have hpd : G.PosDef := hG ▸ pd_of hM hα
  have hu : IsUnit G.det := (Matrix.isUnit_iff_isUnit_det _).1 hpd.isUnit
  have hrow : (fun j => M i j) = fun j => M j i := by
    funext j
    have := congrFun (congrFun hM.isHermitian.eq j) i
    simpa using this
  have hcol : (fun j => M j i) = G *ᵥ Pi.single i 1 - α • Pi.single i 1 := by
    funext j
    rw [hG, add_mulVec, smul_mulVec, one_mulVec]
    simp
  have h1 : G⁻¹ *ᵥ (fun j => M j i) = Pi.single i 1 - α • (G⁻¹ *ᵥ Pi.single i 1) := by
    rw [hcol, mulVec_sub, mulVec_mulVec, nonsing_inv_mul _ hu, one_mulVec, mulVec_smul]
  rw [← hG, hrow, h1, dotProduct_sub, dotProduct_smul]
  have h2 : (fun j => M j i) ⬝ᵥ (G⁻¹ *ᵥ Pi.single i 1) = 1 - α * (G⁻¹ i i) := by
    have : (fun j => M j i) ⬝ᵥ (G⁻¹ *ᵥ Pi.single i 1) = (G⁻¹ *ᵥ fun j => M j i) ⬝ᵥ Pi.single i 1 := by
      rw [dotProduct_comm (G⁻¹ *ᵥ fun j => M j i), dotProduct_mulVec, dotProduct_comm, ← mulVec_transpose,
        show G⁻¹ᵀ = G⁻¹ from by simpa [IsHermitian] using hpd.inv.isHermitian]
    rw [this, h1]
    simp
  rw [h2]
  have h3 : 0 ≤ G⁻¹ i i := hpd.inv.posSemidef.diag_nonneg
  have h4 : (fun j => M j i) ⬝ᵥ Pi.single i 1 = M i i := by simp
  rw [h4, smul_eq_mul]
  nlinarith [mul_nonneg hα.le (mul_nonneg hα.le h3)]

/-- the residuals of the training targets are not larger than the targets -/
theorem residual_le (hM : M.PosSemidef) (hα : 0 < α) (t : Fin n → ℝ) :
    ∑ i, ((fun j => M i j) ⬝ᵥ ((M + α • (1 : Matrix (Fin n) (Fin n) ℝ))⁻¹ *ᵥ t) - t i) ^ 2 ≤ ∑ i, t i ^ 2 := by
  obtain ⟨G, hG⟩ : ∃ G, G = M + α • (1 : Matrix (Fin n) (Fin n) ℝ) := ⟨_, rfl⟩
  have hpd : G.PosDef := hG ▸ pd_of hM hα
  have hu : IsUnit G.det := (Matrix.isUnit_iff_isUnit_det _).1 hpd.isUnit
  rw [← hG]
  obtain ⟨u, hueq⟩ : ∃ u, u = G⁻¹ *ᵥ t := ⟨_, rfl⟩
  have ht : t = M *ᵥ u + α • u := by
    have : G *ᵥ u = t := by rw [hueq, mulVec_mulVec, mul_nonsing_inv _ hu, one_mulVec]
    rw [← this, hG, add_mulVec, smul_mulVec, one_mulVec]
  rw [← hueq]
  have h0 : 0 ≤ u ⬝ᵥ (M *ᵥ u) := by simpa using hM.dotProduct_mulVec_nonneg u
  have e1 : ∀ i, ((fun j => M i j) ⬝ᵥ u - t i) ^ 2 = α ^ 2 * u i ^ 2 := fun i => by
    have := congrFun ht i
    simp only [Pi.add_apply, Pi.smul_apply, smul_eq_mul] at this
    rw [this]
    change ((M *ᵥ u) i - ((M *ᵥ u) i + α * u i)) ^ 2 = _
    ring
  have e2 : ∀ i, t i ^ 2 = (M *ᵥ u) i ^ 2 + 2 * α * (u i * (M *ᵥ u) i) + α ^ 2 * u i ^ 2 := fun i => by
    have := congrFun ht i
    simp only [Pi.add_apply, Pi.smul_apply, smul_eq_mul] at this
    rw [this]; ring
  rw [Finset.sum_congr rfl fun i _ => e1 i, Finset.sum_congr rfl fun i _ => e2 i, Finset.sum_add_distrib, Finset.sum_add_distrib,
    ← Finset.mul_sum Finset.univ (fun i => u i * (M *ᵥ u) i)]
  have h1 : 0 ≤ ∑ i, (M *ᵥ u) i ^ 2 := Finset.sum_nonneg fun i _ => sq_nonneg _
  have h2 : 0 ≤ 2 * α * ∑ i, u i * (M *ᵥ u) i := mul_nonneg (by positivity) h0
  linarith

end linear

theorem scaled_width {d : Nat} {X : List (List ℝ)} (hw : ∀ r ∈ X, r.length = d) (X' : List (List ℝ)) :
    ∀ z ∈ X.map (Scaler.fit d X').row, z.length = d := by
  intro z hz
  obtain ⟨q, hq, rfl⟩ := List.mem_map.1 hz
  exact Scaler.row_length (Scaler.fit_length _ _).1 (Scaler.fit_length _ _).2 (hw q hq)

/-- **C99** with a kernel of variance 1 (such as the default kernel) no predicted standard deviation exceeds that of the targets, and at a
training point it is at most a ten-thousandth of it. -/
theorem C99_uncertainty {d : Nat} {choose : List (List ℝ) → List ℝ → Kernel} (hk : ∀ Z t, Covariance d (choose Z t))
    (h1 : ∀ Z t x, x.length = d → choose Z t x x = 1) {X : List (List ℝ)}
    {y : List ℝ} (h : TrainingData d X y) {s s' : GpSurrogate} (hs : s.fit choose X y = (s', .ok ()))
    {r : List ℝ} {m σ : ℝ} (hp : s'.predict [r] = .ok ([m], [σ])) : σ ≤ spread y ∧ (r ∈ X → σ ≤ spread y / 10 ^ 4) := by
  have hy := h.targets_ne
  have hc := spread_pos hy
  rw [fit_ok hk h] at hs
  obtain rfl := (Prod.mk.inj hs).1.symm
  have hr := predict_width hp
  rw [predict_one hr] at hp
  obtain rfl := (List.cons.inj (Prod.mk.inj (Except.ok.inj hp)).2).1
  obtain ⟨g, hg⟩ : ∃ g, g = fitted d choose X y := ⟨_, rfl⟩
  have hM : (gram g.kernel g.rows).PosSemidef := by
    rw [hg]; exact gram_psd (hk _ _) (scaled_width h.width X)
  have hstd : g.ystd = spread y := by rw [hg]; exact handleZeros_npStd hy
  obtain ⟨z, hz⟩ : ∃ z, z = g.scaler.row r := ⟨_, rfl⟩
  have hzl : z.length = d := by
    rw [hz, hg]; exact Scaler.row_length (Scaler.fit_length _ _).1 (Scaler.fit_length _ _).2 hr
  have hkz : g.kernel z z = 1 := by rw [hg]; exact h1 _ _ _ hzl
  rw [← hg, ← hz]
  have key : ∀ b : ℝ, 0 ≤ b →
      g.kernel z z - (fun i => g.kernel z g.rows[i]) ⬝ᵥ ((gramAlpha g.kernel g.rows)⁻¹ *ᵥ fun i => g.kernel z g.rows[i]) ≤ b ^ 2 →
      g.stdAt z ≤ spread y * b := by
    intro b hb hle
    unfold GpFit.stdAt
    dsimp only
    refine Real.sqrt_le_iff.2 ⟨by positivity, ?_⟩
    rw [hstd, mul_pow, mul_comm (spread y ^ 2)]
    refine mul_le_mul_of_nonneg_right ?_ (by positivity)
    split_ifs
    · positivity
    · exact hle
  refine ⟨?_, fun hmem => ?_⟩
  · have := key 1 (by norm_num) (by
      have := explained_nonneg hM gpAlpha_pos fun i => g.kernel z g.rows[i]
      rw [hkz]
      rw [← gramAlpha_eq] at this
      linarith)
    linarith
  · have := key (1 / 10 ^ 4) (by positivity) (by
      obtain ⟨i, hi, hir⟩ := List.getElem_of_mem (show z ∈ g.rows by rw [hz, hg]; exact List.mem_map.2 ⟨r, hmem, rfl⟩)
      have := left_at_training hM gpAlpha_pos ⟨i, hi⟩
      rw [← gramAlpha_eq] at this
      simp only [gram, of_apply, Fin.getElem_fin, hir] at this
      refine this.trans ?_
      unfold gpAlpha
      norm_num)
    calc g.stdAt z ≤ _ := this
      _ = _ := by ring

/-- unexplained variance is positive -/
theorem left_pos {d : Nat} {k : Kernel} (hk : Covariance d k) {Z : List (List ℝ)} (hZ : ∀ z ∈ Z, z.length = d) {z : List ℝ} (hz : z.length = d)
    (h1 : 0 < k z z) : 0 < k z z - (fun i : Fin Z.length => k z Z[i]) ⬝ᵥ ((gramAlpha k Z)⁻¹ *ᵥ fun i => k z Z[i]) := by
  have hl : ∀ i : Fin Z.length, (Z[i]).length = d := fun i => hZ _ (List.getElem_mem _)
  have hpd := gramAlpha_pd hk hZ
  have hu : IsUnit (gramAlpha k Z).det := (Matrix.isUnit_iff_isUnit_det _).1 hpd.isUnit
  obtain ⟨v, hv⟩ : ∃ v : Fin Z.length → ℝ, v = fun i => k z Z[i] := ⟨_, rfl⟩
  obtain ⟨w, hw⟩ : ∃ w, w = (gramAlpha k Z)⁻¹ *ᵥ v := ⟨_, rfl⟩
  rw [← hv, ← hw]
  have hGw : gram k Z *ᵥ w + gpAlpha • w = v := by
    have : gramAlpha k Z *ᵥ w = v := by rw [hw, mulVec_mulVec, mul_nonsing_inv _ hu, one_mulVec]
    rw [← this, gramAlpha_eq, add_mulVec, smul_mulVec, one_mulVec]
  have hvw : v ⬝ᵥ w = w ⬝ᵥ (gram k Z *ᵥ w) + gpAlpha * (w ⬝ᵥ w) := by
    rw [dotProduct_comm, ← hGw, dotProduct_add, dotProduct_smul, smul_eq_mul]
  have hcov := hk.2 (Z.length + 1) (Fin.cons z fun i => Z[i]) (Fin.cons 1 fun i => -w i)
    (fun i => by refine Fin.cases hz (fun j => ?_) i; exact hl j)
  simp only [Fin.sum_univ_succ, Fin.cons_zero, Fin.cons_succ, one_mul] at hcov
  have hsym : ∀ i : Fin Z.length, k Z[i] z = v i := fun i => by rw [hv]; exact hk.1 _ _ (hl i) hz
  have e1 : ∑ i : Fin Z.length, -w i * k z Z[i] = -(v ⬝ᵥ w) := by
    rw [hv, dotProduct, ← Finset.sum_neg_distrib]
    exact Finset.sum_congr rfl fun i _ => by ring
  have e2 : ∑ i : Fin Z.length, (-w i * 1 * k Z[i] z + ∑ j : Fin Z.length, -w i * -w j * k Z[i] Z[j]) =
      -(v ⬝ᵥ w) + w ⬝ᵥ (gram k Z *ᵥ w) := by
    rw [Finset.sum_add_distrib]
    congr 1
    · rw [dotProduct, ← Finset.sum_neg_distrib]
      exact Finset.sum_congr rfl fun i _ => by rw [hsym]; ring
    · simp only [dotProduct, mulVec, gram, of_apply, Finset.mul_sum]
      exact Finset.sum_congr rfl fun i _ => Finset.sum_congr rfl fun j _ => by ring
  rw [e1, e2] at hcov
  by_cases h0 : w = 0
  · rw [h0, dotProduct_zero, sub_zero]; exact h1
  · have hww : 0 < w ⬝ᵥ w := by
      obtain ⟨i, hi⟩ := Function.ne_iff.1 h0
      exact Finset.sum_pos' (fun i _ => mul_self_nonneg _) ⟨i, Finset.mem_univ _, mul_self_pos.2 hi⟩
    have := mul_pos gpAlpha_pos hww
    linarith

/-- **C99** with a kernel of positive variance every predicted standard deviation is positive: the normal distributions that the acquisition
functions and the likelihood divide by are never degenerate. -/
theorem C99_positive {d : Nat} {choose : List (List ℝ) → List ℝ → Kernel} (hk : ∀ Z t, Covariance d (choose Z t))
    (h1 : ∀ Z t x, x.length = d → 0 < choose Z t x x) {X : List (List ℝ)}
    {y : List ℝ} (h : TrainingData d X y) {s s' : GpSurrogate} (hs : s.fit choose X y = (s', .ok ()))
    {r : List ℝ} {m σ : ℝ} (hp : s'.predict [r] = .ok ([m], [σ])) : 0 < σ := by
  have hy := h.targets_ne
  rw [fit_ok hk h] at hs
  obtain rfl := (Prod.mk.inj hs).1.symm
  have hr := predict_width hp
  rw [predict_one hr] at hp
  obtain rfl := (List.cons.inj (Prod.mk.inj (Except.ok.inj hp)).2).1
  have hzl : ((fitted d choose X y).scaler.row r).length = d := Scaler.row_length (Scaler.fit_length _ _).1 (Scaler.fit_length _ _).2 hr
  have hpos := left_pos (hk _ _) (scaled_width h.width X) hzl (h1 (X.map (Scaler.fit d X).row) (normalised y) _ hzl)
  have hc : 0 < (fitted d choose X y).ystd := by
    have : (fitted d choose X y).ystd = spread y := handleZeros_npStd hy
    rw [this]; exact spread_pos hy
  unfold GpFit.stdAt
  dsimp only
  refine Real.sqrt_pos.2 (mul_pos ?_ (by positivity))
  split_ifs with hlt
  · exact absurd hpos (not_lt.2 (le_of_lt hlt))
  · exact hpos

/-- **C99** the predicted means fit the training targets at least as well as their average does. -/
theorem C99_training {d : Nat} {choose : List (List ℝ) → List ℝ → Kernel} (hk : ∀ Z t, Covariance d (choose Z t)) {X : List (List ℝ)}
    {y : List ℝ} (h : TrainingData d X y) {s s' : GpSurrogate} (hs : s.fit choose X y = (s', .ok ())) {ms σs : List ℝ}
    (hp : s'.predict X = .ok (ms, σs)) : ((ms.zip y).map fun p => (p.1 - p.2) ^ 2).sum ≤ squares (targetMean y) y := by
  have hy := h.targets_ne
  rw [fit_ok hk h] at hs
  obtain rfl := (Prod.mk.inj hs).1.symm
  rw [predict_rowWise _ (fitted d choose X y) X h.rows h.width] at hp
  obtain rfl := (Prod.mk.inj (Except.ok.inj hp)).1
  obtain ⟨g, hg⟩ : ∃ g, g = fitted d choose X y := ⟨_, rfl⟩
  have hM : (gram g.kernel g.rows).PosSemidef := by
    rw [hg]; exact gram_psd (hk _ _) (scaled_width h.width X)
  have hrows : g.rows = X.map g.scaler.row := by rw [hg]; rfl
  have hlen : g.rows.length = y.length := by rw [hrows, List.length_map, h.targets]
  have hres := residual_le hM gpAlpha_pos g.targets
  rw [← gramAlpha_eq] at hres
  have hcpos : 0 < g.ystd := by rw [hg]; exact (spread_pos hy).trans_eq (handleZeros_npStd hy).symm
  have ht : ∀ i : Fin g.rows.length, g.ystd * g.targets i = y.getD i 0 - targetMean y := by
    intro i
    rw [hg] at hcpos
    subst hg
    simp only [fitted] at hcpos ⊢
    rw [mul_div_cancel₀ _ hcpos.ne']
    rfl
  have hm : g.ymean = targetMean y := by rw [hg]; rfl
  rw [← hg]
  have el : ((X.map fun r => g.meanAt (g.scaler.row r)).zip y).map (fun p => (p.1 - p.2) ^ 2) =
      List.ofFn fun i : Fin g.rows.length => g.ystd ^ 2 *
        ((fun j => gram g.kernel g.rows i j) ⬝ᵥ ((gramAlpha g.kernel g.rows)⁻¹ *ᵥ g.targets) - g.targets i) ^ 2 := by
    refine List.ext_getElem (by simp [hlen, h.targets]) fun i h1 h2 => ?_
    have hi : i < g.rows.length := by simpa using h2
    have hti := ht ⟨i, hi⟩
    have hyi : y.getD i 0 = y[i]'(by omega) := by simp [List.getD_eq_getElem?_getD, show i < y.length by omega]
    have hri : g.scaler.row (X[i]'(by rw [← h.targets]; omega)) = g.rows[i] := by simp [hrows]
    simp only [List.getElem_map, List.getElem_zip, List.getElem_ofFn]
    rw [hri]
    rw [hyi] at hti
    have e1 : y[i]'(by omega) = g.ystd * g.targets ⟨i, hi⟩ + targetMean y := by rw [hti]; ring
    have e2 : g.meanAt g.rows[i] =
        g.ystd * ((fun j => gram g.kernel g.rows ⟨i, hi⟩ j) ⬝ᵥ ((gramAlpha g.kernel g.rows)⁻¹ *ᵥ g.targets)) + g.ymean := rfl
    rw [e1, e2, hm]
    ring
  have er : (y.map fun v => (v - targetMean y) ^ 2) = List.ofFn fun i : Fin g.rows.length => g.ystd ^ 2 * g.targets i ^ 2 := by
    refine List.ext_getElem (by simp [hlen]) fun i h1 h2 => ?_
    have hi : i < g.rows.length := by simpa using h2
    have hti := ht ⟨i, hi⟩
    have hyi : y.getD i 0 = y[i]'(by omega) := by simp [List.getD_eq_getElem?_getD, show i < y.length by omega]
    simp only [List.getElem_map, List.getElem_ofFn]
    rw [← mul_pow, hti, hyi]
  unfold squares
  rw [el, er, List.sum_ofFn, List.sum_ofFn, ← Finset.mul_sum, ← Finset.mul_sum]
  exact mul_le_mul_of_nonneg_left hres (by positivity)

/-! ### order of the training points -/

theorem perm_equiv {α : Type} {l l' : List α} (h : l.Perm l') : ∃ e : Fin l.length ≃ Fin l'.length, ∀ i, l'[e i] = l[i] := by
  induction h with
  | nil => exact ⟨Equiv.refl _, fun i => rfl⟩
  | @cons x l l' _ ih =>
    obtain ⟨e, he⟩ := ih
    refine ⟨(finSuccEquiv _).trans ((Equiv.optionCongr e).trans (finSuccEquiv _).symm), fun i => ?_⟩
    refine Fin.cases ?_ (fun j => ?_) i
    · simp
    · simpa using he j
  | swap x y l =>
    refine ⟨Equiv.swap (0 : Fin (l.length + 2)) 1, fun i => ?_⟩
    refine Fin.cases ?_ (fun j => Fin.cases ?_ (fun j => ?_) j) i
    · simp
    · simp
    · have : Equiv.swap (0 : Fin (l.length + 2)) 1 j.succ.succ = j.succ.succ :=
        Equiv.swap_apply_of_ne_of_ne (Fin.succ_ne_zero _) (by rw [← Fin.succ_zero_eq_one]; exact fun h => Fin.succ_ne_zero _ (Fin.succ_injective _ h))
      change (x :: y :: l)[(Equiv.swap (0 : Fin (l.length + 2)) 1 j.succ.succ : Fin (l.length + 2))] = _
      rw [this]; rfl
  | trans _ _ ih1 ih2 =>
    obtain ⟨e, he⟩ := ih1
    obtain ⟨f, hf⟩ := ih2
    exact ⟨e.trans f, fun i => (hf (e i)).trans (he i)⟩

theorem same_predictions {g g' : GpFit} (hk : g'.kernel = g.kernel) (hm : g'.ymean = g.ymean) (hs : g'.ystd = g.ystd)
    (e : Fin g.rows.length ≃ Fin g'.rows.length) (hr : ∀ i, g'.rows[e i] = g.rows[i]) (ht : ∀ i, g'.targets (e i) = g.targets i) (z : List ℝ) :
    g'.meanAt z = g.meanAt z ∧ g'.stdAt z = g.stdAt z := by
  have hG : gramAlpha g.kernel g.rows = (gramAlpha g'.kernel g'.rows).submatrix e e := by
    ext i j
    simp only [gramAlpha, hk, submatrix_apply, Matrix.add_apply, of_apply, Matrix.smul_apply, one_apply, e.injective.eq_iff]
    rw [hr i, hr j]
  have hI : (gramAlpha g.kernel g.rows)⁻¹ = (gramAlpha g'.kernel g'.rows)⁻¹.submatrix e e := by rw [hG, inv_submatrix_equiv]
  have key : ∀ (v : Fin g.rows.length → ℝ) (v' : Fin g'.rows.length → ℝ), (∀ i, v' (e i) = v i) →
      (fun i => g.kernel z g.rows[i]) ⬝ᵥ ((gramAlpha g.kernel g.rows)⁻¹ *ᵥ v) =
        (fun i => g'.kernel z g'.rows[i]) ⬝ᵥ ((gramAlpha g'.kernel g'.rows)⁻¹ *ᵥ v') := by
    intro v v' hv
    rw [hI, hk]
    simp only [dotProduct, mulVec, submatrix_apply]
    rw [← Equiv.sum_comp e]
    refine Finset.sum_congr rfl fun i _ => ?_
    rw [hr i]
    congr 1
    rw [← Equiv.sum_comp e (fun j => (gramAlpha g.kernel g'.rows)⁻¹ (e i) j * v' j)]
    exact Finset.sum_congr rfl fun j _ => by rw [hv j]
  refine ⟨?_, ?_⟩
  · unfold GpFit.meanAt
    rw [key g.targets g'.targets ht, hm, hs]
  · unfold GpFit.stdAt
    dsimp only
    rw [key (fun i => g.kernel z g.rows[i]) (fun i => g'.kernel z g'.rows[i]) (fun i => by rw [hk, hr i]), hs, hk]

theorem npMean_perm {l l' : List ℝ} (h : l.Perm l') : npMean l = npMean l' := by
  rw [npMean, npMean, h.sum_eq, h.length_eq]

theorem npStd_perm {l l' : List ℝ} (h : l.Perm l') : npStd l = npStd l' := by
  rw [npStd, npStd, npMean_perm h, npMean_perm (h.map _)]

/-- **C99** the order of the training points does not matter (to predictions with the same kernel). -/
theorem C99_order {d : Nat} {choose : List (List ℝ) → List ℝ → Kernel} (hk : ∀ Z t, Covariance d (choose Z t))
    (hsame : ∀ Z t Z' t', (Z.zip t).Perm (Z'.zip t') → choose Z t = choose Z' t') {X X' : List (List ℝ)} {y y' : List ℝ}
    (h : TrainingData d X y) (h' : TrainingData d X' y') (hperm : (X.zip y).Perm (X'.zip y')) {s s' t t' : GpSurrogate}
    (hs : s.fit choose X y = (s', .ok ())) (ht : t.fit choose X' y' = (t', .ok ())) (Q : List (List ℝ)) :
    t'.predict Q = s'.predict Q := by
  rw [fit_ok hk h] at hs
  rw [fit_ok hk h'] at ht
  obtain rfl := (Prod.mk.inj hs).1.symm
  obtain rfl := (Prod.mk.inj ht).1.symm
  have e1 : (X.zip y).map Prod.fst = X := List.map_fst_zip h.targets.ge
  have e2 : (X.zip y).map Prod.snd = y := List.map_snd_zip h.targets.le
  have e1' : (X'.zip y').map Prod.fst = X' := List.map_fst_zip h'.targets.ge
  have e2' : (X'.zip y').map Prod.snd = y' := List.map_snd_zip h'.targets.le
  have hX : X.Perm X' := by have := hperm.map Prod.fst; rwa [e1, e1'] at this
  have hy : y.Perm y' := by have := hperm.map Prod.snd; rwa [e2, e2'] at this
  have hsc : Scaler.fit d X' = Scaler.fit d X := by
    unfold Scaler.fit
    congr 1
    · exact List.map_congr_left fun j _ => (npMean_perm (hX.map _)).symm
    · exact List.map_congr_left fun j _ => by rw [npStd_perm (hX.map _)]
  have hz : ∀ (f : List ℝ → List ℝ) (u : ℝ → ℝ), ((X.map f).zip (y.map u)).Perm ((X'.map f).zip (y'.map u)) := by
    intro f u
    rw [List.zip_map, List.zip_map]
    exact hperm.map _
  obtain ⟨u, hu⟩ : ∃ u : ℝ → ℝ, u = fun v => (v - npMean y) / handleZeros (npStd y) := ⟨_, rfl⟩
  have hu' : (fun v => (v - npMean y') / handleZeros (npStd y')) = u := by rw [hu, npMean_perm hy, npStd_perm hy]
  obtain ⟨f, hf⟩ : ∃ f, f = (Scaler.fit d X).row := ⟨_, rfl⟩
  have hkern : (fitted d choose X' y').kernel = (fitted d choose X y).kernel := by
    simp only [fitted, normalised]
    rw [hsc, ← hf, hu', ← hu]
    exact (hsame _ _ _ _ (hz f u)).symm
  have tgt : ∀ (i : Fin (fitted d choose X y).rows.length) (hi : (i : Nat) < y.length), (fitted d choose X y).targets i = u (y[(i : Nat)]'hi) := by
    intro i hi
    rw [hu]
    simp only [fitted]
    rw [List.getD_eq_getElem?_getD, List.getElem?_eq_getElem hi]; rfl
  have tgt' : ∀ (i : Fin (fitted d choose X' y').rows.length) (hi : (i : Nat) < y'.length),
      (fitted d choose X' y').targets i = u (y'[(i : Nat)]'hi) := by
    intro i hi
    rw [← hu']
    simp only [fitted]
    rw [List.getD_eq_getElem?_getD, List.getElem?_eq_getElem hi]; rfl
  have row : ∀ (i : Fin (fitted d choose X y).rows.length) (hi : (i : Nat) < X.length), (fitted d choose X y).rows[i] = f (X[(i : Nat)]'hi) := by
    intro i hi
    subst hf
    exact List.getElem_map ..
  have row' : ∀ (i : Fin (fitted d choose X' y').rows.length) (hi : (i : Nat) < X'.length),
      (fitted d choose X' y').rows[i] = f (X'[(i : Nat)]'hi) := by
    intro i hi
    rw [hf, ← hsc]
    exact List.getElem_map ..
  have l3 : ((X'.map f).zip (y'.map u)).length = y'.length := by simp [h'.targets]
  obtain ⟨e, he⟩ := perm_equiv (hz f u)
  have l1 : ((X.map f).zip (y.map u)).length = (fitted d choose X y).rows.length := by simp [fitted, h.targets]
  have l2 : ((X'.map f).zip (y'.map u)).length = (fitted d choose X' y').rows.length := by simp [fitted, h'.targets]
  have he' : ∀ i, ((X'.map f).zip (y'.map u)).get (e i) = ((X.map f).zip (y.map u)).get i := he
  have hboth := same_predictions (g := fitted d choose X y) (g' := fitted d choose X' y') hkern (npMean_perm hy).symm
    (by simp only [fitted]; rw [npStd_perm hy]) ((finCongr l1.symm).trans (e.trans (finCongr l2)))
    (fun i => by
      have := congrArg Prod.fst (he' (finCongr l1.symm i))
      simp only [List.get_eq_getElem, List.getElem_zip, List.getElem_map] at this
      exact (row' _ _).trans (this.trans (row i _).symm))
    (fun i => by
      have := congrArg Prod.snd (he' (finCongr l1.symm i))
      simp only [List.get_eq_getElem, List.getElem_zip, List.getElem_map] at this
      have hi : ((finCongr l1.symm i : Fin _) : Nat) < y.length := by
        have := i.isLt.trans_eq (List.length_map ..)
        rw [h.targets]; exact this
      have hi' : (e (finCongr l1.symm i) : Nat) < y'.length := by
        exact (e (finCongr l1.symm i)).isLt.trans_eq l3
      rw [tgt i hi, tgt' _ hi']
      exact this)
  have hrow : (fitted d choose X' y').scaler = (fitted d choose X y).scaler := hsc
  have hdim : (fitted d choose X' y').dim = (fitted d choose X y).dim := rfl
  unfold GpSurrogate.predict
  dsimp only
  rw [hrow, hdim]
  have m1 : (fitted d choose X' y').meanAt = (fitted d choose X y).meanAt := funext fun z => (hboth z).1
  have m2 : (fitted d choose X' y').stdAt = (fitted d choose X y).stdAt := funext fun z => (hboth z).2
  rw [m1, m2]

/-! ### the default kernel -/

theorem zipWith_sum {d : Nat} {x y : List ℝ} (hx : x.length = d) (hy : y.length = d) :
    (List.zipWith (fun a b => (a - b) ^ 2) x y).sum = ∑ k : Fin d, (x.getD k 0 - y.getD k 0) ^ 2 := by
  rw [← List.sum_ofFn]
  congr 1
  refine List.ext_getElem (by simp [hx, hy]) fun i h1 h2 => ?_
  simp [List.getD_eq_getElem?_getD, hx, hy]

/-- **C99** the default kernel `Matern(nu=1.5)` is a covariance function of variance 1 in every dimension and for every length scale, so
that all the theorems above apply to the surrogate with its default arguments, whatever length scale the optimiser finds. -/
theorem C99_matern {ℓ : ℝ} (hℓ : 0 < ℓ) (d : Nat) :
    Covariance d (matern ℓ) ∧ (∀ x, matern ℓ x x = 1) ∧ ∀ x y, 0 < matern ℓ x y ∧ matern ℓ x y ≤ 1 := by
  refine ⟨⟨fun x y hx hy => ?_, fun n z c hz => ?_⟩, fun x => ?_, fun x y => ?_⟩
  · unfold matern
    rw [zipWith_sum hx hy, zipWith_sum hy hx]
    have : ∀ a b : ℝ, (a - b) ^ 2 = (b - a) ^ 2 := fun a b => by ring
    simp only [this (x.getD _ 0)]
  · obtain ⟨v, hv⟩ : ∃ v : Fin n → Fin d → ℝ, v = fun i (k : Fin d) => √3 / ℓ * (z i).getD (k : Nat) 0 := ⟨_, rfl⟩
    have h := (Matern.matern_pos (s := Matern.dist2 v) (fun i j => Finset.sum_nonneg fun k _ => sq_nonneg _)
      fun τ hτ => Matern.gaussian v hτ).2 c
    refine h.trans_eq (Finset.sum_congr rfl fun i _ => Finset.sum_congr rfl fun j _ => ?_)
    have e : √(Matern.dist2 v i j) = √3 * (√((List.zipWith (fun a b => (a - b) ^ 2) (z i) (z j)).sum) / ℓ) := by
      rw [zipWith_sum (hz i) (hz j)]
      have : Matern.dist2 v i j = (√3 / ℓ) ^ 2 * ∑ k : Fin d, ((z i).getD k 0 - (z j).getD k 0) ^ 2 := by
        unfold Matern.dist2
        rw [Finset.mul_sum]
        refine Finset.sum_congr rfl fun k _ => ?_
        rw [hv]
        ring
      rw [this, Real.sqrt_mul (sq_nonneg _), Real.sqrt_sq (by positivity)]
      ring
    unfold matern
    dsimp only
    rw [e]
  · have : (List.zipWith (fun a b => (a - b) ^ 2) x x).sum = 0 := by
      rw [zipWith_sum rfl rfl]
      simp
    unfold matern
    rw [this]
    simp
  · obtain ⟨t, ht⟩ : ∃ t, t = √3 * (√((List.zipWith (fun a b => (a - b) ^ 2) x y).sum) / ℓ) := ⟨_, rfl⟩
    have h0 : 0 ≤ t := by rw [ht]; positivity
    unfold matern
    rw [← ht]
    dsimp only
    refine ⟨by positivity, ?_⟩
    rw [Real.exp_neg, ← div_eq_mul_inv, div_le_one (Real.exp_pos t)]
    linarith [Real.add_one_le_exp t]

/-- a covariance function of variance 1 -/
def UnitCovariance (d : Nat) (k : Kernel) : Prop := Covariance d k ∧ ∀ x, x.length = d → k x x = 1

theorem matern_unit {ℓ : ℝ} (hℓ : 0 < ℓ) (d : Nat) : UnitCovariance d (matern ℓ) := ⟨(C99_matern hℓ d).1, fun x _ => (C99_matern hℓ d).2.1 x⟩

/-- **C99** the surrogate with a kernel of variance 1 (every Matérn kernel): fitting to any data that fits together succeeds, its predictions are row by row, no
predicted standard deviation is negative, none is 0 or exceeds that of the targets, and those of the training points are at most a
ten-thousandth of it. -/
theorem C99_unit {d : Nat} {choose : List (List ℝ) → List ℝ → Kernel} (hk : ∀ Z t, UnitCovariance d (choose Z t)) {X : List (List ℝ)} {y : List ℝ}
    (h : TrainingData d X y) :
    ∃ s, GpSurrogate.new.fit choose X y = (s, .ok ()) ∧ s.numFitted = X.length ∧
      ∃ mu sd, RowWise d s.predict mu sd ∧ (∀ r, 0 ≤ sd r) ∧
        ∀ r, r.length = d → 0 < sd r ∧ sd r ≤ spread y ∧ (r ∈ X → sd r ≤ spread y / 10 ^ 4) := by
  obtain ⟨s, h1, h2, ⟨mu, sd, h3, h4⟩, -⟩ := C99_fit (fun Z t => (hk Z t).1) h GpSurrogate.new
  refine ⟨s, h1, h2, mu, sd, h3, h4, fun r hr => ?_⟩
  have hp : s.predict [r] = .ok ([mu r], [sd r]) := by rw [h3 [r] (by simp) (by simpa using hr)]; rfl
  exact ⟨C99_positive (fun Z t => (hk Z t).1) (fun Z t x hx => by rw [(hk Z t).2 x hx]; exact one_pos) h h1 hp,
    C99_uncertainty (fun Z t => (hk Z t).1) (fun Z t x hx => (hk Z t).2 x hx) h h1 hp⟩

/-- **C99** the surrogate with its default arguments: fitting to any data that fits together succeeds, its predictions are row by row, no
predicted standard deviation is negative, none is 0 or exceeds that of the targets, and those of the training points are at most a
ten-thousandth of it. -/
theorem C99_default (ℓ : List (List ℝ) → List ℝ → ℝ) (hℓ : ∀ Z t, 0 < ℓ Z t) {d : Nat} {X : List (List ℝ)} {y : List ℝ}
    (h : TrainingData d X y) :
    ∃ s, GpSurrogate.new.fit (fun Z t => matern (ℓ Z t)) X y = (s, .ok ()) ∧ s.numFitted = X.length ∧
      ∃ mu sd, RowWise d s.predict mu sd ∧ (∀ r, 0 ≤ sd r) ∧
        ∀ r, r.length = d → 0 < sd r ∧ sd r ≤ spread y ∧ (r ∈ X → sd r ≤ spread y / 10 ^ 4) :=
  C99_unit (fun Z t => matern_unit (hℓ Z t) d) h

/-- the hypotheses hold: two points on a line, targets 0 and 2 (standard deviation 1) -/
theorem exGp_data : TrainingData 1 [[0], [1]] [0, 2] ∧ spread [0, 2] = 1 := by
  refine ⟨⟨by simp, by simp, le_refl 1, rfl⟩, ?_⟩
  unfold spread
  rw [if_neg]
  · have : squares (targetMean [0, 2]) [0, 2] / ([0, 2] : List ℝ).length = 1 := by
      norm_num [squares, targetMean]
    rw [this, Real.sqrt_one]
  · intro h
    have := h 0 (by simp) 2 (by simp)
    norm_num at this

/-- at the training point `[0]` the standard deviation is at most `1/10000`, anywhere else at most 1 -/
example (ℓ : List (List ℝ) → List ℝ → ℝ) (hℓ : ∀ Z t, 0 < ℓ Z t) :
    ∃ (s : GpSurrogate) (mu sd : List ℝ → ℝ), GpSurrogate.new.fit (fun Z t => matern (ℓ Z t)) [[0], [1]] [0, 2] = (s, .ok ()) ∧
      s.predict [[0], [5]] = .ok ([mu [0], mu [5]], [sd [0], sd [5]]) ∧ sd [0] ≤ 1 / 10 ^ 4 ∧ sd [5] ≤ 1 := by
  obtain ⟨s, h1, -, mu, sd, h3, -, h4⟩ := C99_default ℓ hℓ exGp_data.1
  have a := (h4 [0] rfl).2.2 (by simp)
  have b := (h4 [5] rfl).2.1
  rw [exGp_data.2] at a b
  exact ⟨s, mu, sd, h1, h3 _ (by simp) (by simp), a, b⟩

/-- without targets, or with targets of another number, fitting is a ValueError -/
example (choose : List (List ℝ) → List ℝ → Kernel) : (GpSurrogate.new.fit choose [] []).2 = .error .value ∧
    (GpSurrogate.new.fit choose [[1], [2]] [3]).2 = .error .value := by
  refine ⟨rfl, ?_⟩
  simp [GpSurrogate.fit, pipelineFit]

end PyPDP
