/-
C179: every objective can be represented by the default kernel, at any finite number of rows.
-/
import Verif.Lemmas.MaternStrict
import Verif.Props.GpCover

namespace PyPDP
open Spec Matrix

/-- the matrix of the default kernel at different points is positive definite -/
theorem matern_posDef {ℓ : ℝ} (hℓ : 0 < ℓ) {d q : Nat} {p : Fin q → List ℝ} (hp : ∀ j, (p j).length = d) (hinj : Function.Injective p) :
    (Matrix.of fun i j => matern ℓ (p i) (p j)).PosDef := by
  have hpsd : (Matrix.of fun i j => matern ℓ (p i) (p j)).PosSemidef :=
    Matern.pos_iff.1 ⟨fun i j => (C99_matern hℓ d).1.1 _ _ (hp i) (hp j), fun c => (C99_matern hℓ d).1.2 q p c hp⟩
  refine Matrix.PosDef.of_dotProduct_mulVec_pos hpsd.1 fun c hc => ?_
  have e : star c ⬝ᵥ ((Matrix.of fun i j => matern ℓ (p i) (p j)) *ᵥ c) = ∑ i, ∑ j, c i * c j * matern ℓ (p i) (p j) := by
    simp only [dotProduct, mulVec, of_apply, Pi.star_apply, star_trivial, Finset.mul_sum]
    exact Finset.sum_congr rfl fun i _ => Finset.sum_congr rfl fun j _ => by ring
  rw [e]
  refine lt_of_le_of_ne ((C99_matern hℓ d).1.2 q p c hp) fun h => hc ?_
  obtain ⟨v, hv⟩ : ∃ v : Fin q → Fin d → ℝ, v = fun i (k : Fin d) => √3 / ℓ * (p i).getD (k : Nat) 0 := ⟨_, rfl⟩
  have hdist : ∀ i j, √(Matern.dist2 v i j) = √3 * (√((List.zipWith (fun a b => (a - b) ^ 2) (p i) (p j)).sum) / ℓ) := by
    intro i j
    rw [zipWith_sum (hp i) (hp j)]
    have : Matern.dist2 v i j = (√3 / ℓ) ^ 2 * ∑ k : Fin d, ((p i).getD k 0 - (p j).getD k 0) ^ 2 := by
      unfold Matern.dist2
      rw [Finset.mul_sum]
      refine Finset.sum_congr rfl fun k _ => ?_
      rw [hv]
      ring
    rw [this, Real.sqrt_mul (sq_nonneg _), Real.sqrt_sq (by positivity)]
    ring
  refine Matern.matern_strict (s := Matern.dist2 v) (fun i => by simp [Matern.dist2]) (fun i j hij => ?_) (fun τ hτ => Matern.gaussian v hτ) ?_
  · refine lt_of_le_of_ne (Finset.sum_nonneg fun k _ => sq_nonneg _) fun h0 => hij (hinj ?_)
    have hz := (Finset.sum_eq_zero_iff_of_nonneg fun k _ => sq_nonneg (v i k - v j k)).1 h0.symm
    refine List.ext_getElem (by rw [hp, hp]) fun k h1 h2 => ?_
    have hk := hz ⟨k, by rw [← hp i]; exact h1⟩ (Finset.mem_univ _)
    have h3 : √3 / ℓ ≠ 0 := by positivity
    rw [hv] at hk
    have hk' := sub_eq_zero.1 (pow_eq_zero_iff (two_ne_zero)|>.1 hk)
    have := mul_left_cancel₀ h3 hk'
    simpa [List.getD_eq_getElem?_getD, h1, h2] using this
  · rw [h]
    refine Finset.sum_congr rfl fun i _ => Finset.sum_congr rfl fun j _ => ?_
    rw [hdist]
    rfl

/-- so the values at different points can be prescribed -/
theorem matern_interpolates {ℓ : ℝ} (hℓ : 0 < ℓ) {d q : Nat} {p : Fin q → List ℝ} (hp : ∀ j, (p j).length = d) (hinj : Function.Injective p) (t : Fin q → ℝ) :
    ∃ a : Fin q → ℝ, ∀ i, kernelSum (matern ℓ) a p (p i) = t i := by
  have hpd := matern_posDef hℓ hp hinj
  refine ⟨(Matrix.of fun i j => matern ℓ (p i) (p j))⁻¹ *ᵥ t, fun i => ?_⟩
  have : (Matrix.of fun i j => matern ℓ (p i) (p j)) *ᵥ ((Matrix.of fun i j => matern ℓ (p i) (p j))⁻¹ *ᵥ t) = t := by
    rw [mulVec_mulVec, mul_nonsing_inv _ ((isUnit_iff_isUnit_det _).1 hpd.isUnit), one_mulVec]
  rw [← congrFun this i, mulVec, dotProduct, kernelSum]
  exact Finset.sum_congr rfl fun j _ => by rw [of_apply]; ring

/-- standardisation does not identify different rows -/
theorem standardised_injective {d : Nat} {X : List (List ℝ)} (hX : X ≠ []) {r q : List ℝ} (hr : r.length = d) (hq : q.length = d)
    (h : standardised d X r = standardised d X q) : r = q := by
  refine List.ext_getElem (by rw [hr, hq]) fun k h1 h2 => ?_
  have hk : k < d := hr ▸ h1
  have := congrArg (fun l => l.getD k 0) h
  simp only [standardised, List.getD_eq_getElem?_getD, List.getElem?_map, List.getElem?_range hk, Option.map_some, Option.getD_some, List.getElem?_eq_getElem h1,
    List.getElem?_eq_getElem h2] at this
  have hs : 0 < spread (X.map fun q => q.getD k 0) := spread_pos (by simpa using hX)
  simp only [List.getD_eq_getElem?_getD] at hs
  rw [div_left_inj' hs.ne'] at this
  linarith

/-- **C179** The condition can always be met: whatever the objective, the data and the length scale, there is a `B` such that the default kernel represents the objective with size at most `B`
at all of finitely many rows (in particular at all rows that a PDP or the candidates of an acquisition function consist of). -/
theorem C179_any {l : ℝ} (hl : 0 < l) {d : Nat} {X : List (List ℝ)} {y : List ℝ} (h : TrainingData d X y) (f : List ℝ → ℝ) {R : Set (List ℝ)} (hfin : R.Finite)
    (hR : ∀ r ∈ R, r.length = d) : ∃ B, Representable (matern l) d X y f R B := by
  obtain ⟨rows, hnd, hrows⟩ : ∃ rows : List (List ℝ), rows.Nodup ∧ ∀ r, r ∈ rows ↔ r ∈ R :=
    ⟨hfin.toFinset.toList, Finset.nodup_toList _, fun r => by simp⟩
  have hc := spread_pos h.targets_ne
  have hlen : ∀ j : Fin rows.length, (rows.get j).length = d := fun j => hR _ ((hrows _).1 (List.get_mem rows j))
  obtain ⟨a, ha⟩ := matern_interpolates hl (p := fun j : Fin rows.length => standardised d X (rows.get j)) (fun j => standardised_length d X _)
    (fun i j hij => List.nodup_iff_injective_get.1 hnd (standardised_injective h.rows (hlen i) (hlen j) hij)) fun j => (f (rows.get j) - targetMean y) / spread y
  refine ⟨_, _, a, fun j => standardised d X (rows.get j), ⟨fun j => standardised_length d X _, fun r hr => ?_⟩, le_rfl⟩
  obtain ⟨i, rfl⟩ := List.get_of_mem ((hrows r).2 hr)
  rw [ha i]
  field_simp
  ring

end PyPDP
