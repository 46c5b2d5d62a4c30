/-
C159: the maximum mean discrepancy as a distance: symmetric, independent of units, zero for the same points - also for those of the same seed.
-/
import Verif.Props.MMD
import Verif.Props.RandomGrid
import Verif.Model.Seeding

namespace PyPDP
open Spec

theorem npMedian_scale {c : ℝ} (hc : 0 < c) (L : List ℝ) : npMedian (L.map (c * ·)) = (npMedian L).map (c * ·) := by
  have hs : (L.map (c * ·)).mergeSort (fun a b => decide (a ≤ b)) = (L.mergeSort (fun a b => decide (a ≤ b))).map (c * ·) := by
    refine List.Perm.eq_of_pairwise' (mergeSort_pairwise _) ?_ ((List.mergeSort_perm _ _).trans ((List.mergeSort_perm L _).map _).symm)
    rw [List.pairwise_map]
    exact (mergeSort_pairwise L).imp fun h => mul_le_mul_of_nonneg_left h hc.le
  have hg : ∀ (s : List ℝ) k, (s.map (c * ·)).getD k 0 = c * s.getD k 0 := by
    intro s k
    simp only [List.getD_eq_getElem?_getD, List.getElem?_map]
    cases s[k]? <;> simp
  unfold npMedian
  rw [hs]
  dsimp only
  rw [List.length_map]
  split_ifs
  · rfl
  · rw [hg]; rfl
  · rw [hg, hg, ← mul_add, mul_div_assoc]; rfl

theorem median_similar {d e : Nat} {X : List (List ℝ)} (hX : ∀ r ∈ X, r.length = d) {φ : List ℝ → List ℝ} (hφ : ∀ r ∈ X, (φ r).length = e) {c : ℝ} (hc : 0 < c)
    (hd : ∀ a ∈ X, ∀ b ∈ X, euclid e (φ a) (φ b) = c * euclid d a b) :
    medianDistanceBetweenPoints (X.map φ) = (medianDistanceBetweenPoints X).map (c * ·) := by
  have hY : ∀ r ∈ X.map φ, r.length = e := by
    intro r hr
    obtain ⟨a, ha, rfl⟩ := List.mem_map.1 hr
    exact hφ a ha
  unfold medianDistanceBetweenPoints
  rw [pairDistances_filter hX, pairDistances_filter hY, ← npMedian_scale hc]
  congr 1
  unfold nonzeroDistances
  rw [show (X.map φ).product (X.map φ) = (X.product X).map (fun p => (φ p.1, φ p.2)) by
    simp [List.product, List.flatMap_map, List.map_flatMap, Function.comp_def]]
  rw [List.map_map]
  have : (X.product X).map ((fun p => euclid e p.1 p.2) ∘ fun p => (φ p.1, φ p.2)) = ((X.product X).map fun p => euclid d p.1 p.2).map (c * ·) := by
    rw [List.map_map]
    apply List.map_congr_left
    rintro ⟨a, b⟩ hp
    obtain ⟨ha, hb⟩ := List.pair_mem_product.1 hp
    exact hd a ha b hb
  rw [this, List.filter_map]
  congr 1
  apply List.filter_congr
  intro r _
  simp [hc.ne']

theorem mmdSquared_map {k k' : List ℝ → List ℝ → ℝ} {φ : List ℝ → List ℝ} {X Y : List (List ℝ)}
    (h : ∀ a ∈ X ++ Y, ∀ b ∈ X ++ Y, k' (φ a) (φ b) = k a b) : mmdSquared k' (X.map φ) (Y.map φ) = mmdSquared k X Y := by
  have hg : ∀ {Z : List (List ℝ)} {i : Nat}, i < Z.length → (Z.map φ).getD i [] = φ (Z.getD i []) ∧ Z.getD i [] ∈ Z := by
    intro Z i hi
    simp [List.getD_eq_getElem?_getD, hi]
  have hwithin : ∀ Z : List (List ℝ), (∀ a ∈ Z, a ∈ X ++ Y) → meanWithin k' (Z.map φ) = meanWithin k Z := by
    intro Z hZ
    unfold meanWithin
    rw [List.length_map]
    congr 1
    refine Finset.sum_congr rfl fun i hi => Finset.sum_congr rfl fun j hj => ?_
    have hi' := hg (Z := Z) (Finset.mem_range.1 hi)
    have hj' := hg (Z := Z) (Finset.mem_range.1 (Finset.mem_of_mem_erase hj))
    rw [hi'.1, hj'.1, h _ (hZ _ hi'.2) _ (hZ _ hj'.2)]
  have hcross : meanCross k' (X.map φ) (Y.map φ) = meanCross k X Y := by
    unfold meanCross
    rw [List.length_map, List.length_map]
    congr 1
    refine Finset.sum_congr rfl fun i hi => Finset.sum_congr rfl fun j hj => ?_
    have hi' := hg (Z := X) (Finset.mem_range.1 hi)
    have hj' := hg (Z := Y) (Finset.mem_range.1 hj)
    rw [hi'.1, hj'.1, h _ (List.mem_append_left _ hi'.2) _ (List.mem_append_right _ hj'.2)]
  unfold mmdSquared
  rw [hwithin X fun a ha => List.mem_append_left _ ha, hwithin Y fun a ha => List.mem_append_right _ ha, hcross]

/-- the result is defined, or nan -/
theorem mmd_cases {d : Nat} {Xs Xu : List (List ℝ)} (hXs : ∀ r ∈ Xs, r.length = d) (hXu : ∀ r ∈ Xu, r.length = d) :
    (2 ≤ Xs.length ∧ 2 ≤ Xu.length ∧ ∃ a ∈ Xs ++ Xu, ∃ b ∈ Xs ++ Xu, a ≠ b) ∨
      ((Xs.length < 2 ∨ Xu.length < 2 ∨ ∀ a ∈ Xs ++ Xu, ∀ b ∈ Xs ++ Xu, a = b) ∧ maximumMeanDiscrepancy Xs Xu = .error .nan) := by
  by_cases h : 2 ≤ Xs.length ∧ 2 ≤ Xu.length ∧ ∃ a ∈ Xs ++ Xu, ∃ b ∈ Xs ++ Xu, a ≠ b
  · exact .inl h
  · have h' : Xs.length < 2 ∨ Xu.length < 2 ∨ ∀ a ∈ Xs ++ Xu, ∀ b ∈ Xs ++ Xu, a = b := by
      rw [not_and_or, not_and_or] at h
      push Not at h
      exact h
    exact .inr ⟨h', C33_undefined hXs hXu h'⟩

/-- **C159** samples and uniform points can be exchanged. -/
theorem C159_symmetric {d : Nat} {Xs Xu : List (List ℝ)} (hXs : ∀ r ∈ Xs, r.length = d) (hXu : ∀ r ∈ Xu, r.length = d) :
    maximumMeanDiscrepancy Xs Xu = maximumMeanDiscrepancy Xu Xs := by
  rcases mmd_cases hXs hXu with ⟨h1, h2, a, ha, b, hb, hab⟩ | ⟨h, e⟩
  · obtain ⟨l, r, m1, -, m2, m3, m4⟩ := C33_value hXs hXu h1 h2 ⟨a, ha, b, hb, hab⟩
    obtain ⟨l', r', n1, -, n2, n3, n4⟩ := C33_value hXu hXs h2 h1
      ⟨a, (List.perm_append_comm.mem_iff).1 ha, b, (List.perm_append_comm.mem_iff).1 hb, hab⟩
    rw [C09_order_irrelevant List.perm_append_comm, m1] at n1
    obtain rfl := Except.ok.inj n1
    have hc : meanCross (rbfKernel d l) Xu Xs = meanCross (rbfKernel d l) Xs Xu := by
      unfold meanCross
      rw [Finset.sum_comm, mul_comm]
      congr 1
      refine Finset.sum_congr rfl fun i _ => Finset.sum_congr rfl fun j _ => ?_
      unfold rbfKernel
      rw [euclid_comm]
    have : mmdSquared (rbfKernel d l) Xu Xs = mmdSquared (rbfKernel d l) Xs Xu := by
      unfold mmdSquared
      rw [hc]; ring
    rw [this, ← m4] at n4
    rw [m2, n2, (sq_eq_sq₀ n3 m3).1 n4]
  · rw [e, C33_undefined hXu hXs]
    rcases h with h | h | h
    · exact .inr (.inl h)
    · exact .inl h
    · exact .inr (.inr fun a ha b hb => h a (List.perm_append_comm.mem_iff.1 ha) b (List.perm_append_comm.mem_iff.1 hb))

/-- **C159** only the ratios of the distances matter: a map that multiplies all distances by the same factor (a shift, a change of units, another order of the
hyperparameters, an additional constant hyperparameter) does not change the result. -/
theorem C159_similarity {d e : Nat} {Xs Xu : List (List ℝ)} (hXs : ∀ r ∈ Xs, r.length = d) (hXu : ∀ r ∈ Xu, r.length = d) {φ : List ℝ → List ℝ}
    (hφ : ∀ r ∈ Xs ++ Xu, (φ r).length = e) {c : ℝ} (hc : 0 < c) (hd : ∀ a ∈ Xs ++ Xu, ∀ b ∈ Xs ++ Xu, euclid e (φ a) (φ b) = c * euclid d a b) :
    maximumMeanDiscrepancy (Xs.map φ) (Xu.map φ) = maximumMeanDiscrepancy Xs Xu := by
  have hX : ∀ r ∈ Xs ++ Xu, r.length = d := by
    intro r hr
    rcases List.mem_append.1 hr with hr | hr
    exacts [hXs r hr, hXu r hr]
  have hYs : ∀ r ∈ Xs.map φ, r.length = e := by
    intro r hr
    obtain ⟨a, ha, rfl⟩ := List.mem_map.1 hr
    exact hφ a (List.mem_append_left _ ha)
  have hYu : ∀ r ∈ Xu.map φ, r.length = e := by
    intro r hr
    obtain ⟨a, ha, rfl⟩ := List.mem_map.1 hr
    exact hφ a (List.mem_append_right _ ha)
  have hinj : ∀ a ∈ Xs ++ Xu, ∀ b ∈ Xs ++ Xu, φ a = φ b ↔ a = b := by
    intro a ha b hb
    rw [← euclid_eq_zero (hφ a ha) (hφ b hb), hd a ha b hb, mul_eq_zero, or_iff_right hc.ne', euclid_eq_zero (hX a ha) (hX b hb)]
  rcases mmd_cases hXs hXu with ⟨h1, h2, a, ha, b, hb, hab⟩ | ⟨h, e⟩
  · obtain ⟨l, r, m1, hl, m2, m3, m4⟩ := C33_value hXs hXu h1 h2 ⟨a, ha, b, hb, hab⟩
    obtain ⟨l', r', n1, -, n2, n3, n4⟩ := C33_value hYs hYu (by simpa using h1) (by simpa using h2)
      ⟨φ a, by rw [← List.map_append]; exact List.mem_map_of_mem ha, φ b, by rw [← List.map_append]; exact List.mem_map_of_mem hb, fun h => hab ((hinj a ha b hb).1 h)⟩
    rw [← List.map_append, median_similar hX hφ hc hd, m1] at n1
    obtain rfl : c * l = l' := Except.ok.inj n1
    have : mmdSquared (rbfKernel e (c * l)) (Xs.map φ) (Xu.map φ) = mmdSquared (rbfKernel d l) Xs Xu := by
      refine mmdSquared_map fun a ha b hb => ?_
      unfold rbfKernel
      rw [hd a ha b hb]
      congr 1
      field_simp
    rw [this, ← m4] at n4
    rw [m2, n2, (sq_eq_sq₀ n3 m3).1 n4]
  · rw [e, C33_undefined hYs hYu]
    rcases h with h | h | h
    · exact .inl (by simpa using h)
    · exact .inr (.inl (by simpa using h))
    · refine .inr (.inr fun a ha b hb => ?_)
      rw [← List.map_append] at ha hb
      obtain ⟨a, ha', rfl⟩ := List.mem_map.1 ha
      obtain ⟨b, hb', rfl⟩ := List.mem_map.1 hb
      rw [h a ha' b hb']

/-- **C159** the same points on both sides, in any order: exactly 0. -/
theorem C159_same_points {d : Nat} {Xs Xu : List (List ℝ)} (hXs : ∀ r ∈ Xs, r.length = d) (hn : 2 ≤ Xs.length) (hp : Xu.Perm Xs)
    (hne : ∃ a ∈ Xs, ∃ b ∈ Xs, a ≠ b) : maximumMeanDiscrepancy Xs Xu = .ok 0 := by
  have hXu : ∀ r ∈ Xu, r.length = d := fun r hr => hXs r (hp.mem_iff.1 hr)
  rw [C33_order_irrelevant hXs hXu (List.Perm.refl _) hp]
  obtain ⟨a, ha, b, hb, hab⟩ := hne
  obtain ⟨l, r, -, -, m2, m3, m4⟩ := C33_value hXs hXs hn hn ⟨a, List.mem_append_left _ ha, b, List.mem_append_left _ hb, hab⟩
  have hle : mmdSquared (rbfKernel d l) Xs Xs ≤ 0 := by
    have h2 : (2 : ℝ) ≤ Xs.length := by exact_mod_cast hn
    have h1 := meanWithin_le_one (rbfKernel_le_one d l) hn
    have hcross : meanCross (rbfKernel d l) Xs Xs * (Xs.length * Xs.length) = meanWithin (rbfKernel d l) Xs * (Xs.length * (Xs.length - 1)) + Xs.length := by
      unfold meanCross meanWithin
      rw [div_mul_cancel₀ _ (by positivity), div_mul_cancel₀ _ (by have : (0:ℝ) < Xs.length - 1 := by linarith
                                                                   positivity)]
      rw [show (Xs.length : ℝ) = ∑ i ∈ Finset.range Xs.length, (1 : ℝ) by simp, ← Finset.sum_add_distrib]
      refine Finset.sum_congr rfl fun i hi => ?_
      rw [← Finset.add_sum_erase _ _ hi, add_comm]
      congr 1
      simp [rbfKernel, euclid]
    unfold mmdSquared
    have : meanWithin (rbfKernel d l) Xs ≤ meanCross (rbfKernel d l) Xs Xs := by
      have hpos : (0 : ℝ) < Xs.length * Xs.length := by positivity
      rw [← mul_le_mul_iff_of_pos_right hpos, hcross]
      nlinarith
    linarith
  rw [max_eq_left hle, sq_eq_zero_iff] at m4
  rw [m2, m4]

/-- **C159** all samples in one point, all uniform points in another one: the length scale is their distance, so the result is the same for all distances, and
less than the bound `√2`. -/
theorem C159_apart {d : Nat} {a b : List ℝ} (ha : a.length = d) (hb : b.length = d) (hab : a ≠ b) {n m : Nat} (hn : 2 ≤ n) (hm : 2 ≤ m) :
    maximumMeanDiscrepancy (List.replicate n a) (List.replicate m b) = .ok (Real.sqrt (2 - 2 * Real.exp (-(1 / 2)))) := by
  have hXs : ∀ r ∈ List.replicate n a, r.length = d := fun r hr => by rw [List.eq_of_mem_replicate hr, ha]
  have hXu : ∀ r ∈ List.replicate m b, r.length = d := fun r hr => by rw [List.eq_of_mem_replicate hr, hb]
  have hX : ∀ r ∈ List.replicate n a ++ List.replicate m b, r.length = d := by
    intro r hr
    rcases List.mem_append.1 hr with hr | hr
    exacts [hXs r hr, hXu r hr]
  have hne : ∃ x ∈ List.replicate n a ++ List.replicate m b, ∃ y ∈ List.replicate n a ++ List.replicate m b, x ≠ y :=
    ⟨a, List.mem_append_left _ (List.mem_replicate.2 ⟨by omega, rfl⟩), b, List.mem_append_right _ (List.mem_replicate.2 ⟨by omega, rfl⟩), hab⟩
  have hdist : ∀ r ∈ nonzeroDistances d (List.replicate n a ++ List.replicate m b), r = euclid d a b := by
    intro r hr
    obtain ⟨x, hx, y, hy, rfl, h0⟩ := mem_nonzeroDistances.1 hr
    rcases List.mem_append.1 hx with hx | hx <;> rcases List.mem_append.1 hy with hy | hy <;>
      rw [List.eq_of_mem_replicate hx, List.eq_of_mem_replicate hy] at h0 ⊢
    · exact absurd ((euclid_eq_zero ha ha).2 rfl) h0
    · exact euclid_comm _ _ _
    · exact absurd ((euclid_eq_zero hb hb).2 rfl) h0
  obtain ⟨l, k1, -, hl, ⟨r1, k2, k3⟩, ⟨r2, k4, k5⟩⟩ := C09_median hX hne
  have hle : l = euclid d a b := le_antisymm (k5.trans_eq (hdist _ k4)) ((hdist _ k2).symm.trans_le k3)
  obtain ⟨l', r, m1, -, m2, m3, m4⟩ := C33_value hXs hXu (by simpa using hn) (by simpa using hm) hne
  rw [k1] at m1
  obtain rfl := Except.ok.inj m1
  have hn' : (2 : ℝ) ≤ n := by exact_mod_cast hn
  have hm' : (2 : ℝ) ≤ m := by exact_mod_cast hm
  have within : ∀ (p : Nat) (x : List ℝ), 2 ≤ p → meanWithin (rbfKernel d l) (List.replicate p x) = 1 := by
    intro p x hp
    have hp' : (2 : ℝ) ≤ p := by exact_mod_cast hp
    have hpos : (0 : ℝ) < p * (p - 1) := mul_pos (by linarith) (by linarith)
    unfold meanWithin
    rw [List.length_replicate, div_eq_one_iff_eq hpos.ne']
    rw [show (p : ℝ) * (p - 1) = ∑ i ∈ Finset.range p, ((p : ℝ) - 1) by rw [Finset.sum_const, Finset.card_range, nsmul_eq_mul]]
    refine Finset.sum_congr rfl fun i hi => ?_
    rw [show (p : ℝ) - 1 = ∑ j ∈ (Finset.range p).erase i, (1 : ℝ) by
      rw [Finset.sum_const, Finset.card_erase_of_mem hi, Finset.card_range, nsmul_eq_mul, mul_one, Nat.cast_sub (by omega), Nat.cast_one]]
    refine Finset.sum_congr rfl fun j hj => ?_
    have hi := Finset.mem_range.1 hi
    have hj := Finset.mem_range.1 (Finset.mem_of_mem_erase hj)
    simp [List.getD_eq_getElem?_getD, hi, hj, rbfKernel, euclid]
  have cross : meanCross (rbfKernel d l) (List.replicate n a) (List.replicate m b) = Real.exp (-(1 / 2)) := by
    unfold meanCross
    rw [List.length_replicate, List.length_replicate, div_eq_iff (by positivity)]
    rw [Finset.sum_congr rfl fun i hi => Finset.sum_congr rfl fun j hj => show _ = Real.exp (-(1 / 2)) by
      have hi := Finset.mem_range.1 hi
      have hj := Finset.mem_range.1 hj
      simp only [List.getD_eq_getElem?_getD, List.getElem?_replicate, hi, hj, if_true, Option.getD_some, rbfKernel]
      rw [← hle]
      congr 1
      field_simp]
    simp only [Finset.sum_const, Finset.card_range, nsmul_eq_mul]
    ring
  unfold mmdSquared at m4
  rw [within n a hn, within m b hm, cross, max_eq_right (by
    have : Real.exp (-(1 / 2)) ≤ 1 := Real.exp_le_one_iff.2 (by norm_num)
    linarith)] at m4
  rw [m2, show (2 : ℝ) - 2 * Real.exp (-(1 / 2)) = r ^ 2 by rw [m4]; ring, Real.sqrt_sq m3]

/-- another unit and another origin: `x ↦ 3 + 2 x` in every coordinate, two points on each side -/
example : maximumMeanDiscrepancy [[3, 3], [9, 11]] [[5, 3], [3, 7]] = maximumMeanDiscrepancy [[0, 0], [3, 4]] [[1, 0], [0, 2]] := by
  have h := C159_similarity (d := 2) (e := 2) (Xs := [[0, 0], [3, 4]]) (Xu := [[1, 0], [0, 2]]) (by simp) (by simp) (φ := fun r => r.map fun x => 3 + 2 * x) (by simp) (c := 2)
    (by norm_num) (by
      intro a ha b hb
      have ha' : a.length = 2 := by
        revert ha; simp; rintro (rfl | rfl | rfl | rfl) <;> rfl
      have hb' : b.length = 2 := by
        revert hb; simp; rintro (rfl | rfl | rfl | rfl) <;> rfl
      obtain ⟨a0, a1, rfl⟩ := List.length_eq_two.1 ha'
      obtain ⟨b0, b1, rfl⟩ := List.length_eq_two.1 hb'
      unfold euclid
      rw [show (2 : ℝ) = Real.sqrt (2 ^ 2) by rw [Real.sqrt_sq (by norm_num)], ← Real.sqrt_mul (by norm_num)]
      congr 1
      simp only [Finset.sum_range_succ, Finset.sum_range_zero]
      simp
      ring)
  norm_num at h
  exact h

/-- the same two points on both sides, in another order -/
example : maximumMeanDiscrepancy [[0, 0], [3, 4]] [[3, 4], [0, 0]] = .ok 0 :=
  C159_same_points (d := 2) (by simp) (by simp) (List.Perm.swap _ _ _) ⟨[0, 0], by simp, [3, 4], by simp, by simp⟩

/-! ### the method -/

variable {S : Type}

/-- **C159** the method, for at least two draws: the discrepancy of the vectors of the recorded configurations and of `m` (by default as many as recorded) draws
from the state of the given seed. -/
theorem C159_method (seedState : Int → S) (entropy : S) (d : Drawer (Config ℝ) S) {configs : List (Config ℝ)} (hne : configs ≠ []) {m : Nat} (hm : 2 ≤ m) (k : Int) :
    samplerMmd seedState entropy d configs (some m) (some k) =
        maximumMeanDiscrepancy (configs.map Config.vector) ((d.draw (seedState k) m).1.map Config.vector) ∧
      samplerMmd seedState entropy d configs (some m) none = maximumMeanDiscrepancy (configs.map Config.vector) ((d.draw entropy m).1.map Config.vector) ∧
      ∀ seed, samplerMmd seedState entropy d configs none seed = samplerMmd seedState entropy d configs (some configs.length) seed := by
  obtain ⟨c, cs, rfl⟩ := List.exists_cons_of_ne_nil hne
  have key : ∀ s : S, (d.sampleConfiguration s m).1 = .many (d.draw s m).1 := by
    intro s
    unfold Drawer.sampleConfiguration
    have h1 : ¬ (m : Int) < 1 := by omega
    have h2 : ¬ (m : Int) = 1 := by omega
    simp only [if_neg h1, if_neg h2, Int.toNat_natCast]
  have hcons : ∀ s : S, ∃ u us, (d.draw s m).1 = u :: us := by
    intro s
    refine List.exists_cons_of_ne_nil fun h0 => ?_
    have := d.draw_length s m
    rw [h0] at this
    simp at this
    omega
  refine ⟨?_, ?_, fun seed => rfl⟩
  · unfold samplerMmd
    simp only [Option.getD_some, Option.elim_some]
    rw [key]
    obtain ⟨u, us, hu⟩ := hcons (seedState k)
    rw [hu]
  · unfold samplerMmd
    simp only [Option.getD_some, Option.elim_none]
    rw [key]
    obtain ⟨u, us, hu⟩ := hcons entropy
    rw [hu]

/-- **C159** without samples, or with fewer than two draws: ValueError. -/
theorem C159_refused (seedState : Int → S) (entropy : S) (d : Drawer (Config ℝ) S) (configs : List (Config ℝ)) (m seed : Option Int)
    (h : configs = [] ∨ m.getD configs.length < 2) : samplerMmd seedState entropy d configs m seed = .error .value := by
  unfold samplerMmd
  cases configs with
  | nil => rfl
  | cons c cs =>
    have h : m.getD ((c :: cs).length : Int) < 2 := by
      rcases h with h | h
      · cases h
      · exact h
    have key : ∀ (s : S) (n : Int), n < 2 → (d.sampleConfiguration s n).1 = .many [] ∨ ∃ x, (d.sampleConfiguration s n).1 = .one x := by
      intro s n hn
      unfold Drawer.sampleConfiguration
      by_cases h1 : n < 1
      · exact .inl (by simp [h1])
      · have h2 : n = 1 := by omega
        subst h2
        obtain ⟨x, hx⟩ := List.length_eq_one_iff.1 (d.draw_length s 1)
        exact .inr ⟨x, by simp [hx]⟩
    dsimp only
    rcases key (seed.elim entropy seedState) _ h with e | ⟨x, e⟩ <;> simp only [e]

/-- **C159** a random sampler that started from the state that the method seeds its copy with: the "uniform points" are its own samples and the result is 0. -/
theorem C159_same_seed {K : Type} (seedState : Int → S) (entropy : S) (d : Drawer (Config ℝ) S) (o : Objective (Config ℝ) K) (hno : ∀ t c, o.raises t c = none) (k : Int)
    {n w : Nat} (hn : 2 ≤ n) (hw : ∀ c ∈ (d.draw (seedState k) n).1, c.vector.length = w)
    (hne : ∃ a ∈ (d.draw (seedState k) n).1, ∃ b ∈ (d.draw (seedState k) n).1, a.vector ≠ b.vector) :
    ∃ t, randomSampler o d ⟨[], [], [], 0, seedState k⟩ n = (t, none) ∧ t.configs.length = n ∧
      samplerMmd seedState entropy d t.configs none (some k) = .ok 0 := by
  refine ⟨_, C26_drawn_partial o d hno _ rfl n hn, by simp [d.draw_length], ?_⟩
  dsimp only
  rw [List.nil_append]
  have hlen := d.draw_length (seedState k) n
  have hnil : (d.draw (seedState k) n).1 ≠ [] := by
    intro h0
    rw [h0] at hlen
    simp at hlen
    omega
  obtain ⟨h1, -, h2⟩ := C159_method seedState entropy d hnil hn k
  rw [h2, hlen, h1]
  refine C159_same_points (d := w) ?_ (by simpa [hlen] using hn) (List.Perm.refl _) ?_
  · intro r hr
    obtain ⟨c, hc, rfl⟩ := List.mem_map.1 hr
    exact hw c hc
  · obtain ⟨a, ha, b, hb, hab⟩ := hne
    exact ⟨_, List.mem_map_of_mem ha, _, List.mem_map_of_mem hb, hab⟩

/-- a generator that draws 0, 1/2, 0, 1/2, … from every state -/
example : ∃ (d : Drawer (Config ℝ) Unit) (t : SamplerState (Config ℝ) ℝ Unit), randomSampler ⟨fun _ => 0, fun _ _ => none⟩ d ⟨[], [], [], 0, ()⟩ 4 = (t, none) ∧
    t.configs.length = 4 ∧ samplerMmd (fun _ => ()) () d t.configs none (some 7) = .ok 0 := by
  obtain ⟨d, hd⟩ : ∃ d : Drawer (Config ℝ) Unit, d = ⟨fun _ n => ((List.range n).map fun i => ⟨[if i % 2 = 0 then 0 else 1 / 2], []⟩, ()), by simp⟩ := ⟨_, rfl⟩
  refine ⟨d, C159_same_seed (fun _ => ()) () d ⟨fun _ => 0, fun _ _ => none⟩ (by simp) 7 (n := 4) (w := 1) (by norm_num) ?_ ?_⟩
  · intro c hc
    rw [hd] at hc
    obtain ⟨i, -, rfl⟩ := List.mem_map.1 hc
    rfl
  · refine ⟨_, by rw [hd]; exact List.mem_map_of_mem (List.mem_range.2 (by norm_num : 0 < 4)), _, by rw [hd]; exact List.mem_map_of_mem (List.mem_range.2 (by norm_num : 1 < 4)), ?_⟩
    simp

/-- **C159** giving both the same seed argument is not that case: a component is started from the seed plus the hash of its class, the method uses the seed
itself. They agree exactly if the hash is a multiple of `2 ^ 31`. -/
theorem C159_seed_argument (md5 : String → Nat) (cls : String) (time : Int) {z : Int} (h0 : 0 ≤ z) (h1 : z < 2 ^ 31) :
    finalSeed md5 cls time (.int z) = some z.toNat ↔ 2 ^ 31 ∣ md5 cls := by
  unfold finalSeed
  rw [Option.some_inj]
  constructor
  · intro h
    have : ((md5 cls : Int) + z) % 2 ^ 31 = z := by omega
    omega
  · intro h
    omega

end PyPDP
