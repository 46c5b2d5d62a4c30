/-
C150: the losses of a tree, with doubles.
-/
import Verif.Props.RoundedMachine
import Verif.Props.RoundingSame
import Verif.Props.Loss
import Verif.Props.Partition
import Verif.Spec.Ties

namespace PyPDP
open Spec

/-! ### the error of one loss -/

theorem zipWith_range {α β γ : Type} (f : α → β → γ) (d : α) (g : Nat → β) {P : Nat} {r : List α} (hr : r.length = P) :
    List.zipWith f r ((List.range P).map g) = (List.range P).map fun c => f (r.getD c d) (g c) := by
  refine List.ext_getElem (by simp [hr]) fun i h1 h2 => ?_
  simp only [List.length_map, List.length_range] at h2
  simp only [List.getElem_zipWith, List.getElem_map, List.getElem_range]
  rw [List.getD, List.getElem?_eq_getElem (by omega)]
  rfl

/-- the squared distance from the mean, for one entry of the array -/
theorem squareF_error {fl : ℝ → ℝ} (hfl : RoundsToNearest fl) {n : ℝ} (h1 : 1 ≤ n) (hn : n ≤ 2 ^ 50) {B a m m' : ℝ} (ha : |a| ≤ B) (hm : |m| ≤ B)
    (hmm : |m' - m| ≤ n * (2 : ℝ) ^ (-52 : ℤ) * B) :
    |fl (fl (a - m') ^ 2) - (a - m) ^ 2| ≤ 14 * n * (2 : ℝ) ^ (-52 : ℤ) * B ^ 2 ∧ |fl (fl (a - m') ^ 2)| ≤ 7 * B ^ 2 := by
  have hB : 0 ≤ B := (abs_nonneg a).trans ha
  have e53 : (2 : ℝ) ^ (-53 : ℤ) = (2 : ℝ) ^ (-52 : ℤ) / 2 := by
    rw [show (-53 : ℤ) = -52 + -1 by norm_num, zpow_add₀ (by norm_num)]; norm_num
  have hw4 : n * (2 : ℝ) ^ (-52 : ℤ) ≤ 1 / 4 := by
    calc n * (2 : ℝ) ^ (-52 : ℤ) ≤ 2 ^ 50 * (2 : ℝ) ^ (-52 : ℤ) := mul_le_mul_of_nonneg_right hn (by positivity)
      _ = 1 / 4 := by rw [zpow_neg]; norm_num
  have hx := (hfl (a - m')).error
  have hq := (hfl (fl (a - m') ^ 2)).error
  rw [e53] at hx hq
  obtain ⟨w, hw⟩ : ∃ w : ℝ, w = (2 : ℝ) ^ (-52 : ℤ) := ⟨_, rfl⟩
  have hw0 : 0 < w := by rw [hw]; positivity
  have hwn : w ≤ n * w := by nlinarith
  rw [← hw] at hmm hw4 hx hq ⊢
  obtain ⟨e, he⟩ : ∃ e, e = fl (a - m') := ⟨_, rfl⟩
  obtain ⟨q, hqe⟩ : ∃ q, q = fl (e ^ 2) := ⟨_, rfl⟩
  rw [← he] at hx hq ⊢
  rw [← hqe] at hq ⊢
  have hwB : w * B ≤ n * w * B := mul_le_mul_of_nonneg_right hwn hB
  have hwB4 : n * w * B ≤ 1 / 4 * B := mul_le_mul_of_nonneg_right hw4 hB
  have hd : |a - m| ≤ 2 * B := by
    have := abs_sub a m; linarith
  have hxb : |a - m'| ≤ 9 / 4 * B := by
    have : a - m' = (a - m) - (m' - m) := by ring
    rw [this]
    have := abs_sub (a - m) (m' - m); linarith
  have hxe : |a - m' - e| ≤ 9 / 8 * (w * B) := by
    calc |a - m' - e| ≤ |a - m'| * (w / 2) := hx
      _ ≤ 9 / 4 * B * (w / 2) := mul_le_mul_of_nonneg_right hxb (by linarith)
      _ = _ := by ring
  have hed : |e - (a - m)| ≤ 17 / 8 * (n * w * B) := by
    have : e - (a - m) = -(a - m' - e) - (m' - m) := by ring
    rw [this]
    have := abs_sub (-(a - m' - e)) (m' - m)
    rw [abs_neg] at this
    linarith
  have heb : |e| ≤ 2.54 * B := by
    have : e = (e - (a - m)) + (a - m) := by ring
    rw [this]
    have := abs_add_le (e - (a - m)) (a - m)
    linarith
  have he2 : e ^ 2 ≤ 6.46 * B ^ 2 := by
    rw [← sq_abs]
    have := pow_le_pow_left₀ (abs_nonneg e) heb 2
    nlinarith
  have hq' : |e ^ 2 - q| ≤ 3.23 * (w * B ^ 2) := by
    calc |e ^ 2 - q| ≤ |e ^ 2| * (w / 2) := hq
      _ = e ^ 2 * (w / 2) := by rw [abs_of_nonneg (sq_nonneg e)]
      _ ≤ 6.46 * B ^ 2 * (w / 2) := mul_le_mul_of_nonneg_right he2 (by linarith)
      _ = _ := by ring
  have hdiff : |e ^ 2 - (a - m) ^ 2| ≤ 17 / 8 * (n * w * B) * (4.54 * B) := by
    have : e ^ 2 - (a - m) ^ 2 = (e - (a - m)) * (e + (a - m)) := by ring
    rw [this, abs_mul]
    have h2 : |e + (a - m)| ≤ 4.54 * B := by
      have := abs_add_le e (a - m); linarith
    exact mul_le_mul hed h2 (abs_nonneg _) (by positivity)
  have hwB2 : w * B ^ 2 ≤ n * w * B ^ 2 := mul_le_mul_of_nonneg_right hwn (sq_nonneg B)
  have hwB24 : n * w * B ^ 2 ≤ 1 / 4 * B ^ 2 := mul_le_mul_of_nonneg_right hw4 (sq_nonneg B)
  have hw01 : w * B ^ 2 ≤ 1 / 10 * B ^ 2 := by
    refine mul_le_mul_of_nonneg_right ?_ (sq_nonneg B)
    rw [hw, zpow_neg]; norm_num
  constructor
  · have : q - (a - m) ^ 2 = -(e ^ 2 - q) + (e ^ 2 - (a - m) ^ 2) := by ring
    rw [this]
    have := abs_add_le (-(e ^ 2 - q)) (e ^ 2 - (a - m) ^ 2)
    rw [abs_neg] at this
    nlinarith
  · have h3 : q = -(e ^ 2 - q) + e ^ 2 := by ring
    rw [h3]
    have := abs_add_le (-(e ^ 2 - q)) (e ^ 2)
    rw [abs_neg, abs_of_nonneg (sq_nonneg e)] at this
    linarith [sq_nonneg B]

theorem sum_close {α : Type} (l : List α) (f g : α → ℝ) {ε : ℝ} (h : ∀ a ∈ l, |f a - g a| ≤ ε) :
    |(l.map f).sum - (l.map g).sum| ≤ l.length * ε := by
  induction l with
  | nil => simp
  | cons a l ih =>
    have h1 := h a (by simp)
    have h2 := ih fun b hb => h b (by simp [hb])
    simp only [List.map_cons, List.sum_cons, List.length_cons]
    have : f a + (l.map f).sum - (g a + (l.map g).sum) = (f a - g a) + ((l.map f).sum - (l.map g).sum) := by ring
    rw [this]
    have := abs_add_le (f a - g a) ((l.map f).sum - (l.map g).sum)
    push_cast
    linarith

theorem meanOf_abs {l : List ℝ} {B : ℝ} (hB : 0 ≤ B) (h : ∀ x ∈ l, |x| ≤ B) : |meanOf l| ≤ B ∧ meanOf (l.map fun x => |x|) ≤ B := by
  have hs : |l.sum| ≤ l.length * B ∧ (l.map fun x => |x|).sum ≤ l.length * B := by
    induction l with
    | nil => simp
    | cons a l ih =>
      have h1 := h a (by simp)
      obtain ⟨h2, h3⟩ := ih fun b hb => h b (by simp [hb])
      simp only [List.map_cons, List.sum_cons, List.length_cons]
      push_cast
      have := abs_add_le a l.sum
      constructor <;> linarith
  unfold meanOf
  by_cases hl : l.length = 0
  · simp [List.length_eq_zero_iff.1 hl, hB]
  have hN : (0 : ℝ) < l.length := by exact_mod_cast Nat.pos_of_ne_zero hl
  rw [List.length_map, abs_div, abs_of_pos hN, div_le_iff₀ hN, div_le_iff₀ hN]
  constructor <;> linarith [hs.1, hs.2]

/-- **C150** the computed loss of a region of `n` curves at `P` grid points, whose variances are at most `B`, differs from the exact one
by at most `21 (n P)² B² 2⁻⁵²`, whatever the order of the additions. -/
theorem C150_loss_error {fl : ℝ → ℝ} (hfl : RoundsToNearest fl) {sum : List ℝ → ℝ} (hs : SumsUp fl sum) {n P : Nat} {v : List (List ℝ)}
    (hv : Shape2 n P v) (hP : 1 ≤ P) (hnP : n * P ≤ 2 ^ 50) {B : ℝ} (hB : ∀ r ∈ v, ∀ x ∈ r, |x| ≤ B) :
    |regionLossF fl sum v - regionLoss v| ≤ 21 * ((n : ℝ) * P) ^ 2 * B ^ 2 * (2 : ℝ) ^ (-52 : ℤ) := by
  by_cases hn : n = 0
  · obtain rfl : v = [] := List.length_eq_zero_iff.1 (by rw [hv.1, hn])
    simp [regionLossF, regionLoss, meanRowsF, meanRows, mean0]
    positivity
  have hnn : n ≤ n * P := Nat.le_mul_of_pos_right n hP
  have hn1 : (1 : ℝ) ≤ n := by exact_mod_cast Nat.one_le_iff_ne_zero.2 hn
  have hn50 : (n : ℝ) ≤ 2 ^ 50 := by exact_mod_cast hnn.trans hnP
  have hlen : ∀ c, (valuesAt v c).length = n := fun c => by simp [valuesAt, hv.1]
  have hcol : ∀ c, valuesAt v c ≠ [] := fun c h => hn (by rw [← hlen c, h]; rfl)
  have hentry : ∀ r ∈ v, ∀ c < P, |r.getD c 0| ≤ B := by
    intro r hr c hc
    rw [getD_lt (by rw [hv.2 r hr]; exact hc)]
    exact hB r hr _ (List.getElem_mem _)
  have hB0 : 0 ≤ B := by
    cases v with
    | nil => exact absurd hv.1.symm hn
    | cons r l => exact (abs_nonneg _).trans (hentry r (by simp) 0 hP)
  have hval : ∀ c < P, ∀ x ∈ valuesAt v c, |x| ≤ B := by
    intro c hc x hx
    obtain ⟨r, hr, rfl⟩ := List.mem_map.1 hx
    exact hentry r hr c hc
  obtain ⟨μ, hμ⟩ : ∃ μ : Nat → ℝ, μ = fun c => meanF fl sum (valuesAt v c) := ⟨_, rfl⟩
  have e1 : regionLossF fl sum v = sum (v.flatMap fun row => (List.range P).map fun c => fl (fl (row.getD c 0 - μ c) ^ 2)) := by
    unfold regionLossF
    rw [meanRowsF_ok hv hn, ← hμ]
    dsimp only
    congr 1
    refine List.flatMap_congr fun r hr => zipWith_range _ 0 _ (hv.2 r hr)
  have e2 : regionLoss v = (v.map fun row => ((List.range P).map fun c => (row.getD c 0 - meanOf (valuesAt v c)) ^ 2).sum).sum := by
    have hm : meanRows v = .ok ((List.range P).map fun c => meanOf (valuesAt v c)) := by
      rw [← (C138_exact v []).1, meanRowsF_ok hv hn]
      rfl
    unfold regionLoss
    rw [hm]
    dsimp only
    congr 1
    refine List.map_congr_left fun r hr => ?_
    rw [zipWith_range _ 0 _ (hv.2 r hr)]
  have hterm : ∀ r ∈ v, ∀ c < P, |fl (fl (r.getD c 0 - μ c) ^ 2) - (r.getD c 0 - meanOf (valuesAt v c)) ^ 2| ≤ 14 * n * (2 : ℝ) ^ (-52 : ℤ) * B ^ 2 ∧
      |fl (fl (r.getD c 0 - μ c) ^ 2)| ≤ 7 * B ^ 2 := by
    intro r hr c hc
    obtain ⟨m1, m2⟩ := meanOf_abs hB0 (hval c hc)
    refine squareF_error hfl hn1 hn50 (hentry r hr c hc) m1 ?_
    have := meanF_error hfl hs (hcol c) (by rw [hlen]; exact (hnn.trans hnP).trans (by norm_num))
    rw [hlen] at this
    rw [hμ]
    exact this.trans (mul_le_mul_of_nonneg_left m2 (by positivity))
  obtain ⟨T, hT⟩ : ∃ T, T = v.flatMap fun row => (List.range P).map fun c => fl (fl (row.getD c 0 - μ c) ^ 2) := ⟨_, rfl⟩
  have hTl : T.length = n * P := by
    rw [hT, List.length_flatMap]
    simp [hv.1]
  have hTs : T.sum = (v.map fun row => ((List.range P).map fun c => fl (fl (row.getD c 0 - μ c) ^ 2)).sum).sum := by
    rw [hT]
    clear hT hTl e1 e2 hterm hval hB hentry hlen hcol hv hμ
    induction v with
    | nil => rfl
    | cons r l ih => simp only [List.flatMap_cons, List.sum_append, List.map_cons, List.sum_cons, ih]
  have hTm : ∀ x ∈ T, |x| ≤ 7 * B ^ 2 := by
    intro x hx
    rw [hT] at hx
    obtain ⟨r, hr, hx⟩ := List.mem_flatMap.1 hx
    obtain ⟨c, hc, rfl⟩ := List.mem_map.1 hx
    exact (hterm r hr c (List.mem_range.1 hc)).2
  have hN1 : 1 ≤ n * P := Nat.mul_pos (Nat.pos_of_ne_zero hn) hP
  have hTne : T ≠ [] := by
    intro h
    rw [h] at hTl
    simp only [List.length_nil] at hTl
    omega
  have h14 : |T.sum - regionLoss v| ≤ n * (P * (14 * n * (2 : ℝ) ^ (-52 : ℤ) * B ^ 2)) := by
    rw [hTs, e2]
    have := sum_close v (fun row => ((List.range P).map fun c => fl (fl (row.getD c 0 - μ c) ^ 2)).sum)
      (fun row => ((List.range P).map fun c => (row.getD c 0 - meanOf (valuesAt v c)) ^ 2).sum) (ε := P * (14 * n * (2 : ℝ) ^ (-52 : ℤ) * B ^ 2))
      fun r hr => by
        have := sum_close (List.range P) (fun c => fl (fl (r.getD c 0 - μ c) ^ 2)) (fun c => (r.getD c 0 - meanOf (valuesAt v c)) ^ 2)
          (fun c hc => (hterm r hr c (List.mem_range.1 hc)).1)
        rwa [List.length_range] at this
    rwa [hv.1] at this
  have h7 : |sum T - T.sum| ≤ (n * P : ℝ) * (2 : ℝ) ^ (-52 : ℤ) * ((n * P : ℝ) * (7 * B ^ 2)) := by
    obtain ⟨e, p, -⟩ := (hs.added T hTne).error hfl
    have hN : ((n * P : Nat) : ℝ) = n * P := by push_cast; ring
    have habs : (T.map fun x => |x|).sum ≤ (n * P : ℝ) * (7 * B ^ 2) := by
      have := sum_close T (fun x => |x|) (fun _ => 0) (ε := 7 * B ^ 2) fun x hx => by simpa using hTm x hx
      rw [hTl, hN] at this
      refine (le_abs_self _).trans ?_
      simpa using this
    have hpow : (1 + unitRoundoff) ^ (T.length - 1) - 1 ≤ (n * P : ℝ) * (2 : ℝ) ^ (-52 : ℤ) := by
      have hu := unitRoundoff_pos
      have hle : ((T.length - 1 : Nat) : ℝ) ≤ n * P := by
        rw [← hN]; exact_mod_cast (by omega : T.length - 1 ≤ n * P)
      have h50 : (n * P : ℝ) ≤ 2 ^ 50 := by rw [← hN]; exact_mod_cast hnP
      have e53 : unitRoundoff = (2 : ℝ) ^ (-52 : ℤ) / 2 := by
        unfold unitRoundoff
        rw [show (-53 : ℤ) = -52 + -1 by norm_num, zpow_add₀ (by norm_num)]; norm_num
      have h1 : ((T.length - 1 : Nat) : ℝ) * unitRoundoff ≤ 1 := by
        calc ((T.length - 1 : Nat) : ℝ) * unitRoundoff ≤ 2 ^ 50 * unitRoundoff := mul_le_mul_of_nonneg_right (hle.trans h50) hu.le
          _ ≤ 1 := by unfold unitRoundoff; rw [zpow_neg]; norm_num
      refine (pow_roundoff hu.le _ h1).trans ?_
      rw [e53]
      have : (0 : ℝ) < (2 : ℝ) ^ (-52 : ℤ) := by positivity
      nlinarith
    exact e.trans (mul_le_mul hpow habs p (by positivity))
  rw [e1, ← hT]
  have hfin : |sum T - regionLoss v| ≤ |sum T - T.sum| + |T.sum - regionLoss v| := by
    have := abs_add_le (sum T - T.sum) (T.sum - regionLoss v)
    rwa [sub_add_sub_cancel] at this
  have hP1 : (1 : ℝ) ≤ P := by exact_mod_cast hP
  have hlast : (n : ℝ) * (P * (14 * n * (2 : ℝ) ^ (-52 : ℤ) * B ^ 2)) ≤ 14 * ((n : ℝ) * P) ^ 2 * B ^ 2 * (2 : ℝ) ^ (-52 : ℤ) := by
    have h0 : 0 ≤ (14 : ℝ) * n ^ 2 * P * B ^ 2 * (2 : ℝ) ^ (-52 : ℤ) := by positivity
    have := mul_le_mul_of_nonneg_left hP1 h0
    nlinarith
  nlinarith

/-! ### the losses of the leaves -/

theorem Spec.RegionShape.v_mem {P F : Nat} {n m : Node ℝ} (hn : RegionShape P F n) (hm : RegionShape P F m) (h : ∀ c ∈ curves m, c ∈ curves n) :
    ∀ r ∈ m.v, r ∈ n.v := by
  intro r hr
  rw [← hm.map_v] at hr
  obtain ⟨c, hc, rfl⟩ := List.mem_map.1 hr
  rw [← hn.map_v]
  exact List.mem_map_of_mem (f := fun c : Curve ℝ => c.2.2) (h c hc)

theorem Spec.RegionShape.v_length {P F : Nat} {n : Node ℝ} (hn : RegionShape P F n) : n.v.length = (curves n).length := by
  rw [← hn.map_v, List.length_map]

/-- regions that share out curves of `n` have no more loss than `n` (exact arithmetic) -/
theorem loss_of_parts {P F : Nat} {n : Node ℝ} {L : List (Node ℝ)} (hn : RegionShape P F n) (hL : ∀ m ∈ L, RegionShape P F m)
    (h : (L.flatMap curves).Subperm (curves n)) : (L.map fun m => regionLoss m.v).sum ≤ regionLoss n.v := by
  have hsh : Shape2 n.v.length P n.v := ⟨rfl, hn.vs⟩
  by_cases h0 : n.v.length = 0
  · have hc : curves n = [] := List.length_eq_zero_iff.1 (by rw [← hn.v_length, h0])
    rw [hc, List.subperm_nil] at h
    rw [List.length_eq_zero_iff.1 h0, regionLoss_nil]
    apply le_of_eq
    refine List.sum_eq_zero fun x hx => ?_
    obtain ⟨m, hm, rfl⟩ := List.mem_map.1 hx
    have : m.v = [] := by rw [← (hL m hm).map_v, List.flatMap_eq_nil_iff.1 h m hm]; rfl
    rw [this, regionLoss_nil]
  obtain ⟨μ, hμ, -, hl⟩ := (C55_minimal hsh).2 h0
  have h1 : (L.map fun m => regionLoss m.v).sum ≤ (L.map fun m => (m.v.map fun r => dist2 P r μ).sum).sum :=
    List.sum_le_sum fun m hm => (C55_minimal (⟨rfl, (hL m hm).vs⟩ : Shape2 m.v.length P m.v)).1 μ hμ
  refine h1.trans ?_
  have h2 : (L.map fun m => (m.v.map fun r => dist2 P r μ).sum).sum = ((L.flatMap curves).map fun c => dist2 P c.2.2 μ).sum := by
    clear h1 h
    induction L with
    | nil => rfl
    | cons m L ih =>
      simp only [List.map_cons, List.sum_cons, List.flatMap_cons, List.map_append, List.sum_append]
      rw [ih fun q hq => hL q (by simp [hq]), ← (hL m (by simp)).map_v, List.map_map]
      rfl
  have h3 : regionLoss n.v = ((curves n).map fun c => dist2 P c.2.2 μ).sum := by
    rw [hl, ← hn.map_v, List.map_map]
    rfl
  rw [h2, h3]
  obtain ⟨l, hp, hsub⟩ := h
  rw [← (hp.map fun c : Curve ℝ => dist2 P c.2.2 μ).sum_eq]
  refine (hsub.map fun c : Curve ℝ => dist2 P c.2.2 μ).sum_le_sum fun x hx => ?_
  obtain ⟨c, -, rfl⟩ := List.mem_map.1 hx
  exact dist2_nonneg P _ _

theorem sum_of_squares {α : Type} (L : List α) (f : α → Nat) : (L.map fun a => ((f a : ℝ)) ^ 2).sum ≤ ((L.map f).sum : ℝ) ^ 2 := by
  induction L with
  | nil => simp
  | cons a L ih =>
    simp only [List.map_cons, List.sum_cons]
    rw [Nat.cast_add]
    have h1 : (0 : ℝ) ≤ f a := by positivity
    have h2 : (0 : ℝ) ≤ ((L.map f).sum : ℕ) := by positivity
    nlinarith

/-- **C150** what remains of "a partition does not have more loss than the root" (C56): the losses that are computed for the leaves exceed
the one that is computed for the root by at most `42 (n P)² B² 2⁻⁵²`, for `n` curves at `P` grid points with variances up to `B`; and the exact losses of these leaves
(which were chosen by computed losses and computed thresholds) are not larger than that of the root. -/
theorem C150_total_partial {c : ComputedExp} (hc : CorrectlyRoundedExp c) {sum : List ℝ → ℝ} (hs : SumsUp c.fl sum) {P : Nat} {p : DT ℝ}
    (hv : ValidDT P p) {d : Int} (hd : 0 < d) (hnP : (curves p.root).length * P ≤ 2 ^ 50) {B : ℝ} (hB : ∀ r ∈ p.root.v, ∀ x ∈ r, |x| ≤ B) :
    ∃ leaves, (@dtPartitionM ℝ (roundedMachine c sum) p d).2 = .ok leaves ∧
      (leaves.map fun m => regionLoss m.v).sum ≤ regionLoss p.root.v ∧
      (leaves.map fun m => regionLossF c.fl sum m.v).sum ≤
        regionLossF c.fl sum p.root.v + 42 * (((curves p.root).length : ℝ) * P) ^ 2 * B ^ 2 * (2 : ℝ) ^ (-52 : ℤ) := by
  let M : Machine ℝ := roundedMachine c sum
  have H : Comparable ℝ := rounded_comparable c sum
  obtain ⟨L, e1, hg, -, -⟩ := partitionM_eq hv hd
  have hsub := (hg.perm H).1
  have hpath := hg.path
  have hshape : ∀ m ∈ L, RegionShape P p.cfg.space.length m := fun m hm => (hpath m hm).1
  have hexact := loss_of_parts hv.shape hshape hsub
  refine ⟨L, by rw [e1], hexact, ?_⟩
  have hP := hv.shape.pos
  have hone : ∀ m : Node ℝ, RegionShape P p.cfg.space.length m → (curves m).Sublist (curves p.root) →
      |regionLossF c.fl sum m.v - regionLoss m.v| ≤ 21 * (((curves m).length : ℝ) * P) ^ 2 * B ^ 2 * (2 : ℝ) ^ (-52 : ℤ) := by
    intro m hm hsb
    refine C150_loss_error hc.fl hs ⟨hm.v_length, hm.vs⟩ hP ((Nat.mul_le_mul_right P hsb.length_le).trans hnP) fun r hr => ?_
    exact hB r (hv.shape.v_mem hm (fun q hq => hsb.subset hq) r hr)
  have hroot := (abs_le.1 (hone p.root hv.shape (List.Sublist.refl _))).1
  have hleaves : (L.map fun m => regionLossF c.fl sum m.v).sum ≤
      (L.map fun m => regionLoss m.v).sum + 21 * (P : ℝ) ^ 2 * B ^ 2 * (2 : ℝ) ^ (-52 : ℤ) * (L.map fun m => ((curves m).length : ℝ) ^ 2).sum := by
    have hall : ∀ m ∈ L, regionLossF c.fl sum m.v ≤ regionLoss m.v + 21 * (P : ℝ) ^ 2 * B ^ 2 * (2 : ℝ) ^ (-52 : ℤ) * ((curves m).length : ℝ) ^ 2 := by
      intro m hm
      have := (abs_le.1 (hone m (hshape m hm) (hpath m hm).2.1)).2
      linarith
    clear hexact hsub hpath hshape hg e1
    induction L with
    | nil => simp
    | cons m L ih =>
      simp only [List.map_cons, List.sum_cons]
      have h1 := hall m (by simp)
      have h2 := ih fun q hq => hall q (by simp [hq])
      linarith
  have hsq := sum_of_squares L fun m => (curves m).length
  have hcount : (L.map fun m => (curves m).length).sum ≤ (curves p.root).length := by
    rw [← List.length_flatMap]; exact hsub.length_le
  have hcount' : (((L.map fun m => (curves m).length).sum : ℕ) : ℝ) ^ 2 ≤ ((curves p.root).length : ℝ) ^ 2 :=
    pow_le_pow_left₀ (by positivity) (by exact_mod_cast hcount) 2
  have hK : 0 ≤ 21 * (P : ℝ) ^ 2 * B ^ 2 * (2 : ℝ) ^ (-52 : ℤ) := by positivity
  have := mul_le_mul_of_nonneg_left (hsq.trans hcount') hK
  nlinarith

/-- any admissible split: what is computed for it against its exact loss -/
theorem admissible_error {c : ComputedExp} (hc : CorrectlyRoundedExp c) {sum : List ℝ → ℝ} (hs : SumsUp c.fl sum) {cs possible : ConfigSpace ℝ} {N minPoints P : Nat}
    {n : Node ℝ} (hn : RegionShape P cs.length n) (h2 : 2 ≤ (curves n).length)
    (hnP : (curves n).length * P ≤ 2 ^ 50) {B : ℝ} (hB : ∀ r ∈ n.v, ∀ x ∈ r, |x| ≤ B) {a b : Node ℝ} {hp : Hp ℝ} {t : ℝ} {f : Nat}
    (hadm : @Admissible ℝ (roundedMachine c sum) cs possible N minPoints P n a b hp t f) :
    |c.fl (regionLossF c.fl sum a.v + regionLossF c.fl sum b.v) - (regionLoss a.v + regionLoss b.v)| ≤
      30 * (((curves n).length : ℝ) * P) ^ 2 * B ^ 2 * (2 : ℝ) ^ (-52 : ℤ) := by
  let M : Machine ℝ := roundedMachine c sum
  have H : Comparable ℝ := rounded_comparable c sum
  have hP := hn.pos
  obtain ⟨N', hN'⟩ : ∃ N' : ℝ, N' = ((curves n).length : ℝ) * P := ⟨_, rfl⟩
  have hN1 : 1 ≤ N' := by
    rw [hN']
    have h3 : 1 ≤ (curves n).length * P := Nat.mul_pos (by omega) hP
    exact_mod_cast h3
  obtain ⟨w, hw⟩ : ∃ w : ℝ, w = (2 : ℝ) ^ (-52 : ℤ) := ⟨_, rfl⟩
  have hw0 : 0 < w := by rw [hw]; positivity
  have hw1 : w ≤ 1 / 100 := by rw [hw, zpow_neg]; norm_num
  rw [← hN', ← hw]
  have hsa : ∀ q ∈ curves a, q ∈ curves n := fun q hq => by rw [hadm.left.curves_eq] at hq; exact List.mem_of_mem_filter hq
  have hsb : ∀ q ∈ curves b, q ∈ curves n := fun q hq => by rw [hadm.right.curves_eq] at hq; exact List.mem_of_mem_filter hq
  have hdis := (filter_disjoint_perm (curves n) (onSide f t true) (onSide f t false) fun q _ hq => sides_exclude H hq).1
  rw [← hadm.left.curves_eq, ← hadm.right.curves_eq] at hdis
  have hlen : (curves a).length + (curves b).length ≤ (curves n).length := by
    have := hdis.length_le
    rwa [List.length_append] at this
  have hpart : regionLoss a.v + regionLoss b.v ≤ regionLoss n.v := by
    have := loss_of_parts (L := [a, b]) hn (by
      intro m hm
      simp only [List.mem_cons, List.not_mem_nil, or_false] at hm
      rcases hm with rfl | rfl
      exacts [hadm.left_shape, hadm.right_shape]) (by simpa using hdis)
    simpa using this
  have ea := C150_loss_error hc.fl hs (⟨hadm.left_shape.v_length, hadm.left_shape.vs⟩ : Shape2 _ P a.v) hP
    ((Nat.mul_le_mul_right P (by omega)).trans hnP) fun q hq => hB q (hn.v_mem hadm.left_shape hsa q hq)
  have eb := C150_loss_error hc.fl hs (⟨hadm.right_shape.v_length, hadm.right_shape.vs⟩ : Shape2 _ P b.v) hP
    ((Nat.mul_le_mul_right P (by omega)).trans hnP) fun q hq => hB q (hn.v_mem hadm.right_shape hsb q hq)
  have hroot : regionLoss n.v ≤ N' * B ^ 2 := by
    have := (C55_minimal (⟨hn.v_length, hn.vs⟩ : Shape2 _ P n.v)).1 (List.replicate P 0) (by simp)
    refine this.trans ?_
    have hrow : ∀ q ∈ n.v, dist2 P q (List.replicate P 0) ≤ P * B ^ 2 := by
      intro q hq
      unfold dist2
      have : ∀ i ∈ Finset.range P, (q.getD i 0 - (List.replicate P (0 : ℝ)).getD i 0) ^ 2 ≤ B ^ 2 := by
        intro i hi
        have hi := Finset.mem_range.1 hi
        rw [getD_lt (by rw [hn.vs q hq]; exact hi), getD_lt (by simpa using hi), List.getElem_replicate, sub_zero]
        exact sq_le_sq' (by linarith [(abs_le.1 (hB q hq _ (List.getElem_mem (by rw [hn.vs q hq]; exact hi)))).1])
          (abs_le.1 (hB q hq _ (List.getElem_mem _))).2
      refine (Finset.sum_le_sum this).trans ?_
      simp
    have hsum := List.sum_le_sum hrow
    refine hsum.trans ?_
    simp only [List.map_const', List.sum_replicate, nsmul_eq_mul]
    rw [hN', hn.v_length]
    exact le_of_eq (by ring)
  have hsq : (((curves a).length : ℝ) * P) ^ 2 + (((curves b).length : ℝ) * P) ^ 2 ≤ N' ^ 2 := by
    rw [hN']
    have h3 : ((curves a).length : ℝ) + (curves b).length ≤ (curves n).length := by exact_mod_cast hlen
    have ha : (0 : ℝ) ≤ (curves a).length := by positivity
    have hb : (0 : ℝ) ≤ (curves b).length := by positivity
    have h4 := pow_le_pow_left₀ (by positivity) h3 2
    have h5 : ((curves a).length : ℝ) ^ 2 + ((curves b).length : ℝ) ^ 2 ≤ ((curves n).length : ℝ) ^ 2 := by nlinarith
    have := mul_le_mul_of_nonneg_right h5 (sq_nonneg (P : ℝ))
    nlinarith
  have hround := (hc.fl (regionLossF c.fl sum a.v + regionLossF c.fl sum b.v)).error
  rw [abs_of_nonneg (add_nonneg (C138_loss hc.fl hs _) (C138_loss hc.fl hs _)), show (2 : ℝ) ^ (-53 : ℤ) = w / 2 by
    rw [hw, show (-53 : ℤ) = -52 + -1 by norm_num, zpow_add₀ (by norm_num)]; norm_num] at hround
  rw [← hw] at ea eb
  obtain ⟨A, hA⟩ : ∃ A, A = regionLossF c.fl sum a.v := ⟨_, rfl⟩
  obtain ⟨B', hB'⟩ : ∃ B', B' = regionLossF c.fl sum b.v := ⟨_, rfl⟩
  rw [← hA] at ea hround ⊢
  rw [← hB'] at eb hround ⊢
  have hBw : 0 ≤ B ^ 2 * w := by positivity
  have hE : |A + B' - (regionLoss a.v + regionLoss b.v)| ≤ 21 * N' ^ 2 * B ^ 2 * w := by
    have h1 : A + B' - (regionLoss a.v + regionLoss b.v) = (A - regionLoss a.v) + (B' - regionLoss b.v) := by ring
    rw [h1]
    have h2 := abs_add_le (A - regionLoss a.v) (B' - regionLoss b.v)
    have h3 := mul_le_mul_of_nonneg_right hsq hBw
    nlinarith
  have hAB : A + B' ≤ 10 * (N' ^ 2 * B ^ 2) := by
    have h1 := (abs_le.1 hE).2
    have h2 : 21 * N' ^ 2 * B ^ 2 * w ≤ 21 * N' ^ 2 * B ^ 2 * (1 / 100) := mul_le_mul_of_nonneg_left hw1 (by positivity)
    have h3 : N' * B ^ 2 ≤ N' ^ 2 * B ^ 2 := mul_le_mul_of_nonneg_right (by nlinarith) (sq_nonneg B)
    have h4 : 0 ≤ N' ^ 2 * B ^ 2 := by positivity
    nlinarith
  have h5 : (A + B') * (w / 2) ≤ 10 * (N' ^ 2 * B ^ 2) * (w / 2) := mul_le_mul_of_nonneg_right hAB (by linarith)
  have h6 : c.fl (A + B') - (regionLoss a.v + regionLoss b.v) = -(A + B' - c.fl (A + B')) + (A + B' - (regionLoss a.v + regionLoss b.v)) := by ring
  rw [h6]
  have h7 := abs_add_le (-(A + B' - c.fl (A + B'))) (A + B' - (regionLoss a.v + regionLoss b.v))
  rw [abs_neg] at h7
  have h8 : 0 ≤ N' ^ 2 * B ^ 2 * w := by positivity
  nlinarith

/-- **C150** the split that is chosen by computed losses is at most `60 (n P)² B² 2⁻⁵²` worse, in exact arithmetic, than any other
admissible one. -/
theorem C150_choice {c : ComputedExp} (hc : CorrectlyRoundedExp c) {sum : List ℝ → ℝ} (hs : SumsUp c.fl sum) {cs possible : ConfigSpace ℝ} {N minPoints P : Nat}
    (hwf : ConfigSpace.WF cs) (hpos : ∀ hp ∈ possible, hp ∈ cs) {n : Node ℝ} (hn : RegionShape P cs.length n) (h2 : 2 ≤ (curves n).length)
    (hnP : (curves n).length * P ≤ 2 ^ 50) {B : ℝ} (hB : ∀ r ∈ n.v, ∀ x ∈ r, |x| ≤ B) {l r : Node ℝ}
    (hres : @calcBestSplitM ℝ (roundedMachine c sum) cs possible N minPoints n = .ok (some (l, r))) {l' r' : Node ℝ} {hp : Hp ℝ} {t : ℝ} {f : Nat}
    (hadm : @Admissible ℝ (roundedMachine c sum) cs possible N minPoints P n l' r' hp t f) :
    regionLoss l.v + regionLoss r.v ≤
      regionLoss l'.v + regionLoss r'.v + 60 * (((curves n).length : ℝ) * P) ^ 2 * B ^ 2 * (2 : ℝ) ^ (-52 : ℤ) := by
  let M : Machine ℝ := roundedMachine c sum
  have H : Comparable ℝ := rounded_comparable c sum
  obtain ⟨res, hr1, hsome, -⟩ := C134_best_split H hwf hpos (N := N) (minPoints := minPoints) hn h2
  rw [hres] at hr1
  obtain ⟨⟨hp0, t0, f0, hadm0⟩, -, hmin⟩ := hsome l r (Except.ok.inj hr1).symm
  have hlt := hmin l' r' hp t f hadm
  have hP := hn.pos
  have hle : c.fl (regionLossF c.fl sum l.v + regionLossF c.fl sum r.v) ≤ c.fl (regionLossF c.fl sum l'.v + regionLossF c.fl sum r'.v) := by
    exact not_lt.1 (of_decide_eq_false hlt)
  have k0 := (abs_le.1 (admissible_error hc hs hn h2 hnP hB hadm0)).1
  have k1 := (abs_le.1 (admissible_error hc hs hn h2 hnP hB hadm)).2
  linarith

/-! ### four curves with the variance 0.1 -/

/-- rounded sums of four equal numbers -/
theorem Spec.AddedUp.four {fl : ℝ → ℝ} {l : List ℝ} {s v : ℝ} (h : AddedUp fl l s) (hv : ∀ x ∈ l, x = v) (hl : l.length = 4) :
    s = fl (fl (fl (v + v) + v) + v) ∨ s = fl (fl (v + v) + fl (v + v)) := by
  cases h with
  | one a => simp at hl
  | @add l r _ a b ha hb hp =>
    have hlen := hp.length_eq
    rw [List.length_append] at hlen
    have i1 := ha.three fun x hx => hv x (hp.mem_iff.2 (List.mem_append_left _ hx))
    have i2 := hb.three fun x hx => hv x (hp.mem_iff.2 (List.mem_append_right _ hx))
    have n1 : 1 ≤ l.length := List.length_pos_iff.2 ha.ne_nil
    have n2 : 1 ≤ r.length := List.length_pos_iff.2 hb.ne_nil
    have : l.length = 1 ∧ r.length = 3 ∨ l.length = 2 ∧ r.length = 2 ∨ l.length = 3 ∧ r.length = 1 := by omega
    rcases this with ⟨h1, h2⟩ | ⟨h1, h2⟩ | ⟨h1, h2⟩
    · left; rw [i1.1 h1, i2.2.2 h2, add_comm]
    · right; rw [i1.2.1 h1, i2.2.1 h2]
    · left; rw [i1.2.2 h1, i2.1 h2]

/-- a double of 52 bits above 2⁵⁴ is a multiple of eight -/
theorem even_big {r : ℝ} (h : ∃ m e : ℤ, |m| ≤ 2 ^ 52 ∧ r = m * (2 : ℝ) ^ e) (hr : (2 : ℝ) ^ 54 < r) : ∃ j : ℤ, r = 8 * j := by
  obtain ⟨m, e, hm, rfl⟩ := h
  have h2 : (0 : ℝ) < (2 : ℝ) ^ e := by positivity
  have hm' : (m : ℝ) ≤ 2 ^ 52 := by exact_mod_cast (le_abs_self m).trans hm
  have he : 3 ≤ e := by
    by_contra hlt
    have : (2 : ℝ) ^ e ≤ (2 : ℝ) ^ (2 : ℤ) := zpow_le_zpow_right₀ (by norm_num) (by omega)
    have h3 : (m : ℝ) * (2 : ℝ) ^ e ≤ 2 ^ 52 * (2 : ℝ) ^ (2 : ℤ) := by
      calc (m : ℝ) * (2 : ℝ) ^ e ≤ 2 ^ 52 * (2 : ℝ) ^ e := mul_le_mul_of_nonneg_right hm' h2.le
        _ ≤ _ := mul_le_mul_of_nonneg_left this (by norm_num)
    norm_num at h3 hr
    linarith
  obtain ⟨k, rfl⟩ : ∃ k : Nat, e = k + 3 := ⟨(e - 3).toNat, by omega⟩
  refine ⟨m * 2 ^ k, ?_⟩
  rw [zpow_add₀ (by norm_num), zpow_natCast]
  push_cast
  norm_num
  ring

/-- a tie between two multiples of four, in units of 2⁻⁵⁶: the one that is a multiple of eight is taken -/
theorem tie_even {fl : ℝ → ℝ} (hfl : RoundsToNearest fl) (ht : TiesToEven fl) {j e o : ℤ}
    (hd1 : IsDouble ((e : ℝ) * (2 : ℝ) ^ (-56 : ℤ))) (heo : e - j = j - o) (he : |e - j| = 2)
    (ho : ¬ (8 : ℤ) ∣ o) (hbig : 2 ^ 54 < e ∧ 2 ^ 54 < o) (hother : ∀ r : ℤ, (4 : ℤ) ∣ r → |r - j| ≤ 2 → r = e ∨ r = o) :
    fl ((j : ℝ) * (2 : ℝ) ^ (-56 : ℤ)) = e * (2 : ℝ) ^ (-56 : ℤ) := by
  have hnear := (hfl ((j : ℝ) * (2 : ℝ) ^ (-56 : ℤ)))
  have hS := hnear.scale 56
  have hcancel : ∀ x : ℝ, x * (2 : ℝ) ^ (-56 : ℤ) * (2 : ℝ) ^ (56 : ℤ) = x := fun x => by
    rw [mul_assoc, ← zpow_add₀ (by norm_num)]; simp
  obtain ⟨S, hSe⟩ : ∃ S, S = fl ((j : ℝ) * (2 : ℝ) ^ (-56 : ℤ)) * (2 : ℝ) ^ (56 : ℤ) := ⟨_, rfl⟩
  have hback : fl ((j : ℝ) * (2 : ℝ) ^ (-56 : ℤ)) = S * (2 : ℝ) ^ (-56 : ℤ) := by
    rw [hSe, mul_assoc, ← zpow_add₀ (by norm_num)]; simp
  rw [← hSe, hcancel] at hS
  have hed : IsDouble (e : ℝ) := by
    have := hd1.scale 56
    rwa [hcancel] at this
  have hle := hS.2 _ hed
  have hcast : |(j : ℝ) - e| = 2 := by
    rw [abs_sub_comm]; exact_mod_cast he
  rw [hcast] at hle
  have hSbig : (2 : ℝ) ^ 54 < S := by
    by_contra hlt
    have hlt := not_lt.1 hlt
    have h1 : (2 : ℝ) ^ 54 + 1 ≤ e := by exact_mod_cast hbig.1
    have h2 : (2 : ℝ) ^ 54 + 1 ≤ o := by exact_mod_cast hbig.2
    have h3 : (e : ℝ) + o = 2 * j := by exact_mod_cast (by omega : e + o = 2 * j)
    have h4 : (j : ℝ) - S ≤ 2 := (le_abs_self _).trans hle
    have h5 : ((j : ℝ) - e = 2 ∨ (j : ℝ) - e = -2) := by
      rcases abs_choice ((j : ℝ) - e) with h | h <;> rw [h] at hcast
      · exact .inl hcast
      · exact .inr (by linarith)
    rcases h5 with h5 | h5 <;> linarith
  obtain ⟨i, hi⟩ := isDouble_big hS.1 hSbig
  have hi2 : |4 * i - j| ≤ 2 := by
    rw [hi, abs_sub_comm] at hle
    exact_mod_cast hle
  rcases hother (4 * i) ⟨i, rfl⟩ hi2 with h | h
  · rw [hback, hi]
    congr 1
    exact_mod_cast h
  · exfalso
    have hSo : S = o := by rw [hi]; exact_mod_cast h
    have hev := ht ((j : ℝ) * (2 : ℝ) ^ (-56 : ℤ)) (e * (2 : ℝ) ^ (-56 : ℤ)) hd1 (by
      rw [hback, hSo]
      intro heq
      have := mul_right_cancel₀ (by positivity : (2 : ℝ) ^ (-56 : ℤ) ≠ 0) heq
      have : e = o := by exact_mod_cast this
      rcases abs_choice (e - j) with h | h <;> omega) (by
      rw [hback, hSo, ← sub_mul, ← sub_mul, abs_mul, abs_mul]
      congr 1
      have : |j - e| = |j - o| := by
        rw [abs_sub_comm, heo]
      exact_mod_cast this)
    obtain ⟨m, x, hm, hx⟩ := hev
    obtain ⟨q, hq⟩ := even_big (r := S) ⟨m, x + 56, hm, by rw [hSe, hx, zpow_add₀ (by norm_num)]; ring⟩ hSbig
    apply ho
    refine ⟨q, ?_⟩
    rw [hSo] at hq
    exact_mod_cast hq

/-- four tenths add up to 0.4 in any order -/
theorem four_tenths {fl : ℝ → ℝ} (hfl : RoundsToNearest fl) (ht : TiesToEven fl) {l : List ℝ} {s : ℝ} (h : AddedUp fl l s) (hv : ∀ x ∈ l, x = tenth)
    (hl : l.length = 4) : s = tenth * (2 : ℝ) ^ (2 : ℤ) := by
  have h2 : fl (tenth + tenth) = tenth * (2 : ℝ) ^ (1 : ℤ) := by
    have : tenth + tenth = tenth * (2 : ℝ) ^ (1 : ℤ) := by rw [zpow_one]; ring
    rw [this, (hfl _).self (isDouble_tenth.scale 1)]
  rcases h.four hv hl with rfl | rfl
  · have h3 : fl (tenth * (2 : ℝ) ^ (1 : ℤ) + tenth) = ((21617278211378384 : ℤ) : ℝ) * (2 : ℝ) ^ (-56 : ℤ) := by
      have : tenth * (2 : ℝ) ^ (1 : ℤ) + tenth = ((21617278211378382 : ℤ) : ℝ) * (2 : ℝ) ^ (-56 : ℤ) := by
        unfold tenth; rw [zpow_one]; push_cast; ring
      rw [this]
      refine tie_even hfl ht (o := 21617278211378380) ?_ (by norm_num) (by norm_num) (by norm_num) (by norm_num) ?_
      · exact ⟨5404319552844596, -54, by norm_num, by rw [show (-54 : ℤ) = 2 + -56 by norm_num, zpow_add₀ (by norm_num)]; push_cast; norm_num⟩
      · intro r hr hd
        rw [abs_le] at hd
        omega
    rw [h2, h3]
    have : ((21617278211378384 : ℤ) : ℝ) * (2 : ℝ) ^ (-56 : ℤ) + tenth = ((28823037615171178 : ℤ) : ℝ) * (2 : ℝ) ^ (-56 : ℤ) := by
      unfold tenth; push_cast; ring
    rw [this]
    have e4 : tenth * (2 : ℝ) ^ (2 : ℤ) = ((28823037615171176 : ℤ) : ℝ) * (2 : ℝ) ^ (-56 : ℤ) := by
      unfold tenth; push_cast; norm_num
    rw [e4]
    refine tie_even hfl ht (o := 28823037615171180) ?_ (by norm_num) (by norm_num) (by norm_num) (by norm_num) ?_
    · rw [← e4]; exact isDouble_tenth.scale 2
    · intro r hr hd
      rw [abs_le] at hd
      omega
  · rw [h2]
    have : tenth * (2 : ℝ) ^ (1 : ℤ) + tenth * (2 : ℝ) ^ (1 : ℤ) = tenth * (2 : ℝ) ^ (2 : ℤ) := by
      rw [zpow_one]; norm_num; ring
    rw [this, (hfl _).self (isDouble_tenth.scale 2)]

section example_
private theorem dOne' : IsDouble 1 := ⟨1, 0, by norm_num, by simp⟩
private theorem dHalf' : IsDouble (1 / 2) := ⟨1, -1, by norm_num, by rw [zpow_neg]; norm_num⟩

private theorem one_split' {c : ComputedExp} (hc : CorrectlyRoundedExp c) (sum : List ℝ → ℝ) :
    @Machine.splitVals ℝ (roundedMachine c sum) 1 = [1 / 2] := by
  have h1 : c.fl 1 = 1 := (hc.fl 1).self dOne'
  have h2 : c.fl (1 / 2) = 1 / 2 := (hc.fl _).self dHalf'
  simp only [Machine.splitVals, linspaceF]
  simp only [List.range_succ, List.range_zero, List.nil_append, List.cons_append, List.map_cons, List.map_nil, List.drop_succ_cons, List.drop_zero,
    List.dropLast]
  norm_num [h1]
  rw [h2, h2, h2]

private noncomputable def fourZ : Hp ℝ := ⟨"z", .float 0 1 false⟩
private noncomputable def fourSpace : ConfigSpace ℝ := [⟨"a", .float 0 1 false⟩, fourZ]

/-- the tree for four samples with the numbers 0, 3/4, 7/8 and 1 of `z`, whose curves have the variance 0.1 -/
private noncomputable def fourTree : DT ℝ :=
  let cfg : IceCfg ℝ := ⟨fourSpace, [⟨"a", .float 0 1 false⟩], [[0, 0], [0, 3 / 4], [0, 7 / 8], [0, 1]], 4, 1, 1, false, fun _ => .error .runtime⟩
  ⟨cfg, [fourZ], 1, 1, iceInit cfg,
    ⟨0, [[[0, 0]], [[0, 3 / 4]], [[0, 7 / 8]], [[0, 1]]], [[4], [7], [8], [9]], [[tenth], [tenth], [tenth], [tenth]], []⟩, []⟩

private noncomputable def fourLeft : Node ℝ := ⟨1, [[[0, 0]]], [[4]], [[tenth]], [⟨fourZ, .flt (1 / 2), some true⟩]⟩
private noncomputable def fourRight : Node ℝ :=
  ⟨1, [[[0, 3 / 4]], [[0, 7 / 8]], [[0, 1]]], [[7], [8], [9]], [[tenth], [tenth], [tenth]], [⟨fourZ, .flt (1 / 2), some false⟩]⟩

private theorem fourTree_valid : ValidDT 1 fourTree := by
  refine ⟨?_, by simp [fourTree, fourSpace], ⟨le_rfl, rfl, rfl, ?_, ?_, ?_⟩, rfl, rfl⟩
  · simp [ConfigSpace.WF, fourTree, fourSpace, fourZ]
  all_goals simp [fourTree, fourSpace]

private theorem fourTree_leaves {c : ComputedExp} (hc : CorrectlyRoundedExp c) (sum : List ℝ → ℝ) :
    (@dtPartitionM ℝ (roundedMachine c sum) fourTree 1).2 = .ok [fourRight, fourLeft] := by
  let M : Machine ℝ := roundedMachine c sum
  have hidx : fourSpace.idx fourZ.name = .ok 1 := by simp [fourSpace, ConfigSpace.idx, fourZ, List.findIdx?_cons]
  have hvals : firstValues fourTree.root.x 1 = .ok [0, 3 / 4, 7 / 8, 1] := rfl
  have hle : condMaskM (some true) (1 / 2 : ℝ) [0, 3 / 4, 7 / 8, 1] = [true, false, false, false] := by
    simp [condMaskM, Machine.le, M]
    norm_num
  have hgt : condMaskM (some false) (1 / 2 : ℝ) [0, 3 / 4, 7 / 8, 1] = [false, true, true, true] := by
    simp [condMaskM, Machine.lt, M]
    norm_num
  have hsplit : splitAtValueM fourSpace fourTree.root fourZ (1 / 2) = .ok (fourLeft, fourRight) := by
    simp only [splitAtValueM, checkCond, Py.ok_bind, filterByConditionM, hidx, hvals, NVal.toNumM, hle, hgt]
    rfl
  have hbest : calcBestSplitM fourSpace [fourZ] 1 1 fourTree.root = .ok (some (fourLeft, fourRight)) := by
    have hs : fourTree.root.splittable = true := by simp [fourTree, Node.splittable]
    simp only [calcBestSplitM, hs, if_true, candidatesM, one_split' hc sum, M]
    simp only [List.flatMap_cons, List.flatMap_nil, List.map_cons, List.map_nil, List.append_nil, List.foldlM_cons, List.foldlM_nil, trySplitM]
    rw [show @splitAtValueM ℝ (roundedMachine c sum) fourSpace fourTree.root fourZ (1 / 2) = _ from hsplit]
    rfl
  have hs : fourTree.root.splittable = true := by simp [fourTree, Node.splittable]
  have hd : fourTree.root.depth = 0 := rfl
  unfold dtPartitionM
  rw [if_pos (by norm_num)]
  have hloop : partitionLoop (calcBestSplitM fourTree.cfg.space fourTree.possible fourTree.numSplits fourTree.minPoints) 1 (loopFuel 1)
      [fourTree.root] [] = ([fourRight, fourLeft], .finished) := by
    have hb : calcBestSplitM fourTree.cfg.space fourTree.possible fourTree.numSplits fourTree.minPoints fourTree.root = _ := hbest
    rw [show loopFuel 1 = 4 from rfl]
    simp only [partitionLoop, hs, hd, hb]
    simp [fourLeft, fourRight]
  rw [hloop]

/-- **C150** "a partition does not have more loss than the root" (C56) is false of the losses that the program computes: four curves with
the variance 0.1 everywhere, one with `z = 0` and three with `z > 1/2`. The mean of four times 0.1 is 0.1, so the root has no loss; the mean of three times
0.1 is not, so the leaf with the three curves has one. This holds for every order of the additions. -/
theorem C150_total_counterexample {c : ComputedExp} (hc : CorrectlyRoundedExp c) (ht : TiesToEven c.fl) {sum : List ℝ → ℝ} (hs : SumsUp c.fl sum) :
    ∃ p : DT ℝ, ValidDT 1 p ∧ p.root.v = List.replicate 4 [tenth] ∧ ∃ leaves, (@dtPartitionM ℝ (roundedMachine c sum) p 1).2 = .ok leaves ∧
      regionLossF c.fl sum p.root.v = 0 ∧ 0 < (leaves.map fun m => regionLossF c.fl sum m.v).sum := by
  refine ⟨fourTree, fourTree_valid, rfl, _, fourTree_leaves hc sum, ?_, ?_⟩
  · have hmean : meanF c.fl sum [tenth, tenth, tenth, tenth] = tenth := by
      unfold meanF
      rw [four_tenths hc.fl ht (hs.added [tenth, tenth, tenth, tenth] (by simp)) (by simp) rfl]
      have : tenth * (2 : ℝ) ^ (2 : ℤ) / (([tenth, tenth, tenth, tenth].length : Nat) : ℝ) = tenth := by
        simp only [List.length_cons, List.length_nil]
        push_cast
        norm_num
      rw [this]
      exact (hc.fl _).self isDouble_tenth
    have hm : meanRowsF c.fl sum fourTree.root.v = .ok [tenth] := by
      simp [meanRowsF, List.range_succ, fourTree, hmean]
    unfold regionLossF
    rw [hm]
    have h0 : c.fl 0 = 0 := (hc.fl 0).self isDouble_zero
    simp only [fourTree, List.flatMap_cons, List.flatMap_nil, List.zipWith_cons_cons, List.zipWith_nil_left, List.append_nil, List.cons_append,
      List.nil_append, sub_self, h0, ne_eq, OfNat.ofNat_ne_zero, not_false_eq_true, zero_pow]
    have := (hs.added [0, 0, 0, 0] (by simp)).same hc.fl (v := 0) (by simp) (fun k _ => by simpa using isDouble_zero)
    simpa using this
  · have h1 := (C139_identical_counterexample hc.fl hs).2
    have h2 := C138_loss hc.fl hs fourLeft.v
    simp only [List.map_cons, List.map_nil, List.sum_cons, List.sum_nil, add_zero]
    exact add_pos_of_pos_of_nonneg h1 h2

/-- an odd number of exactly 53 bits -/
private theorem odd_of_not_even {r : ℝ} (h : IsDouble r) (hr : ¬ ∃ m e : ℤ, |m| ≤ 2 ^ 52 ∧ r = m * (2 : ℝ) ^ e) :
    ∃ m e : ℤ, 2 ^ 52 < |m| ∧ |m| < 2 ^ 53 ∧ m % 2 = 1 ∧ r = m * (2 : ℝ) ^ e := by
  obtain ⟨m, e, hm, rfl⟩ := h
  have h52 : 2 ^ 52 < |m| := by
    by_contra hle
    exact hr ⟨m, e, not_lt.1 hle, rfl⟩
  have hodd : m % 2 = 1 := by
    by_contra hev
    obtain ⟨k, rfl⟩ : ∃ k, m = 2 * k := ⟨m / 2, by omega⟩
    refine hr ⟨k, e + 1, ?_, ?_⟩
    · rw [abs_mul] at hm
      norm_num at hm ⊢
      omega
    · rw [zpow_add₀ (by norm_num)]; push_cast; ring
  refine ⟨m, e, h52, lt_of_le_of_ne hm fun heq => ?_, hodd, rfl⟩
  rcases abs_choice m with h | h <;> rw [h] at heq <;> norm_num at heq <;> omega

/-- two neighbouring doubles are not both odd -/
private theorem neighbours {r s : ℝ} (hr : IsDouble r) (hs : IsDouble s) (hlt : r < s) (hno : ∀ t, IsDouble t → ¬ (r < t ∧ t < s)) :
    (∃ m e : ℤ, |m| ≤ 2 ^ 52 ∧ r = m * (2 : ℝ) ^ e) ∨ ∃ m e : ℤ, |m| ≤ 2 ^ 52 ∧ s = m * (2 : ℝ) ^ e := by
  by_contra hcon
  push Not at hcon
  obtain ⟨m, e, hm1, hm2, hmo, hre⟩ := odd_of_not_even hr (fun ⟨m, e, h1, h2⟩ => hcon.1 m e h1 h2)
  obtain ⟨k, f, hk1, hk2, hko, hse⟩ := odd_of_not_even hs (fun ⟨m, e, h1, h2⟩ => hcon.2 m e h1 h2)
  have he0 : (0 : ℝ) < (2 : ℝ) ^ e := by positivity
  have hf0 : (0 : ℝ) < (2 : ℝ) ^ f := by positivity
  rcases lt_trichotomy m 0 with hm | hm | hm
  · -- r is negative: so is s, or 0 is between them
    rcases lt_trichotomy k 0 with hk | hk | hk
    · rw [abs_of_neg hm] at hm1 hm2
      rw [abs_of_neg hk] at hk1 hk2
      rcases lt_trichotomy e f with hef | hef | hef
      · -- |r| < |s|
        exfalso
        have h2 : (2 : ℝ) ^ e * 2 ≤ (2 : ℝ) ^ f := by
          rw [← zpow_add_one₀ (by norm_num)]; exact zpow_le_zpow_right₀ (by norm_num) (by omega)
        have a1 : (-(2 : ℝ) ^ 53) < m := by exact_mod_cast (by linarith : -2 ^ 53 < m)
        have a2 : (k : ℝ) < -(2 : ℝ) ^ 52 := by exact_mod_cast (by linarith : k < -2 ^ 52)
        rw [hre, hse] at hlt
        nlinarith
      · subst hef
        have hmk : m < k := by
          rw [hre, hse] at hlt
          exact_mod_cast lt_of_mul_lt_mul_right hlt he0.le
        refine hno (((m + 1 : ℤ) : ℝ) * (2 : ℝ) ^ e) ⟨m + 1, e, by rw [abs_of_nonpos (by omega)]; omega, rfl⟩ ⟨?_, ?_⟩
        · rw [hre]; exact mul_lt_mul_of_pos_right (by exact_mod_cast (by omega : m < m + 1)) he0
        · rw [hse]; exact mul_lt_mul_of_pos_right (by exact_mod_cast (by omega : m + 1 < k)) he0
      · refine hno ((((-2 ^ 53 : ℤ)) : ℝ) * (2 : ℝ) ^ f) ⟨-2 ^ 53, f, by norm_num, rfl⟩ ⟨?_, ?_⟩
        · have h2 : (2 : ℝ) ^ f * 2 ≤ (2 : ℝ) ^ e := by
            rw [← zpow_add_one₀ (by norm_num)]; exact zpow_le_zpow_right₀ (by norm_num) (by omega)
          have a1 : (m : ℝ) < -(2 : ℝ) ^ 52 := by exact_mod_cast (by linarith : m < -2 ^ 52)
          rw [hre]
          push_cast
          nlinarith
        · rw [hse]; exact mul_lt_mul_of_pos_right (by exact_mod_cast (by linarith : -2 ^ 53 < k)) hf0
    · omega
    · refine hno 0 isDouble_zero ⟨?_, ?_⟩
      · rw [hre]; exact mul_neg_of_neg_of_pos (by exact_mod_cast hm) he0
      · rw [hse]; exact mul_pos (by exact_mod_cast hk) hf0
  · omega
  · have hk : 0 < k := by
      by_contra hk
      have h1 : (0 : ℝ) < r := by rw [hre]; exact mul_pos (by exact_mod_cast hm) he0
      have h2 : s ≤ 0 := by rw [hse]; exact mul_nonpos_of_nonpos_of_nonneg (by exact_mod_cast (not_lt.1 hk)) hf0.le
      linarith
    rw [abs_of_pos hm] at hm1 hm2
    rw [abs_of_pos hk] at hk1 hk2
    rcases lt_trichotomy e f with hef | hef | hef
    · refine hno (((2 ^ 53 : ℤ) : ℝ) * (2 : ℝ) ^ e) ⟨2 ^ 53, e, by norm_num, rfl⟩ ⟨?_, ?_⟩
      · rw [hre]; exact mul_lt_mul_of_pos_right (by exact_mod_cast hm2) he0
      · have h2 : (2 : ℝ) ^ e * 2 ≤ (2 : ℝ) ^ f := by
          rw [← zpow_add_one₀ (by norm_num)]; exact zpow_le_zpow_right₀ (by norm_num) (by omega)
        have a1 : (2 : ℝ) ^ 52 < k := by exact_mod_cast hk1
        rw [hse]
        push_cast
        nlinarith
    · subst hef
      have hmk : m < k := by
        rw [hre, hse] at hlt
        exact_mod_cast lt_of_mul_lt_mul_right hlt he0.le
      refine hno (((m + 1 : ℤ) : ℝ) * (2 : ℝ) ^ e) ⟨m + 1, e, by rw [abs_of_nonneg (by omega)]; omega, rfl⟩ ⟨?_, ?_⟩
      · rw [hre]; exact mul_lt_mul_of_pos_right (by exact_mod_cast (by omega : m < m + 1)) he0
      · rw [hse]; exact mul_lt_mul_of_pos_right (by exact_mod_cast (by omega : m + 1 < k)) he0
    · exfalso
      have h2 : (2 : ℝ) ^ f * 2 ≤ (2 : ℝ) ^ e := by
        rw [← zpow_add_one₀ (by norm_num)]; exact zpow_le_zpow_right₀ (by norm_num) (by omega)
      have a1 : (2 : ℝ) ^ 52 < m := by exact_mod_cast hm1
      have a2 : (k : ℝ) < (2 : ℝ) ^ 53 := by exact_mod_cast hk2
      rw [hre, hse] at hlt
      nlinarith

/-- There is such a rounding: the hypotheses of the counterexample hold for it. -/
theorem exists_tiesToEven : ∃ fl : ℝ → ℝ, RoundsToNearest fl ∧ TiesToEven fl := by
  classical
  have hex : ∀ x : ℝ, ∃ r, Nearest x r ∧ ∀ r', IsDouble r' → r' ≠ r → |x - r'| = |x - r| → ∃ m e : ℤ, |m| ≤ 2 ^ 52 ∧ r = m * (2 : ℝ) ^ e := by
    intro x
    obtain ⟨r, hr⟩ : ∃ r, Nearest x r := ⟨_, (roundDouble_spec x).1⟩
    by_cases heven : ∃ q, Nearest x q ∧ ∃ m e : ℤ, |m| ≤ 2 ^ 52 ∧ q = m * (2 : ℝ) ^ e
    · obtain ⟨q, hq, hm⟩ := heven
      exact ⟨q, hq, fun _ _ _ _ => hm⟩
    · refine ⟨r, hr, fun r' hr' hne hd => ?_⟩
      have hr'n : Nearest x r' := ⟨hr', fun t ht => by rw [hd]; exact hr.2 t ht⟩
      exfalso
      have key : ∀ a b, Nearest x a → Nearest x b → a < b → |x - b| = |x - a| → False := by
        intro a b ha hb hab hdist
        have hmid : x - a = b - x := by
          rcases abs_cases (x - b) with ⟨h1, h2⟩ | ⟨h1, h2⟩ <;> rcases abs_cases (x - a) with ⟨h3, h4⟩ | ⟨h3, h4⟩ <;> linarith
        rcases neighbours ha.1 hb.1 hab (fun t ht ⟨h1, h2⟩ => by
          have := ha.2 t ht
          rw [abs_of_nonneg (by linarith : 0 ≤ x - a)] at this
          rcases abs_cases (x - t) with ⟨h3, h4⟩ | ⟨h3, h4⟩ <;> linarith) with h | h
        · exact heven ⟨a, ha, h⟩
        · exact heven ⟨b, hb, h⟩
      rcases lt_or_gt_of_ne hne with h | h
      · exact key r' r hr'n hr h hd.symm
      · exact key r r' hr hr'n h hd
  choose fl h1 h2 using hex
  exact ⟨fl, h1, h2⟩

/-- the counterexample with additions from left to right -/
example : ∃ (c : ComputedExp) (p : DT ℝ) (leaves : List (Node ℝ)), CorrectlyRoundedExp c ∧ ValidDT 1 p ∧
    (@dtPartitionM ℝ (roundedMachine c (sumInOrder c.fl)) p 1).2 = .ok leaves ∧
    regionLossF c.fl (sumInOrder c.fl) p.root.v < (leaves.map fun m => regionLossF c.fl (sumInOrder c.fl) m.v).sum := by
  obtain ⟨fl, hfl, ht⟩ := exists_tiesToEven
  have hc : CorrectlyRoundedExp ⟨fl, fun x => fl (Real.log x), fun y => fl (Real.exp y)⟩ := ⟨hfl, fun x _ => hfl _, fun y => hfl _⟩
  obtain ⟨p, hv, -, leaves, h1, h2, h3⟩ := C150_total_counterexample hc ht (sumInOrder_sums fl)
  exact ⟨_, p, leaves, hc, hv, h1, by rw [h2]; exact h3⟩

/-- the same tree: the loss of the leaves is not larger than 2⁻⁴⁹ -/
example {c : ComputedExp} (hc : CorrectlyRoundedExp c) (ht : TiesToEven c.fl) {sum : List ℝ → ℝ} (hs : SumsUp c.fl sum) :
    ∃ p : DT ℝ, ∃ leaves, (@dtPartitionM ℝ (roundedMachine c sum) p 1).2 = .ok leaves ∧
      0 < (leaves.map fun m => regionLossF c.fl sum m.v).sum ∧ (leaves.map fun m => regionLossF c.fl sum m.v).sum ≤ (2 : ℝ) ^ (-49 : ℤ) := by
  obtain ⟨p, hv, hroot, leaves, h1, h2, h3⟩ := C150_total_counterexample hc ht hs
  have hlen : (curves p.root).length = 4 := by rw [← hv.shape.v_length, hroot]; rfl
  have ht0 : |tenth| ≤ 0.105 := by
    unfold tenth
    rw [zpow_neg, abs_of_pos (by norm_num)]; norm_num
  obtain ⟨leaves', e1, -, e2⟩ := C150_total_partial hc hs hv (d := 1) (by norm_num) (by rw [hlen]; norm_num) (B := 0.105) (by
    rw [hroot]
    intro r hr x hx
    rw [(List.mem_replicate.1 hr).2, List.mem_singleton] at hx
    rw [hx]; exact ht0)
  obtain rfl : leaves' = leaves := by rw [h1] at e1; exact (Except.ok.inj e1).symm
  refine ⟨p, _, h1, h3, e2.trans ?_⟩
  rw [h2, hlen, show (-49 : ℤ) = 3 + -52 by norm_num, zpow_add₀ (by norm_num)]
  norm_num
end example_

end PyPDP
