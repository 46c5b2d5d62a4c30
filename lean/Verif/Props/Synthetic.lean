/-
C12-C16: the synthetic functions.
-/
import Verif.Model.Blackbox
import Verif.Spec.Blackbox
import Verif.Lemmas.Names
import Verif.Lemmas.Py
import Mathlib.Analysis.SpecialFunctions.Trigonometric.Arctan
import Mathlib.Analysis.SpecialFunctions.Trigonometric.Bounds
import Mathlib.Analysis.Real.Pi.Bounds
import Mathlib.Tactic.Linarith
import Mathlib.Tactic.NormNum
import Mathlib.Tactic.Positivity
import Mathlib.Tactic.FieldSimp

namespace PyPDP
open Spec

/-! ### reading coordinates -/

theorem mapM_ok_map {α β : Type} {f : α → Py β} {g : α → β} {l : List α} (h : ∀ a ∈ l, f a = .ok (g a)) :
    l.mapM f = .ok (l.map g) := by
  rw [Py.mapM_eq_ok]
  induction l with
  | nil => exact .nil
  | cons a as ih => exact .cons (h a List.mem_cons_self) (ih fun b hb => h b (List.mem_cons_of_mem _ hb))

theorem range_map_getD (xs : List ℝ) : (List.range xs.length).map (fun i => xs.getD i 0) = xs := by
  apply List.ext_getElem
  · simp
  · intro i h1 h2; simp [List.getElem?_eq_getElem h2]

theorem ndConfig_item {xs : List ℝ} {i : Nat} (hi : i < xs.length) :
    (ndConfig xs).item ("x" ++ toString (i + 1)) = .ok (.num (xs.getD i 0)) := by
  have : (ndConfig xs).get? ("x" ++ toString (i + 1)) = some (.num (xs.getD i 0)) := by
    unfold Config.get? ndConfig
    have : ((List.range xs.length).map fun j => (("x" ++ toString (j + 1) : String), (Val.num (xs.getD j 0) : Val ℝ))).find?
        (fun p => p.1 == "x" ++ toString (i + 1)) = some ("x" ++ toString (i + 1), .num (xs.getD i 0)) := by
      rw [List.find?_map]
      have : (List.range xs.length).find? ((fun p : String × Val ℝ => p.1 == "x" ++ toString (i + 1)) ∘
          fun j => (("x" ++ toString (j + 1) : String), (Val.num (xs.getD j 0) : Val ℝ))) = some i := by
        rw [List.find?_eq_some_iff_getElem]
        refine ⟨by simp, i, by simpa using hi, by simp, fun j hj => ?_⟩
        simp only [Function.comp, List.getElem_range, Bool.not_eq_true', beq_eq_false_iff_ne, ne_eq]
        intro h
        have := name_inj h
        omega
      rw [this]; rfl
    simp only [this]; rfl
  rw [Config.item, this]

theorem ndConfig_coords {xs : List ℝ} {d : Nat} (h : xs.length = d) : configCoords d (ndConfig xs) = .ok xs := by
  subst h
  have : configCoords xs.length (ndConfig xs) = .ok ((List.range xs.length).map fun i => xs.getD i 0) := by
    apply mapM_ok_map
    intro i hi
    rw [ndConfig_item (List.mem_range.1 hi)]; rfl
  rw [this, range_map_getD]

theorem ndConfig_nums (xs : List ℝ) : configNums (ndConfig xs) = .ok xs := by
  have h : configNums (ndConfig xs) = .ok ((ndConfig xs).values.map fun p => match p.2 with | .num x => x | .str _ => 0) := by
    apply mapM_ok_map
    intro p hp
    simp only [ndConfig, List.mem_map] at hp
    obtain ⟨i, _, rfl⟩ := hp
    rfl
  rw [h]
  simp only [ndConfig, List.map_map]
  exact congrArg _ (range_map_getD xs)

theorem sum_nonneg_eq_zero {α : Type} {f : α → ℝ} {l : List α} (h : ∀ a ∈ l, 0 ≤ f a) :
    0 ≤ (l.map f).sum ∧ ((l.map f).sum = 0 ↔ ∀ a ∈ l, f a = 0) := by
  induction l with
  | nil => simp
  | cons a as ih =>
    obtain ⟨h1, h2⟩ := ih fun b hb => h b (List.mem_cons_of_mem _ hb)
    have h3 := h a List.mem_cons_self
    simp only [List.map_cons, List.sum_cons, List.forall_mem_cons]
    refine ⟨add_nonneg h3 h1, ?_⟩
    rw [add_eq_zero_iff_of_nonneg h3 h1, h2]

/-! ### C12 -/

/-- **C12** `Square` is non-negative and zero exactly at the origin, in every dimension. -/
theorem C12_square (xs : List ℝ) :
    ∃ y, squareValue (ndConfig xs) = .ok y ∧ 0 ≤ y ∧ (y = 0 ↔ ∀ x ∈ xs, x = 0) ∧
      y = ∑ i ∈ Finset.range xs.length, xs.getD i 0 ^ 2 := by
  obtain ⟨h1, h2⟩ := sum_nonneg_eq_zero (f := fun x : ℝ => x ^ 2) (l := xs) fun a _ => sq_nonneg a
  refine ⟨_, by simp only [squareValue, ndConfig_nums]; rfl, h1, ?_, ?_⟩
  · rw [h2]; simp
  · clear h1 h2
    induction xs with
    | nil => simp
    | cons x xs ih => rw [List.map_cons, List.sum_cons, ih, List.length_cons, Finset.sum_range_succ']; simp [add_comm]

/-- **C12** `NegativeSquare = 1 - Square`, so at most 1, and 1 exactly at the origin. -/
theorem C12_negative_square (xs : List ℝ) :
    ∃ y z, squareValue (ndConfig xs) = .ok y ∧ negativeSquareValue (ndConfig xs) = .ok z ∧ z = 1 - y ∧ z ≤ 1 ∧
      (z = 1 ↔ ∀ x ∈ xs, x = 0) := by
  obtain ⟨h1, h2⟩ := sum_nonneg_eq_zero (f := fun x : ℝ => x ^ 2) (l := xs) fun a _ => sq_nonneg a
  refine ⟨_, _, by simp only [squareValue, ndConfig_nums]; rfl, by simp only [negativeSquareValue, ndConfig_nums]; rfl,
    rfl, by linarith, ?_⟩
  have : (∀ x ∈ xs, x = 0) ↔ (xs.map fun x : ℝ => x ^ 2).sum = 0 := by rw [h2]; simp
  rw [this]
  constructor <;> intro h <;> linarith

example : ∃ y, squareValue (ndConfig [3, -4]) = .ok y ∧ y = 25 := by
  obtain ⟨y, h1, _, _, h4⟩ := C12_square [3, -4]
  refine ⟨y, h1, h4.trans ?_⟩
  simp [Finset.sum_range_succ]; norm_num

/-! ### C13 -/

/-- **C13** Levy is non-negative in every dimension `d ≥ 1`, and zero exactly at `(1, ..., 1)`. -/
theorem C13_levy (xs : List ℝ) (hd : 1 ≤ xs.length) :
    ∃ y, levyValue xs.length (ndConfig xs) = .ok y ∧ 0 ≤ y ∧ (y = 0 ↔ ∀ x ∈ xs, x = 1) := by
  have hne : xs ≠ [] := by rintro rfl; simp at hd
  set w := xs.map fun a => 1 + (a - 1) / 4 with hw
  have hwl : w.length = xs.length := by simp [hw]
  have hwne : w ≠ [] := by simpa [hw] using hne
  have e0 : pyGet w 0 = .ok (w.head hwne) := by
    obtain ⟨a, as, h⟩ := List.exists_cons_of_ne_nil hwne
    simp [pyGet, h]
  have e1 : pyGet w (w.length - 1) = .ok (w.getLast hwne) := by
    have hlt : w.length - 1 < w.length := by have := List.length_pos_iff.2 hwne; omega
    simp [pyGet, List.getElem?_eq_getElem hlt, List.getLast_eq_getElem]
  have hval : levyValue xs.length (ndConfig xs) = .ok (Real.sin (Real.pi * w.head hwne) ^ 2 +
      (w.dropLast.map fun a => (a - 1) ^ 2 * (1 + 10 * Real.sin (Real.pi * a + 1) ^ 2)).sum +
      (w.getLast hwne - 1) ^ 2 * (1 + Real.sin (2 * Real.pi * w.getLast hwne) ^ 2)) := by
    simp only [levyValue, ndConfig_coords rfl, Py.ok_bind, ← hw, e0, e1]
    rfl
  have hall : (∀ x ∈ xs, x = 1) ↔ ∀ a ∈ w, a = 1 := by
    simp only [hw, List.forall_mem_map]
    refine forall₂_congr fun a _ => ?_
    constructor <;> intro h <;> linarith
  have hsplit : w = w.dropLast ++ [w.getLast hwne] := (List.dropLast_append_getLast hwne).symm
  obtain ⟨s1, s2⟩ := sum_nonneg_eq_zero
    (f := fun a : ℝ => (a - 1) ^ 2 * (1 + 10 * Real.sin (Real.pi * a + 1) ^ 2)) (l := w.dropLast)
    fun a _ => by positivity
  have t1 : 0 ≤ Real.sin (Real.pi * w.head hwne) ^ 2 := sq_nonneg _
  have t3 : 0 ≤ (w.getLast hwne - 1) ^ 2 * (1 + Real.sin (2 * Real.pi * w.getLast hwne) ^ 2) := by positivity
  have zero_iff : ∀ (a b : ℝ), 0 ≤ b → ((a - 1) ^ 2 * (1 + b) = 0 ↔ a = 1) := by
    intro a b hb
    rw [mul_eq_zero]
    constructor
    · rintro (h | h)
      · have := pow_eq_zero_iff two_ne_zero |>.1 h; linarith
      · linarith
    · rintro rfl; simp
  refine ⟨_, hval, by linarith, ?_⟩
  rw [hall]
  constructor
  · intro h
    have h2 : (w.dropLast.map fun a => (a - 1) ^ 2 * (1 + 10 * Real.sin (Real.pi * a + 1) ^ 2)).sum = 0 := by linarith
    have h3 : (w.getLast hwne - 1) ^ 2 * (1 + Real.sin (2 * Real.pi * w.getLast hwne) ^ 2) = 0 := by linarith
    rw [s2] at h2
    intro a ha
    rw [hsplit] at ha
    rcases List.mem_append.1 ha with ha | ha
    · exact (zero_iff a _ (by positivity)).1 (h2 a ha)
    · rw [List.mem_singleton] at ha
      rw [ha]; exact (zero_iff _ _ (by positivity)).1 h3
  · intro h
    have h1 : w.head hwne = 1 := h _ (List.head_mem hwne)
    have h3 : w.getLast hwne = 1 := h _ (List.getLast_mem hwne)
    have h2 : (w.dropLast.map fun a => (a - 1) ^ 2 * (1 + 10 * Real.sin (Real.pi * a + 1) ^ 2)).sum = 0 := by
      rw [s2]
      intro a ha
      rw [h a (List.mem_of_mem_dropLast ha)]; simp
    rw [h2, h1, h3]; simp

example : ∃ y, levyValue 3 (ndConfig [1, 1, 1]) = .ok y ∧ y = 0 := by
  obtain ⟨y, h1, _, h3⟩ := C13_levy [1, 1, 1] (by simp)
  exact ⟨y, h1, h3.2 (by simp)⟩

/-! ### C14 -/

/-- **C14** Ackley is non-negative in every dimension `d ≥ 1`, and zero exactly at the origin. -/
theorem C14_ackley (xs : List ℝ) (hd : 1 ≤ xs.length) :
    ∃ y, ackleyValue xs.length (ndConfig xs) = .ok y ∧ 0 ≤ y ∧ (y = 0 ↔ ∀ x ∈ xs, x = 0) := by
  have hdpos : (0 : ℝ) < xs.length := by exact_mod_cast hd
  obtain ⟨s1, s2⟩ := sum_nonneg_eq_zero (f := fun x : ℝ => x ^ 2) (l := xs) fun a _ => sq_nonneg a
  have hval : ackleyValue xs.length (ndConfig xs) = .ok
      (-20 * Real.exp (-(0.2 : ℝ) * Real.sqrt ((xs.map (· ^ 2)).sum / xs.length)) -
        Real.exp ((xs.map fun a => Real.cos (2 * Real.pi * a) / xs.length).sum) + 20 + Real.exp 1) := by
    have : xs.length ≠ 0 := by omega
    simp only [ackleyValue, ndConfig_coords rfl, Py.ok_bind, if_neg this]
    rfl
  have hcos : (xs.map fun a => Real.cos (2 * Real.pi * a) / xs.length).sum ≤ 1 := by
    have gen : ∀ l : List ℝ, (l.map fun a => Real.cos (2 * Real.pi * a) / (xs.length : ℝ)).sum ≤ l.length / (xs.length : ℝ) := by
      intro l
      induction l with
      | nil => simp
      | cons a as ih =>
        simp only [List.map_cons, List.sum_cons, List.length_cons, Nat.cast_add, Nat.cast_one, add_div]
        have := div_le_div_of_nonneg_right (Real.cos_le_one (2 * Real.pi * a)) hdpos.le
        linarith
    have := gen xs
    rwa [div_self hdpos.ne'] at this
  have hexp2 := Real.exp_le_exp.2 hcos
  set r := Real.sqrt ((xs.map fun x : ℝ => x ^ 2).sum / xs.length) with hr
  have hr0 : 0 ≤ r := Real.sqrt_nonneg _
  have hexp1 : Real.exp (-(0.2 : ℝ) * r) ≤ 1 := by
    rw [Real.exp_le_one_iff]; nlinarith
  refine ⟨_, hval, by linarith, ?_⟩
  constructor
  · intro h
    have h1 : Real.exp (-(0.2 : ℝ) * r) = 1 := by linarith
    rw [Real.exp_eq_one_iff] at h1
    have h2 : r = 0 := by linarith
    rw [hr, Real.sqrt_eq_zero (by positivity), div_eq_zero_iff] at h2
    rcases h2 with h2 | h2
    · rw [s2] at h2; simpa using h2
    · exact absurd h2 hdpos.ne'
  · intro h
    have h1 : (xs.map fun x : ℝ => x ^ 2).sum = 0 := by rw [s2]; intro a ha; simp [h a ha]
    have h2 : (xs.map fun a => Real.cos (2 * Real.pi * a) / xs.length).sum = 1 := by
      have : (xs.map fun a => Real.cos (2 * Real.pi * a) / (xs.length : ℝ)) = xs.map fun _ => 1 / (xs.length : ℝ) :=
        List.map_congr_left fun a ha => by simp [h a ha]
      rw [this]; simp [hdpos.ne']
    rw [hr, h1, h2]; simp; ring

example : ∃ y, ackleyValue 2 (ndConfig [0, 0]) = .ok y ∧ y = 0 := by
  obtain ⟨y, h1, _, h3⟩ := C14_ackley [0, 0] (by simp)
  exact ⟨y, h1, h3.2 (by simp)⟩

/-! ### C15 -/

theorem cross_value (x y : ℝ) : crossInTrayValue (ndConfig [x, y]) = .ok
    (-(0.0001 : ℝ) * (abs (Real.sin x * Real.sin y * Real.exp (abs (100 - Real.sqrt (x ^ 2 + y ^ 2) / Real.pi))) + 1)
      ^ (0.1 : ℝ)) := by
  have h1 : (ndConfig [x, y]).item "x1" = .ok (.num x) := ndConfig_item (xs := [x, y]) (i := 0) (by simp)
  have h2 : (ndConfig [x, y]).item "x2" = .ok (.num y) := ndConfig_item (xs := [x, y]) (i := 1) (by simp)
  simp only [crossInTrayValue, h1, h2, Py.ok_bind, Val.toNum]
  rfl

/-- slope `1 / (π √2)` and the maximiser `arctan (π √2)` of one factor -/
noncomputable def crossC : ℝ := 1 / (Real.pi * Real.sqrt 2)
noncomputable def crossA : ℝ := Real.arctan (Real.pi * Real.sqrt 2)

theorem crossC_pos : 0 < crossC := by unfold crossC; positivity

theorem crossA_bounds : 0 < crossA ∧ crossA < Real.pi / 2 :=
  ⟨Real.arctan_pos.2 (by positivity), Real.arctan_lt_pi_div_two _⟩

theorem sin_crossA_pos : 0 < Real.sin crossA :=
  Real.sin_pos_of_pos_of_lt_pi crossA_bounds.1 (by have := crossA_bounds.2; have := Real.pi_pos; linarith)

theorem cos_crossA : Real.cos crossA = crossC * Real.sin crossA := by
  have hc : 0 < Real.cos crossA := Real.cos_arctan_pos _
  have ht : Real.sin crossA / Real.cos crossA = Real.pi * Real.sqrt 2 := by
    rw [← Real.tan_eq_sin_div_cos]; exact Real.tan_arctan _
  have hp : 0 < Real.pi * Real.sqrt 2 := by positivity
  rw [div_eq_iff hc.ne'] at ht
  rw [ht, crossC]; field_simp

/-- one factor: `|sin x| e^{-c x}` is largest at `a` among all `x ≥ 0`. -/
theorem cross_factor {x : ℝ} (hx : 0 ≤ x) :
    |Real.sin x| * Real.exp (-(crossC * x)) ≤ Real.sin crossA * Real.exp (-(crossC * crossA)) := by
  have hc := crossC_pos
  have hs := sin_crossA_pos
  suffices h : |Real.sin x| ≤ Real.sin crossA * Real.exp (crossC * (x - crossA)) by
    calc |Real.sin x| * Real.exp (-(crossC * x))
        ≤ Real.sin crossA * Real.exp (crossC * (x - crossA)) * Real.exp (-(crossC * x)) :=
          mul_le_mul_of_nonneg_right h (Real.exp_pos _).le
      _ = Real.sin crossA * Real.exp (-(crossC * crossA)) := by
          rw [mul_assoc, ← Real.exp_add]; congr 2; ring
  obtain ⟨h, rfl⟩ : ∃ h, x = crossA + h := ⟨x - crossA, by ring⟩
  rw [add_sub_cancel_left]
  have hadd : Real.sin (crossA + h) = Real.sin crossA * (Real.cos h + crossC * Real.sin h) := by
    rw [Real.sin_add, cos_crossA]; ring
  rw [hadd, abs_mul, abs_of_pos hs]
  apply mul_le_mul_of_nonneg_left _ hs.le
  have hexp := Real.add_one_le_exp (crossC * h)
  rcases le_total 0 h with h0 | h0
  · have h1 : |Real.sin h| ≤ h := by
      rw [abs_le]; constructor
      · have := Real.sin_le h0
        have := Real.neg_one_le_sin h
        rcases le_total h Real.pi with hp | hp
        · linarith [Real.sin_nonneg_of_nonneg_of_le_pi h0 hp]
        · linarith [Real.pi_gt_three]
      · exact Real.sin_le h0
    calc |Real.cos h + crossC * Real.sin h| ≤ |Real.cos h| + |crossC * Real.sin h| := abs_add_le _ _
      _ ≤ 1 + crossC * h := by
          rw [abs_mul, abs_of_pos hc]
          have := Real.abs_cos_le_one h
          nlinarith
      _ ≤ _ := by linarith
  · obtain ⟨k, rfl⟩ : ∃ k, h = -k := ⟨-h, by ring⟩
    have hk0 : 0 ≤ k := by linarith
    have hka : k ≤ crossA := by linarith
    have hkpi : k < Real.pi / 2 := lt_of_le_of_lt hka crossA_bounds.2
    have hnn : 0 ≤ Real.cos (-k) + crossC * Real.sin (-k) := by
      have : 0 ≤ Real.sin (crossA + -k) :=
        Real.sin_nonneg_of_nonneg_of_le_pi hx (by have := crossA_bounds.2; have := Real.pi_pos; linarith)
      rw [hadd] at this
      exact nonneg_of_mul_nonneg_right this hs
    rw [abs_of_nonneg hnn, Real.cos_neg, Real.sin_neg]
    have h1 : k * Real.cos k ≤ Real.sin k := by
      rcases hk0.eq_or_lt with rfl | hpos
      · simp
      · have := Real.lt_tan hpos hkpi
        rw [Real.tan_eq_sin_div_cos, lt_div_iff₀ (Real.cos_pos_of_mem_Ioo ⟨by linarith, hkpi⟩)] at this
        exact this.le
    have hck : crossC * k ≤ 1 := by
      have hsq : 1 ≤ Real.sqrt 2 := Real.one_le_sqrt.2 (by norm_num)
      have : crossC ≤ 1 / Real.pi := by
        unfold crossC
        apply one_div_le_one_div_of_le Real.pi_pos
        nlinarith [Real.pi_pos]
      have h2 : crossC * k ≤ 1 / Real.pi * (Real.pi / 2) := by
        apply mul_le_mul this hkpi.le hk0 (by positivity)
      have h3 : 1 / Real.pi * (Real.pi / 2) = 1 / 2 := by field_simp
      linarith
    have hcos1 := Real.cos_le_one k
    have : crossC * (k - Real.sin k) ≤ 1 - Real.cos k := by
      have : crossC * (k - Real.sin k) ≤ crossC * (k * (1 - Real.cos k)) :=
        mul_le_mul_of_nonneg_left (by linarith) hc.le
      have h5 : crossC * (k * (1 - Real.cos k)) = (crossC * k) * (1 - Real.cos k) := by ring
      nlinarith
    nlinarith

theorem sqrt_sq_add_ge (x y : ℝ) : (|x| + |y|) / Real.sqrt 2 ≤ Real.sqrt (x ^ 2 + y ^ 2) := by
  rw [div_le_iff₀ (by positivity), ← Real.sqrt_mul (by positivity)]
  apply Real.le_sqrt_of_sq_le
  have := sq_nonneg (|x| - |y|)
  have h1 := sq_abs x
  have h2 := sq_abs y
  nlinarith

theorem cross_core {x y : ℝ} :
    abs (Real.sin x * Real.sin y) * Real.exp (-(Real.sqrt (x ^ 2 + y ^ 2) / Real.pi)) ≤
      (Real.sin crossA * Real.exp (-(crossC * crossA))) ^ 2 := by
  have h1 := cross_factor (abs_nonneg x)
  have h2 := cross_factor (abs_nonneg y)
  have hs : ∀ t : ℝ, abs (Real.sin (abs t)) = abs (Real.sin t) := by
    intro t
    rcases abs_cases t with ⟨h, _⟩ | ⟨h, _⟩ <;> rw [h]
    rw [Real.sin_neg, abs_neg]
  rw [hs] at h1 h2
  have hexp : Real.exp (-(Real.sqrt (x ^ 2 + y ^ 2) / Real.pi)) ≤
      Real.exp (-(crossC * |x|)) * Real.exp (-(crossC * |y|)) := by
    rw [← Real.exp_add, Real.exp_le_exp]
    have : crossC * (|x| + |y|) ≤ Real.sqrt (x ^ 2 + y ^ 2) / Real.pi := by
      have h3 : crossC * (|x| + |y|) = (|x| + |y|) / Real.sqrt 2 / Real.pi := by
        unfold crossC; field_simp
      rw [h3]
      exact div_le_div_of_nonneg_right (sqrt_sq_add_ge x y) Real.pi_pos.le
    linarith
  calc abs (Real.sin x * Real.sin y) * Real.exp (-(Real.sqrt (x ^ 2 + y ^ 2) / Real.pi))
      ≤ abs (Real.sin x * Real.sin y) * (Real.exp (-(crossC * |x|)) * Real.exp (-(crossC * |y|))) :=
        mul_le_mul_of_nonneg_left hexp (abs_nonneg _)
    _ = (|Real.sin x| * Real.exp (-(crossC * |x|))) * (|Real.sin y| * Real.exp (-(crossC * |y|))) := by
        rw [abs_mul]; ring
    _ ≤ (Real.sin crossA * Real.exp (-(crossC * crossA))) * (Real.sin crossA * Real.exp (-(crossC * crossA))) := by
        apply mul_le_mul h1 h2 (by positivity)
        exact mul_nonneg sin_crossA_pos.le (Real.exp_pos _).le
    _ = _ := by ring

theorem cross_inner_abs {x y : ℝ} (hx : |x| ≤ 10) (hy : |y| ≤ 10) :
    abs (100 - Real.sqrt (x ^ 2 + y ^ 2) / Real.pi) = 100 - Real.sqrt (x ^ 2 + y ^ 2) / Real.pi := by
  apply abs_of_nonneg
  have h1 : Real.sqrt (x ^ 2 + y ^ 2) ≤ 20 := by
    apply Real.sqrt_le_iff.2
    constructor
    · norm_num
    · have := sq_abs x; have := sq_abs y; nlinarith [abs_nonneg x, abs_nonneg y]
  have h2 : Real.sqrt (x ^ 2 + y ^ 2) / Real.pi ≤ 20 := by
    rw [div_le_iff₀ Real.pi_pos]; nlinarith [Real.pi_gt_three]
  linarith

/-- **C15** symmetry: sign flips of either coordinate and swapping the coordinates change nothing. -/
theorem C15_symmetric (x y : ℝ) :
    crossInTrayValue (ndConfig [-x, y]) = crossInTrayValue (ndConfig [x, y]) ∧
    crossInTrayValue (ndConfig [x, -y]) = crossInTrayValue (ndConfig [x, y]) ∧
    crossInTrayValue (ndConfig [y, x]) = crossInTrayValue (ndConfig [x, y]) := by
  have a1 : ∀ s t e : ℝ, |(-s) * t * e| = |s * t * e| := by intro s t e; rw [neg_mul, neg_mul, abs_neg]
  have a2 : ∀ s t e : ℝ, |s * (-t) * e| = |s * t * e| := by intro s t e; rw [mul_neg, neg_mul, abs_neg]
  simp only [cross_value, Real.sin_neg, neg_sq, a1, a2, true_and]
  rw [mul_comm (Real.sin y), add_comm (y ^ 2)]

/-- **C15** the value is at most `-0.0001` everywhere. -/
theorem C15_upper (x y : ℝ) : ∃ v, crossInTrayValue (ndConfig [x, y]) = .ok v ∧ v ≤ -0.0001 := by
  refine ⟨_, cross_value x y, ?_⟩
  have : (1 : ℝ) ≤ (abs (Real.sin x * Real.sin y * Real.exp (abs (100 - Real.sqrt (x ^ 2 + y ^ 2) / Real.pi))) + 1)
      ^ (0.1 : ℝ) := by
    apply Real.one_le_rpow _ (by norm_num)
    linarith [abs_nonneg (Real.sin x * Real.sin y * Real.exp (abs (100 - Real.sqrt (x ^ 2 + y ^ 2) / Real.pi)))]
  linarith

/-- **C15** on the default domain the function is never below its value at `(a, a)`, `a = arctan (π √2)`, which is itself
in the domain. -/
theorem C15_minimum {x y : ℝ} (hx : |x| ≤ 10) (hy : |y| ≤ 10) :
    let a := Real.arctan (Real.pi * Real.sqrt 2)
    |a| ≤ 10 ∧ ∃ v m, crossInTrayValue (ndConfig [x, y]) = .ok v ∧ crossInTrayValue (ndConfig [a, a]) = .ok m ∧ m ≤ v := by
  have ha : |crossA| ≤ 10 := by
    rw [abs_of_pos crossA_bounds.1]
    have := crossA_bounds.2; have := Real.pi_lt_four; linarith
  refine ⟨ha, _, _, cross_value x y, cross_value crossA crossA, ?_⟩
  rw [cross_inner_abs hx hy, cross_inner_abs ha ha]
  apply mul_le_mul_of_nonpos_left _ (by norm_num)
  apply Real.rpow_le_rpow (by positivity) _ (by norm_num)
  have e : ∀ r : ℝ, Real.exp (100 - r) = Real.exp 100 * Real.exp (-r) := by
    intro r; rw [← Real.exp_add]; congr 1
  have hr : Real.sqrt (crossA ^ 2 + crossA ^ 2) / Real.pi = 2 * (crossC * crossA) := by
    have h2 : Real.sqrt 2 * Real.sqrt 2 = 2 := Real.mul_self_sqrt (by norm_num)
    have : Real.sqrt (crossA ^ 2 + crossA ^ 2) = Real.sqrt 2 * crossA := by
      rw [← two_mul, Real.sqrt_mul (by norm_num), Real.sqrt_sq crossA_bounds.1.le]
    rw [this]; unfold crossC
    have hpi := Real.pi_pos.ne'
    have hs2 : Real.sqrt 2 ≠ 0 := by positivity
    rw [div_eq_iff hpi]
    calc Real.sqrt 2 * crossA = (Real.sqrt 2 * Real.sqrt 2) * crossA / Real.sqrt 2 := by field_simp
      _ = 2 * (1 / (Real.pi * Real.sqrt 2) * crossA) * Real.pi := by rw [h2]; field_simp
  have h := cross_core (x := x) (y := y)
  rw [e, e, hr, abs_mul _ (Real.exp 100 * _), abs_mul _ (Real.exp 100 * _), abs_of_pos (mul_pos (Real.exp_pos 100) (Real.exp_pos _)),
    abs_of_pos (mul_pos (Real.exp_pos 100) (Real.exp_pos _)), abs_of_pos (mul_pos sin_crossA_pos sin_crossA_pos)]
  have e2 : (Real.sin crossA * Real.exp (-(crossC * crossA))) ^ 2 =
      Real.sin crossA * Real.sin crossA * Real.exp (-(2 * (crossC * crossA))) := by
    rw [mul_pow, ← Real.exp_nat_mul]; push_cast; ring_nf
  rw [e2] at h
  have := mul_le_mul_of_nonneg_left h (Real.exp_pos 100).le
  nlinarith

example : |(2 : ℝ)| ≤ 10 ∧ |(-7 : ℝ)| ≤ 10 := by norm_num

/-! ### C16 -/

theorem assign_item {cs : ConfigSpace ℝ} (ρ : Assignment) {hp : Hp ℝ} (hm : hp ∈ cs) :
    (assignConfig cs ρ).item hp.name = .ok (.num (ρ hp.name)) := by
  have : (assignConfig cs ρ).get? hp.name = some (.num (ρ hp.name)) := by
    unfold Config.get? assignConfig
    induction cs with
    | nil => cases hm
    | cons a as ih =>
      by_cases h : a.name = hp.name
      · simp [h]
      · rcases List.mem_cons.1 hm with rfl | hm
        · exact absurd rfl h
        · simpa [h] using ih hm
  simp [Config.item, this]

/-- the one-dimensional term -/
noncomputable def stTerm (a : ℝ) : ℝ := (a ^ 4 - 16 * a ^ 2 + 5 * a) / 2

theorem sum_map_div (l : List ℝ) (f : ℝ → ℝ) (c : ℝ) : (l.map f).sum / c = (l.map fun a => f a / c).sum := by
  induction l with
  | nil => simp
  | cons a as ih => simp [add_div, ih]

theorem st_value {cs cs' : ConfigSpace ℝ} (ρ : Assignment) (hsub : ∀ hp ∈ cs', hp ∈ cs) :
    styblinskiTangValue cs' (assignConfig cs ρ) = .ok ((cs'.map fun hp => stTerm (ρ hp.name)).sum) := by
  have : (cs'.mapM fun hp => (do (← (assignConfig cs ρ).item hp.name).toNum : Py ℝ)) =
      .ok (cs'.map fun hp => ρ hp.name) := by
    apply mapM_ok_map
    intro hp hm
    rw [assign_item ρ (hsub hp hm)]; rfl
  simp only [styblinskiTangValue, this, Py.ok_bind, Py.pure_eq]
  rw [sum_map_div, List.map_map]; rfl

/-- **C16** the value is the sum of one-dimensional terms `(t⁴ - 16 t² + 5 t) / 2` over the coordinates, so the order of
the coordinates is irrelevant. -/
theorem C16_additive (cs : ConfigSpace ℝ) (ρ : Assignment) :
    styblinskiTangValue cs (assignConfig cs ρ) =
      .ok ((cs.map fun hp => ((ρ hp.name) ^ 4 - 16 * (ρ hp.name) ^ 2 + 5 * (ρ hp.name)) / 2).sum) ∧
    ∀ cs', cs.Perm cs' → styblinskiTangValue cs' (assignConfig cs' ρ) = styblinskiTangValue cs (assignConfig cs ρ) := by
  refine ⟨st_value ρ fun _ h => h, fun cs' hp => ?_⟩
  rw [st_value ρ fun _ h => h, st_value ρ fun _ h => h]
  exact congrArg _ (List.Perm.sum_eq (hp.symm.map _))

theorem stTerm_bound (t : ℝ) : -39.16617 ≤ stTerm t := by
  unfold stTerm
  have h : 0 ≤ (t ^ 2 - 8.4305) ^ 2 := sq_nonneg _
  have h2 : 0 ≤ (0.861 : ℝ) * (t + 5 / (2 * 0.861)) ^ 2 := by positivity
  norm_num at *
  nlinarith

/-- **C16** the bound in every dimension. -/
theorem C16_lower_bound (cs : ConfigSpace ℝ) (ρ : Assignment) :
    ∃ v, styblinskiTangValue cs (assignConfig cs ρ) = .ok v ∧ -39.16617 * cs.length ≤ v := by
  refine ⟨_, st_value ρ fun _ h => h, ?_⟩
  induction cs with
  | nil => simp
  | cons a as ih =>
    have := stTerm_bound (ρ a.name)
    simp only [List.map_cons, List.sum_cons, List.length_cons, Nat.cast_add, Nat.cast_one]
    linarith

/-- **C16** the documented minimum `-39.16599 * d` is not a lower bound: every space with at least one axis goes below
it at the documented minimiser. -/
theorem C16_documented_minimum_undercut (cs : ConfigSpace ℝ) (hd : 1 ≤ cs.length) :
    ∃ v, styblinskiTangValue cs (assignConfig cs fun _ => -2.903534) = .ok v ∧ v < -39.16599 * cs.length := by
  refine ⟨_, st_value _ fun _ h => h, ?_⟩
  have key : stTerm (-2.903534) < -39.16599 := by unfold stTerm; norm_num
  have gen : ∀ l : ConfigSpace ℝ, (l.map fun _ => stTerm (-2.903534)).sum = l.length * stTerm (-2.903534) := by
    intro l; simp
  rw [gen]
  have : (1 : ℝ) ≤ cs.length := by exact_mod_cast hd
  nlinarith

end PyPDP
