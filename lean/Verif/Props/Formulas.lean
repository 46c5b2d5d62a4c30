/-
C97: the synthetic functions compute the formulas their documentation refers to.
-/
import Verif.Props.Synthetic
import Mathlib.Algebra.BigOperators.Fin

namespace PyPDP
open Spec

/-- the sum over a list given by a function of the index -/
theorem sum_map_ofFn {d : Nat} (x : Fin d → ℝ) (f : ℝ → ℝ) : ((List.ofFn x).map f).sum = ∑ i, f (x i) := by
  rw [List.map_ofFn, List.sum_ofFn]; rfl

/-- **C97** `Square`, `NegativeSquare` -/
theorem C97_square {d : Nat} (x : Fin d → ℝ) :
    squareValue (ndConfig (List.ofFn x)) = .ok (∑ i, x i ^ 2) ∧ negativeSquareValue (ndConfig (List.ofFn x)) = .ok (1 - ∑ i, x i ^ 2) := by
  have h := sum_map_ofFn x (· ^ 2)
  constructor
  · unfold squareValue; rw [ndConfig_nums, Py.ok_bind, h]; rfl
  · unfold negativeSquareValue; rw [ndConfig_nums, Py.ok_bind, h]; rfl

/-- **C97** `Levy` (sfu.ca/~ssurjano/levy.html): with `w i = 1 + (x i - 1) / 4`,
`sin² (π w₁) + ∑_{i<d} (w i - 1)² (1 + 10 sin² (π w i + 1)) + (w d - 1)² (1 + sin² (2 π w d))`. -/
theorem C97_levy {d : Nat} (x w : Fin (d + 1) → ℝ) (hw : ∀ i, w i = 1 + (x i - 1) / 4) :
    levyValue (d + 1) (ndConfig (List.ofFn x)) = .ok (Real.sin (Real.pi * w 0) ^ 2 +
      ∑ i : Fin d, (w i.castSucc - 1) ^ 2 * (1 + 10 * Real.sin (Real.pi * w i.castSucc + 1) ^ 2) +
      (w (Fin.last d) - 1) ^ 2 * (1 + Real.sin (2 * Real.pi * w (Fin.last d)) ^ 2)) := by
  have e : (List.ofFn x).map (fun a => 1 + (a - 1) / 4) = List.ofFn w := by
    rw [List.map_ofFn]; congr 1; funext i; exact (hw i).symm
  unfold levyValue
  rw [ndConfig_coords (by simp), Py.ok_bind]
  dsimp only
  rw [e]
  have h0 : pyGet (List.ofFn w) 0 = .ok (w 0) := by simp [pyGet]
  have hl : pyGet (List.ofFn w) ((List.ofFn w).length - 1) = .ok (w (Fin.last d)) := by
    simp [pyGet, Fin.last, -List.ofFn_succ]
  have hd : (List.ofFn w).dropLast = List.ofFn fun i : Fin d => w i.castSucc := by
    apply List.ext_getElem
    · simp
    · intro i h1 h2; simp [-List.ofFn_succ]
  rw [h0, Py.ok_bind, hl, Py.ok_bind, hd, sum_map_ofFn]
  rfl

/-- **C97** `Ackley` (sfu.ca/~ssurjano/ackley.html) with `a = 20`, `b = 0.2`, `c = 2 π`. -/
theorem C97_ackley {d : Nat} (hd : d ≠ 0) (x : Fin d → ℝ) :
    ackleyValue d (ndConfig (List.ofFn x)) = .ok (-20 * Real.exp (-(1 / 5) * Real.sqrt ((1 / d) * ∑ i, x i ^ 2)) -
      Real.exp ((1 / d) * ∑ i, Real.cos (2 * Real.pi * x i)) + 20 + Real.exp 1) := by
  unfold ackleyValue
  rw [ndConfig_coords (by simp), Py.ok_bind, if_neg hd]
  dsimp only
  rw [sum_map_ofFn, sum_map_ofFn, ← Finset.sum_div, div_eq_inv_mul, div_eq_inv_mul, ← one_div, show (0.2 : ℝ) = 1 / 5 by norm_num]
  rfl

/-- **C97** `CrossInTray` (sfu.ca/~ssurjano/crossit.html). -/
theorem C97_cross_in_tray (x y : ℝ) :
    crossInTrayValue (ndConfig [x, y]) =
      .ok (-(1 / 10000) * (abs (Real.sin x * Real.sin y * Real.exp (abs (100 - Real.sqrt (x ^ 2 + y ^ 2) / Real.pi))) + 1) ^ ((1 : ℝ) / 10)) := by
  have h1 := ndConfig_item (xs := [x, y]) (i := 0) (by simp)
  have h2 := ndConfig_item (xs := [x, y]) (i := 1) (by simp)
  unfold crossInTrayValue
  have e1 : (ndConfig [x, y]).item "x1" = .ok (.num x) := h1
  have e2 : (ndConfig [x, y]).item "x2" = .ok (.num y) := h2
  rw [e1, e2, show (0.0001 : ℝ) = 1 / 10000 by norm_num, show (0.1 : ℝ) = 1 / 10 by norm_num]
  rfl

/-- **C97** `StyblinskiTang` (sfu.ca/~ssurjano/stybtang.html) over any space: the configuration may list the coordinates in any order. -/
theorem C97_styblinski_tang (cs : ConfigSpace ℝ) (cfg : Config ℝ) (x : Fin cs.length → ℝ)
    (hx : ∀ i, cfg.get? (cs[i]).name = some (.num (x i))) :
    styblinskiTangValue cs cfg = .ok (1 / 2 * ∑ i, (x i ^ 4 - 16 * x i ^ 2 + 5 * x i)) := by
  have h : cs.mapM (fun hp => do (← cfg.item hp.name).toNum) = (.ok (List.ofFn x) : Py (List ℝ)) := by
    rw [Py.mapM_eq_ok]
    refine List.forall₂_iff_get.2 ⟨by simp, fun i h1 h2 => ?_⟩
    have := hx ⟨i, h1⟩
    simp only [List.get_eq_getElem, List.getElem_ofFn]
    simp only [Fin.getElem_fin] at this
    rw [Config.item, this]
    rfl
  unfold styblinskiTangValue
  rw [h, Py.ok_bind, sum_map_ofFn (f := fun a => a ^ 4 - 16 * a ^ 2 + 5 * a), div_eq_inv_mul, ← one_div]
  rfl

/-- `Levy` at `(5, -3)`: `w = (2, 0)`, so `0 + 1 (1 + 10 sin² 1) + 1 = 2 + 10 sin² 1` -/
example : levyValue 2 (ndConfig [5, -3]) = .ok (2 + 10 * Real.sin 1 ^ 2) := by
  have := C97_levy (d := 1) ![5, -3] ![2, 0] (by intro i; fin_cases i <;> norm_num)
  rw [show List.ofFn ![(5 : ℝ), -3] = [5, -3] by simp [List.ofFn_succ]] at this
  rw [this]
  have h : Real.sin (Real.pi * 2) = 0 := by rw [mul_comm]; exact Real.sin_two_pi
  have h' : Real.sin (Real.pi * 2 + 1) = Real.sin 1 := by rw [mul_comm, add_comm]; exact Real.sin_add_two_pi 1
  simp [h, h']
  ring

end PyPDP
