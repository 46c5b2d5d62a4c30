/-
Model of ice.py `ICECurve.implied_config_space` with rounded arithmetic: `fl` is applied to the exact result of every single
operation of utils/utils.py `unscale`, `log` and `exp` are the functions computed by `np.log` and `np.exp`.
-/
import Verif.Model.Ice
import Mathlib.Analysis.SpecialFunctions.Log.Basic

namespace PyPDP

/-- the functions that are computed instead of the exact ones -/
structure ComputedExp where
  fl : ℝ → ℝ
  log : ℝ → ℝ
  exp : ℝ → ℝ

/-- utils/utils.py:100-107, the numerical unscalers -/
noncomputable def unscaleNumF (c : ComputedExp) (lower upper : ℝ) (log : Bool) (t : ℝ) : ℝ :=
  if log then
    min upper (max lower (c.exp (c.fl (c.fl (t * c.fl (c.log upper - c.log lower)) + c.log lower))))
  else c.fl (c.fl (t * c.fl (upper - lower)) + lower)

/-- utils/utils.py:99-121: the loop over the hyperparameters, for an array with one axis -/
noncomputable def unscaleRowF (c : ComputedExp) (x : List ℝ) : Nat → List (Hp ℝ) → List (Val ℝ) → Py (List (Val ℝ))
  | _, [], cur => .ok cur
  | i, hp :: hps, cur =>
    match hp.kind with
    | .ordinal _ => .error .type
    | .constant _ => .error .type
    | .categorical _ => do
      let cur ← updRow i (fun _ => .error .type) x cur
      unscaleRowF c x (i + 1) hps cur
    | .float l u g => do
      let cur ← updRow i (fun e => .ok (.num (unscaleNumF c l u g e))) x cur
      unscaleRowF c x (i + 1) hps cur
    | .integer l u g => do
      let cur ← updRow i (fun e => .ok (.num (unscaleNumF c l u g e))) x cur
      unscaleRowF c x (i + 1) hps cur

/-- ConfigSpace `check_int`: a float is accepted as an integer if it is at most `tol` (10⁻⁸) above its integral part (0 or more); the
integral part is used. -/
noncomputable def checkInt (tol x : ℝ) : Py ℝ :=
  let i : ℝ := if 0 ≤ x then ((⌊x⌋ : Int) : ℝ) else ((⌈x⌉ : Int) : ℝ)
  if tol < |i - x| then .error .value else .ok i

/-- constructors of ConfigSpace called in ice.py:150 -/
noncomputable def rebuildHpF (tol : ℝ) (hp : Hp ℝ) (lo hi : ℝ) : Py (Hp ℝ) :=
  match hp.kind with
  | .float _ _ g =>
    if hi ≤ lo ∨ (g = true ∧ lo ≤ 0) then .error .value else .ok ⟨hp.name, .float lo hi g⟩
  | .integer _ _ g => do
    let a ← checkInt tol lo
    let b ← checkInt tol hi
    if b ≤ a ∨ (g = true ∧ a ≤ 0) then .error .value else .ok ⟨hp.name, .integer a b g⟩
  | _ => .error .assertion                                                    -- 146

/-- ice.py:146-150: one hyperparameter of the implied space -/
noncomputable def impliedHpF (tol : ℝ) (hp : Hp ℝ) (lo hi : Val ℝ) : Py (Hp ℝ) :=
  match hp.numerical?, lo, hi with
  | some _, .num a, .num b => if a = b then .ok ⟨hp.name, .constant (.num a)⟩ else rebuildHpF tol hp a b
  | _, _, _ => .error .assertion

/-- the loop of ice.py:145-151 over `zip(hps, min_values, max_values)` -/
noncomputable def impliedLoopF (tol : ℝ) : ConfigSpace ℝ → List (Val ℝ) → List (Val ℝ) → Py (ConfigSpace ℝ)
  | hp :: hps, lo :: los, hi :: his => do
    let h ← impliedHpF tol hp lo hi
    let rest ← impliedLoopF tol hps los his
    return h :: rest
  | _, _, _ => .ok []

/-- ice.py:139-153 `ICECurve.implied_config_space` -/
noncomputable def impliedConfigSpaceF (c : ComputedExp) (tol : ℝ) (curve : IceCurve ℝ) : Py (ConfigSpace ℝ) := do
  let mins ← colFold min curve.x
  let maxs ← colFold max curve.x
  let lo ← unscaleRowF c mins 0 curve.space (mins.map .num)
  let hi ← unscaleRowF c maxs 0 curve.space (maxs.map .num)
  impliedLoopF tol curve.space lo hi

end PyPDP
