/-
Model of pyPDP/blackbox_functions/__init__.py and synthetic_functions.py.
-/
import Verif.Model.Utils
import Mathlib.Analysis.SpecialFunctions.Trigonometric.Basic
import Mathlib.Analysis.SpecialFunctions.Pow.Real
import Mathlib.Algebra.Order.Floor.Ring

namespace PyPDP

/-! ### ConfigSpace: building spaces and configurations -/

section space
variable {K : Type} [Field K] [LinearOrder K] [FloorRing K]

/-- The library decides in which order `list(cs.values())` yields the added hyperparameters (newer versions: insertion
order, ConfigSpace 0.7: sorted by name); a parameter of the model, used only through `Perm`-style hypotheses. -/
abbrev SpaceOrder (K : Type) := List (Hp K) → List (Hp K)

/-- An argument of `config_space_nd` that may be a scalar or an iterable with one entry per axis. -/
inductive AxisArg (α : Type _)
  | scalar (a : α)
  | iter (as : List α)

/-- blackbox_functions/__init__.py:93-98 -/
def AxisArg.expand {α : Type _} (d : Nat) : AxisArg α → List α
  | .scalar a => List.replicate d a
  | .iter as => as

/-- blackbox_functions/__init__.py:104-107. `UniformFloatHyperparameter` raises ValueError for `upper <= lower` and for a
log axis with `lower <= 0`. -/
def axisHp (name : String) (low high : K) (log : Bool) : Py (Hp K) :=
  if low = high then .ok ⟨name, .constant (.num low)⟩
  else if high ≤ low then .error .value
  else if log = true ∧ low ≤ 0 then .error .value
  else .ok ⟨name, .float low high log⟩

/-- blackbox_functions/__init__.py:102-108: the loop over the axes, starting with number `i`. -/
def axisLoop (pfx : String) : Nat → List (K × K × Bool) → Py (List (Hp K))
  | _, [] => .ok []
  | i, (low, high, log) :: rest => do
    let hp ← axisHp (pfx ++ toString (i + 1)) low high log
    let hps ← axisLoop pfx (i + 1) rest
    return hp :: hps

/-- blackbox_functions/__init__.py:73-109 `config_space_nd`. -/
def configSpaceNd (order : SpaceOrder K) (dimensions : K) (lower upper : AxisArg K) (log : AxisArg Bool)
    (pfx : String := "x") : Py (ConfigSpace K) :=
  if ((⌊dimensions⌋ : Int) : K) ≠ dimensions then .error .assertion          -- line 91
  else do
    let d := ⌊dimensions⌋.toNat
    let hps ← axisLoop pfx 0 ((lower.expand d).zip ((upper.expand d).zip (log.expand d)))
    return order hps

/-- one hyperparameter of `CS.Configuration(cs, values=kwargs)`: missing or illegal values are ValueErrors. -/
def bindValue (kwargs : List (String × Val K)) (hp : Hp K) : Py (Hp K × Val K) :=
  match kwargs.find? (fun p => p.1 == hp.name) with
  | none => .error .value
  | some p => if hp.legal p.2 then .ok (hp, p.2) else .error .value

/-- `CS.Configuration(cs, values=kwargs)` (library contract): ValueError (or a subclass) for an unknown name, a missing
hyperparameter or an illegal value; `inv hp v` is the normalised number stored in the vector for value `v`. -/
def mkConfiguration (inv : Hp K → Val K → K) (cs : ConfigSpace K) (kwargs : List (String × Val K)) : Py (Config K) :=
  if ∃ p ∈ kwargs, ∀ hp ∈ cs, hp.name ≠ p.1 then .error .value
  else do
    let vals ← cs.mapM (bindValue kwargs)
    return ⟨vals.map fun p => inv p.1 p.2, vals.map fun p => (p.1.name, p.2)⟩

end space

/-! ### Blackbox functions -/

/-- `config[name]` -/
def Config.item {K : Type} (c : Config K) (name : String) : Py (Val K) :=
  match c.get? name with
  | some v => .ok v
  | none => .error .key

/-- numpy arithmetic on an entry: a string is a TypeError -/
def Val.toNum {K : Type} : Val K → Py K
  | .num x => .ok x
  | .str _ => .error .type

/-- `BlackboxFunction` (blackbox_functions/__init__.py:10-28): config space and `value_from_config`. -/
structure BlackboxFn (K : Type) where
  cs : ConfigSpace K
  value : Config K → Py K

/-- blackbox_functions/__init__.py:16-18 `__call__`. -/
def BlackboxFn.call {K : Type} [Field K] [LinearOrder K] [FloorRing K] (inv : Hp K → Val K → K) (f : BlackboxFn K)
    (kwargs : List (String × Val K)) : Py K := do
  let config ← mkConfiguration inv f.cs kwargs
  f.value config

/-- blackbox_functions/__init__.py:27-28 `BlackboxFunction.pd_integral` (default). -/
def pdIntegralDefault {K : Type} (_hps : List (SelItem K)) : Py (BlackboxFn K) := .error .notImplemented

/-- blackbox_functions/__init__.py:31-50 `for_n_dimensions` with the class defaults. -/
def forNDimensions {K : Type} [Field K] [LinearOrder K] [FloorRing K] (order : SpaceOrder K) (defaultLower defaultUpper : K)
    (log : Bool) (value : ConfigSpace K → Config K → Py K) (dimensions : K) (lower upper : Option (AxisArg K)) :
    Py (BlackboxFn K) := do
  let cs ← configSpaceNd order dimensions (lower.getD (.scalar defaultLower)) (upper.getD (.scalar defaultUpper))
    (.scalar log)
  return ⟨cs, value cs⟩

section synthetic

/-- `list(config.values())` as numbers -/
def configNums (config : Config ℝ) : Py (List ℝ) := config.values.mapM fun p => p.2.toNum

/-- `np.asarray([config[f"x{i + 1}"] for i in range(ndim)])` -/
def configCoords (ndim : Nat) (config : Config ℝ) : Py (List ℝ) :=
  (List.range ndim).mapM fun i => do (← config.item ("x" ++ toString (i + 1))).toNum

/-- synthetic_functions.py:14-16 `Square.value_from_config` -/
def squareValue (config : Config ℝ) : Py ℝ := do
  let x ← configNums config
  return (x.map (· ^ 2)).sum

/-- synthetic_functions.py:19-21 `NegativeSquare.value_from_config` -/
def negativeSquareValue (config : Config ℝ) : Py ℝ := do
  let x ← configNums config
  return 1 - (x.map (· ^ 2)).sum

/-- synthetic_functions.py:38-50 `Levy.value_from_config`; `w[0]` of an empty array is an IndexError. -/
noncomputable def levyValue (ndim : Nat) (config : Config ℝ) : Py ℝ := do
  let x ← configCoords ndim config
  let w := x.map fun a => 1 + (a - 1) / 4
  let w0 ← pyGet w 0
  let term1 := Real.sin (Real.pi * w0) ^ 2
  let term2 := (w.dropLast.map fun a => (a - 1) ^ 2 * (1 + 10 * Real.sin (Real.pi * a + 1) ^ 2)).sum
  let wl ← pyGet w (w.length - 1)
  let term3 := (wl - 1) ^ 2 * (1 + Real.sin (2 * Real.pi * wl) ^ 2)
  return term1 + term2 + term3

/-- synthetic_functions.py:68-79 `Ackley.value_from_config` (`a = 20, b = 0.2, c = 2π`); division by `d = 0` is nan. -/
noncomputable def ackleyValue (ndim : Nat) (config : Config ℝ) : Py ℝ := do
  let x ← configCoords ndim config
  if ndim = 0 then .error .nan
  else
    let term1 := Real.exp (-(0.2 : ℝ) * Real.sqrt ((x.map (· ^ 2)).sum / ndim))
    let term2 := Real.exp ((x.map fun a => Real.cos (2 * Real.pi * a) / ndim).sum)
    return -20 * term1 - term2 + 20 + Real.exp 1

/-- synthetic_functions.py:97-102 `CrossInTray.value_from_config` -/
noncomputable def crossInTrayValue (config : Config ℝ) : Py ℝ := do
  let x1 ← (← config.item "x1").toNum
  let x2 ← (← config.item "x2").toNum
  let term1 := abs (Real.sin x1 * Real.sin x2 * Real.exp (abs (100 - Real.sqrt (x1 ^ 2 + x2 ^ 2) / Real.pi))) + 1
  return -(0.0001 : ℝ) * term1 ^ (0.1 : ℝ)

/-- synthetic_functions.py:119-122 `StyblinskiTang.value_from_config` -/
noncomputable def styblinskiTangValue (cs : ConfigSpace ℝ) (config : Config ℝ) : Py ℝ := do
  let x ← cs.mapM fun hp => do (← config.item hp.name).toNum
  return (x.map fun a => a ^ 4 - 16 * a ^ 2 + 5 * a).sum / 2

/-- synthetic_functions.py:124-126 `_styblinski_tang_integral` -/
noncomputable def styblinskiTangIntegral (x : ℝ) : ℝ :=
  0.5 * (0.2 * x ^ 5 - 16 / 3 * x ^ 3 + 2.5 * x ^ 2)

/-- synthetic_functions.py:139-146: the constant added for one integrated hyperparameter -/
noncomputable def integralOffset (hp : Hp ℝ) : Py ℝ :=
  match hp.numerical? with
  | none => .error .assertion
  | some (lower, upper, _) =>
    .ok ((styblinskiTangIntegral upper - styblinskiTangIntegral lower) / (upper - lower))

/-- synthetic_functions.py:128-163 `StyblinskiTang.pd_integral` with `return_offset=True`: the function and the offset.
(`return_offset=False` returns only the function.) -/
noncomputable def styblinskiTangPdIntegral (order : SpaceOrder ℝ) (cs : ConfigSpace ℝ) (hyperparameters : List (SelItem ℝ)) :
    Py (BlackboxFn ℝ × ℝ) :=
  if hyperparameters.length = 0 then .error .value                        -- line 134
  else do
    let hps ← convertHyperparameters (.many hyperparameters) cs            -- line 137
    let offsets ← hps.mapM integralOffset
    let offset := offsets.sum                                              -- lines 139-146
    let reduced := order (cs.filter fun hp => hps.all fun s => s.name ≠ hp.name)   -- lines 148-153
    return (⟨reduced, fun config => do return (← styblinskiTangValue reduced config) + offset⟩, offset)

end synthetic
end PyPDP
