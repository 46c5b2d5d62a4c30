/-
The classes of pyPDP/blackbox_functions/synthetic_functions.py with their class attributes and constructors.
Model/Blackbox has their `value_from_config`.
-/
import Verif.Model.Blackbox

namespace PyPDP

/-- the classes derived from `BlackboxFunctionND` -/
inductive SynthClass
  | square
  | negativeSquare
  | levy
  | ackley
  | styblinskiTang
  deriving DecidableEq, Repr

namespace SynthClass

/-- `_default_lower`: blackbox_functions/__init__.py:32, overridden in synthetic_functions.py:35 (Levy) and :61 (Ackley) -/
noncomputable def defaultLower : SynthClass → ℝ
  | .levy => -10
  | .ackley => -32.768
  | _ => -5

/-- `_default_upper`: blackbox_functions/__init__.py:33, overridden in synthetic_functions.py:36 (Levy) and :62 (Ackley) -/
noncomputable def defaultUpper : SynthClass → ℝ
  | .levy => 10
  | .ackley => 32.768
  | _ => 5

/-- `value_from_config` of the class; `self.ndim` is the number of hyperparameters (blackbox_functions/__init__.py:13) -/
noncomputable def value (k : SynthClass) (cs : ConfigSpace ℝ) : Config ℝ → Py ℝ :=
  match k with
  | .square => squareValue
  | .negativeSquare => negativeSquareValue
  | .levy => levyValue cs.length
  | .ackley => ackleyValue cs.length
  | .styblinskiTang => styblinskiTangValue cs

/-- blackbox_functions/__init__.py:36-39 `cls(config_space)`; without an argument a space with one axis. -/
noncomputable def init (k : SynthClass) (order : SpaceOrder ℝ) : Option (ConfigSpace ℝ) → Py (BlackboxFn ℝ)
  | some cs => .ok ⟨cs, k.value cs⟩
  | none => do
    let cs ← configSpaceNd order 1 (.scalar k.defaultLower) (.scalar k.defaultUpper) (.scalar false)
    return ⟨cs, k.value cs⟩

/-- blackbox_functions/__init__.py:41-48 `cls.for_n_dimensions` -/
noncomputable def forN (k : SynthClass) (order : SpaceOrder ℝ) (dimensions : ℝ) (lower upper : Option (AxisArg ℝ)) : Py (BlackboxFn ℝ) :=
  forNDimensions order k.defaultLower k.defaultUpper false k.value dimensions lower upper

end SynthClass

/-- synthetic_functions.py:93-94 `CrossInTray(lower=..., upper=...)` (defaults -10 and 10) -/
noncomputable def crossInTrayInit (order : SpaceOrder ℝ) (lower upper : ℝ) : Py (BlackboxFn ℝ) := do
  let cs ← configSpaceNd order 2 (.scalar lower) (.scalar upper) (.scalar false)
  return ⟨cs, crossInTrayValue⟩

end PyPDP
