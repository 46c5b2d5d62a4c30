/-
The part of the external library ConfigSpace that pyPDP relies on: hyperparameters, the ordered collection
`list(cs.values())`, look-up by name, vector index, configurations.
-/
import Verif.Model.Py
import Mathlib.Algebra.Order.Floor.Defs

namespace PyPDP

/-- Value of a hyperparameter in a configuration. -/
inductive Val (K : Type _)
  | num (x : K)
  | str (s : String)
  deriving DecidableEq, Repr

/-- Kinds of hyperparameters (`CSH.*`). `float` and `integer` are the `CSH.NumericalHyperparameter`s, they have
attributes `lower`, `upper`, `log`; the other kinds do not (AttributeError). -/
inductive HpKind (K : Type _)
  | float (lower upper : K) (log : Bool)
  | integer (lower upper : K) (log : Bool)
  | categorical (choices : List String)
  | ordinal (sequence : List String)
  | constant (value : Val K)
  deriving DecidableEq, Repr

structure Hp (K : Type _) where
  name : String
  kind : HpKind K
  deriving DecidableEq, Repr

/-- `list(cs.values())`. Position in this list = index in the configuration vector
(`cs.get_idx_by_hyperparameter_name`, contract of ConfigSpace). -/
abbrev ConfigSpace (K : Type _) := List (Hp K)

variable {K : Type _}

/-- `isinstance(hp, CSH.NumericalHyperparameter)` together with `hp.lower, hp.upper, hp.log`. -/
def Hp.numerical? (hp : Hp K) : Option (K × K × Bool) :=
  match hp.kind with
  | .float l u g => some (l, u, g)
  | .integer l u g => some (l, u, g)
  | _ => none

def Hp.isNumerical (hp : Hp K) : Bool := hp.numerical?.isSome

/-- `isinstance(hp, CSH.Constant)` with `hp.value`. -/
def Hp.constant? (hp : Hp K) : Option (Val K) :=
  match hp.kind with
  | .constant v => some v
  | _ => none

/-- Reading the attributes `hp.lower / hp.upper / hp.log`: AttributeError for the kinds that do not have them. -/
def Hp.bounds (hp : Hp K) : Py (K × K × Bool) :=
  match hp.numerical? with
  | some b => .ok b
  | none => .error .attribute

namespace ConfigSpace

/-- ConfigSpace never holds two hyperparameters of the same name. -/
def WF (cs : ConfigSpace K) : Prop := (cs.map Hp.name).Nodup

instance (cs : ConfigSpace K) : Decidable cs.WF := by unfold WF; infer_instance

/-- `cs[name]` (KeyError if absent). -/
def get (cs : ConfigSpace K) (name : String) : Py (Hp K) :=
  match cs.find? (fun hp => hp.name == name) with
  | some hp => .ok hp
  | none => .error .key

/-- `cs.get_idx_by_hyperparameter_name(name)` (KeyError if absent). -/
def idx (cs : ConfigSpace K) (name : String) : Py Nat :=
  match cs.findIdx? (fun hp => hp.name == name) with
  | some i => .ok i
  | none => .error .key

end ConfigSpace

/-- A `CS.Configuration`: its normalised vector (`get_array()`) and its values by name. -/
structure Config (K : Type _) where
  vector : List K
  values : List (String × Val K)
  deriving DecidableEq, Repr

/-- `configuration.get(name)`: `None` for an unknown name. -/
def Config.get? (c : Config K) (name : String) : Option (Val K) :=
  (c.values.find? (fun p => p.1 == name)).map (·.2)

/-- Legal values of a hyperparameter (ConfigSpace contract; used by `CS.Configuration(cs, values=...)`). -/
def Hp.legal [Field K] [LinearOrder K] [FloorRing K] (hp : Hp K) (v : Val K) : Bool :=
  match hp.kind, v with
  | .float l u _, .num x => decide (l ≤ x ∧ x ≤ u)
  | .integer l u _, .num x => decide (l ≤ x ∧ x ≤ u ∧ ((⌊x⌋ : Int) : K) = x)
  | .categorical cs, .str s => decide (s ∈ cs)
  | .ordinal cs, .str s => decide (s ∈ cs)
  | .constant w, v => decide (v = w)
  | _, _ => false

end PyPDP
