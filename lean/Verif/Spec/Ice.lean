/-
Specification vocabulary for ICE and PDP.
-/
import Verif.Model.Ice
import Verif.Spec.Surrogate
import Verif.Spec.Scaling

namespace PyPDP.Spec
variable {K : Type}

/-- entry `[s, p, f]` of a three-dimensional array, `none` if out of range -/
def at3 (x : List (List (List K))) (s p f : Nat) : Option K := (x[s]?.bind (·[p]?)).bind (·[f]?)

/-- entry `[s, p]` of a two-dimensional array, `none` if out of range -/
def at2 (y : List (List K)) (s p : Nat) : Option K := y[s]?.bind (·[p]?)

/-- shape `(n, m)` -/
def Shape2 (n m : Nat) (y : List (List K)) : Prop := y.length = n ∧ ∀ r ∈ y, r.length = m

/-- shape `(n, m, f)` -/
def Shape3 (n m f : Nat) (x : List (List (List K))) : Prop := x.length = n ∧ ∀ r ∈ x, Shape2 m f r

/-- Attributes as the constructor leaves them, for samples of the right width and distinct selected hyperparameters of the space. -/
structure ValidCfg (c : IceCfg K) : Prop where
  wf : c.space.WF
  sel_mem : ∀ hp ∈ c.selected, hp ∈ c.space
  sel_distinct : (c.selected.map Hp.name).Nodup
  sel_ne : c.selected ≠ []
  rows : ∀ r ∈ c.samples, r.length = c.space.length
  num_samples : c.numSamples = c.samples.length
  num_grid : c.numGrid = c.perAxis ^ c.selected.length

/-- `f` is the feature (column) of hyperparameter `hp` -/
def IsFeature (space : ConfigSpace K) (hp : Hp K) (f : Nat) : Prop := ∃ h, space[f]? = some h ∧ h.name = hp.name

/-- `grid` enumerates all `k`-tuples over the evenly spaced points of `[0, 1]` exactly once -/
def IsFullGrid [Field K] (k g : Nat) (grid : List (List K)) : Prop :=
  grid.Nodup ∧ ∀ t : List K, t ∈ grid ↔ t.length = k ∧ ∀ v ∈ t, ∃ i < g, v = if g = 1 then 0 else (i : K) / ((g : K) - 1)

/-- nothing calculated yet (a new object, or one that was just reset) -/
def Fresh (s : IceState K) : Prop := s.x = none ∧ s.y = none ∧ s.v = none

/-- the calculation with the attributes now in force, and the grid points if they are already stored -/
def calcNow [Field K] (s : IceState K) : Py (IceData K) := do
  let g ← (match s.grid with
    | some g => .ok g
    | none => gridPoints s.cfg.selected.length s.cfg.perAxis)
  iceCalc s.cfg g

/-- the arrays of `d` are stored -/
def Stored (s : IceState K) (d : IceData K) : Prop := s.x = some d.x ∧ s.y = some d.y ∧ s.v = some d.v

def IsDataRead : IceOp K → Prop
  | .readX => True
  | .readY => True
  | .readV => True
  | _ => False

def IsReset : IceOp K → Prop
  | .reset => True
  | _ => False

/-- What one hyperparameter of the implied space must be: `col` are the normalised values of the curve for this feature. -/
def ImpliedBy (hp : Hp ℝ) (l u : ℝ) (g : Bool) (col : Set ℝ) (out : Hp ℝ) : Prop :=
  out.name = hp.name ∧
  ((∃ e, col = {e} ∧ out.kind = .constant (.num (interpolate l u g e))) ∨
   (∃ a b, a ∈ col ∧ b ∈ col ∧ a < b ∧ (∀ e ∈ col, a ≤ e ∧ e ≤ b) ∧ l ≤ interpolate l u g a ∧
     interpolate l u g a < interpolate l u g b ∧ interpolate l u g b ≤ u ∧
     ((hp.kind = .float l u g ∧ out.kind = .float (interpolate l u g a) (interpolate l u g b) g) ∨
      (hp.kind = .integer l u g ∧ out.kind = .integer (interpolate l u g a) (interpolate l u g b) g))))

/-- the values of feature `f` along the curve -/
def colOf (x : List (List ℝ)) (f : Nat) : Set ℝ := {e | ∃ r ∈ x, r[f]? = some e}

end PyPDP.Spec
