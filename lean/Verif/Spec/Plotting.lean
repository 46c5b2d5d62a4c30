/-
Specification vocabulary for C70-C75: sequences of calls on one axis, natural units of a column, colours.
-/
import Verif.Model.Plotting

namespace PyPDP.Spec
variable {K : Type}

/-- The axis with further shapes, everything else unchanged. -/
def _root_.PyPDP.Ax.draw (ax : Ax K) (ss : List (Shape K)) : Ax K := { ax with shapes := ax.shapes ++ ss }

/-- One call `check_and_set_axis(ax, hps, set_bounds, ylabel)`. -/
structure AxisCall (K : Type) where
  hps : List (Hp K)
  setBounds : Bool
  ylabel : String

/-- Calls on one axis, one after the other, going on after exceptions: final axis and the outcome of every call. -/
def axisRun : Ax K → List (AxisCall K) → Ax K × List (Py Unit)
  | ax, [] => (ax, [])
  | ax, c :: cs =>
    let (ax', r) := checkAndSetAxis c.hps c.setBounds c.ylabel ax
    let (ax'', rs) := axisRun ax' cs
    (ax'', r :: rs)

/-- A selection of one or two hyperparameters. -/
def OneOrTwo (hps : List (Hp K)) : Prop := hps.length = 1 ∨ hps.length = 2

/-- The ends of an axis for a hyperparameter, if it has any. -/
def Limits (hp : Hp K) (lim : Option (K × K)) (log : Bool) : Prop :=
  ∀ l u g, hp.kind = .float l u g ∨ hp.kind = .integer l u g → lim = some (l, u) ∧ (g = true → log = true)

/-- A valid colour: all channels in `[0, 1]`. -/
def ValidRgb [Field K] [LinearOrder K] (c : Rgb K) : Prop :=
  (0 ≤ c.1 ∧ c.1 ≤ 1) ∧ (0 ≤ c.2.1 ∧ c.2.1 ≤ 1) ∧ (0 ≤ c.2.2 ∧ c.2.2 ≤ 1)

/-- The lightness of a colour: the middle between its largest and its smallest channel. -/
def lightness [Field K] [LinearOrder K] (c : Rgb K) : K := (max c.1 (max c.2.1 c.2.2) + min c.1 (min c.2.1 c.2.2)) / 2

/-- The standard deviations a caller has given: directly, or as variances. -/
def GivenStds (stds variances : Option (List ℝ)) (s : List ℝ) : Prop :=
  (stds = some s ∧ variances = none) ∨ (stds = none ∧ ∃ v, variances = some v ∧ List.Forall₂ (fun a b => b = Real.sqrt a) v s)

/-- Band `a` lies inside band `b`: at every coordinate. -/
def Inside [LE K] : Shape K → Shape K → Prop
  | .band _ xs lo hi, .band _ xs' lo' hi' => xs = xs' ∧ List.Forall₂ (· ≤ ·) lo' lo ∧ List.Forall₂ (· ≤ ·) lo hi ∧ List.Forall₂ (· ≤ ·) hi hi'
  | _, _ => False

/-- `ys` is `means + f * stds`, entry by entry. -/
def OffsetOf [Field K] (f : K) (means stds ys : List K) : Prop :=
  ys.length = means.length ∧ ∀ (i : Nat) m s, means[i]? = some m → stds[i]? = some s → ys[i]? = some (m + f * s)

/-- A band of `f` standard deviations on both sides of the means. -/
def BandOf [Field K] (color : String) (x means stds : List K) (f : K) (s : Shape K) : Prop :=
  ∃ lo hi, s = .band color x lo hi ∧ OffsetOf (-f) means stds lo ∧ OffsetOf f means stds hi

/-- The two lines `k` standard deviations below and above the means. -/
def LinesOf [Field K] (color : String) (x means stds : List K) (k : K) (ss : List (Shape K)) : Prop :=
  ∃ lo hi, ss = [.line color x lo, .line color x hi] ∧ OffsetOf (-k) means stds lo ∧ OffsetOf k means stds hi

/-- The hyperparameters of a space that are not constant, in order. -/
def varying (cs : ConfigSpace K) : List (Hp K) :=
  cs.filter fun hp => match hp.kind with
    | .constant _ => false
    | _ => true

/-- Exactly the constants of the space, by name. -/
def ConstantsOf (cs : ConfigSpace K) (consts : List (String × Val K)) : Prop :=
  (consts.map (·.1)).Sublist (cs.map Hp.name) ∧ ∀ name v, (name, v) ∈ consts ↔ (⟨name, .constant v⟩ : Hp K) ∈ cs

end PyPDP.Spec
