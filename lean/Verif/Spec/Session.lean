/-
Specification vocabulary for C162: what a plotting function does to the figures of pyplot.
-/
import Verif.Model.Session

namespace PyPDP.Spec
variable {K α S : Type}

/-- The figures and axes refer to each other properly. -/
structure Sound (w : Plt K) : Prop where
  figure : ∀ i, w.current = some i → i < w.figures.length
  made : ∀ f ∈ w.figures, ∀ r ∈ f.axes, r < w.count
  current : ∀ f ∈ w.figures, ∀ r, f.current = some r → r ∈ f.axes

/-- `r` is the current axis of the current figure. -/
def Current (w : Plt K) (r : Nat) : Prop := ∃ (i : Nat) (f : Figure), w.current = some i ∧ w.figures[i]? = some f ∧ f.current = some r

/-- `w'` arises from `w` by one new, empty axis, which is the current one. It is in the current figure; only if there is no figure it is in a new one. -/
structure Opened (w w' : Plt K) : Prop where
  count : w'.count = w.count + 1
  empty : w'.axes w.count = Ax.new
  others : ∀ r, r ≠ w.count → w'.axes r = w.axes r
  current : Current w' w.count
  figures : (w'.figures.length = w.figures.length ∧ w'.current = w.current) ∨
    (w.current = none ∧ w'.figures.length = w.figures.length + 1 ∧ w'.current = some w.figures.length)
  rest : ∀ i, w'.current ≠ some i → w'.figures[i]? = w.figures[i]?

/-- `F` draws with `f` on the axis it is given, on the current axis if it is given none, and on a new one if there is none. Every other axis
and the choice of the current one stay as they are; whatever is not an axis is refused. -/
structure DrawsOn (f : Plot K α) (F : AxArg → Sess K α) : Prop where
  given : ∀ r w, F (.axis r) w = ({ w with axes := Function.update w.axes r (f (w.axes r)).1 }, (f (w.axes r)).2)
  current : ∀ w r, Current w r → F .none w = F (.axis r) w
  fresh : ∀ w, Sound w → (¬ ∃ r, Current w r) → ∃ w', Opened w w' ∧ Sound w' ∧ F .none w = F (.axis w.count) w'
  other : ∀ w, F .other w = (w, .error .assertion)

/-- The same for a function that also changes the state `s` of an object; whatever is not an axis is refused before. -/
structure DrawsWith (s : S) (f : Ax K → S × Ax K × Py α) (F : AxArg → Plt K → S × Plt K × Py α) : Prop where
  given : ∀ r w, F (.axis r) w =
    ((f (w.axes r)).1, { w with axes := Function.update w.axes r (f (w.axes r)).2.1 }, (f (w.axes r)).2.2)
  current : ∀ w r, Current w r → F .none w = F (.axis r) w
  fresh : ∀ w, Sound w → (¬ ∃ r, Current w r) → ∃ w', Opened w w' ∧ Sound w' ∧ F .none w = F (.axis w.count) w'
  other : ∀ w, F .other w = (s, w, .error .assertion)

/-- `w'` arises from `w` by a new figure, the current one, with the given new axes, the last of them current. -/
structure NewFigure (w w' : Plt K) (axes : List (Ax K)) : Prop where
  count : w'.count = w.count + axes.length
  drawn : ∀ i (h : i < axes.length), w'.axes (w.count + i) = axes[i]
  others : ∀ r < w.count, w'.axes r = w.axes r
  figures : w'.figures = w.figures ++ [⟨(List.range axes.length).map (w.count + ·), (List.range axes.length).getLast?.map (w.count + ·)⟩]
  current : w'.current = some w.figures.length

/-- the first `n` numbers of a generator -/
def numbers {G : Type} (draw : G → K × G) (g : G) : Nat → List K
  | 0 => []
  | n + 1 => (draw g).1 :: numbers draw (draw g).2 n

/-- the generator after `n` numbers -/
def advance {G : Type} (draw : G → K × G) (g : G) (n : Nat) : G := (fun g => (draw g).2)^[n] g

end PyPDP.Spec
