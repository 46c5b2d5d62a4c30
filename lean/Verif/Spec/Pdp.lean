/-
Specification vocabulary for PDPs.
-/
import Verif.Model.Pdp
import Verif.Spec.Ice

namespace PyPDP.Spec
variable {K : Type}

/-- `col` lists the values `[0, p], [1, p], …` of a two-dimensional array -/
def IsColumn (y : List (List K)) (p : Nat) (col : List K) : Prop :=
  col.length = y.length ∧ ∀ s < y.length, col[s]? = at2 y s p

/-- `out` is the average over the first axis of an array of shape `(n, P)` -/
def IsAverage [Field K] (P : Nat) (y : List (List K)) (out : List K) : Prop :=
  out.length = P ∧ ∀ p < P, ∃ col, IsColumn y p col ∧ out[p]? = some (col.sum / (y.length : K))

/-- `out` is the average over the first axis of an array of shape `(n, P, F)` -/
def IsAverage3 [Field K] (P F : Nat) (x : List (List (List K))) (out : List (List K)) : Prop :=
  Shape2 P F out ∧ ∀ p < P, ∀ f < F, ∃ col : List K, col.length = x.length ∧ (∀ s < x.length, col[s]? = at3 x s p f) ∧
    at2 out p f = some (col.sum / (x.length : K))

/-- reading the ICE object gives the arrays of `d` -/
def Gives [Field K] (i : IceState K) (d : IceData K) : Prop := Stored i d ∨ (Fresh i ∧ calcNow i = .ok d)

/-- nothing read from the PDP yet -/
def PdpFresh (s : PdpState K) : Prop := s.x = none ∧ s.y = none ∧ s.v = none

end PyPDP.Spec
