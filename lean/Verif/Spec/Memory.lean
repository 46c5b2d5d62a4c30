/-
Specification vocabulary for memory.
-/
import Verif.Model.Memory
import Verif.Spec.Ice

namespace PyPDP.Spec
variable {K : Type}

/-- the array lives in the memory and has no entry twice -/
def Lives (m : Mem K) (a : Arr) : Prop := a.buf < m.length ∧ a.pos.Nodup ∧ ∀ i ∈ a.pos, i < (m.buffer a.buf).length

/-- Every buffer of `m` is a buffer of `m'`, with the same contents: nothing that existed was overwritten. -/
def Untouched (m m' : Mem K) : Prop := m <+: m'

/-- The surrogate predicts by the function `p`, returns its means in an array that did not exist before, and overwrites nothing. -/
def PredictsFresh [Zero K] (p : Predict K) (pred : PredictM K) : Prop :=
  ∀ (m : Mem K) (a : Arr) (rows cols : Nat) (X : List (List K)), Lives m a → Shape2 rows cols X → X.flatten = m.read a →
    ∃ m' r, pred m a rows cols = (m', r) ∧ Untouched m m' ∧
      (∀ e, p X = .error e → r = .error e) ∧
      ∀ ms ss, p X = .ok (ms, ss) →
        ∃ am as, r = .ok (am, as) ∧ Lives m' am ∧ Lives m' as ∧ m.length ≤ am.buf ∧ m'.read am = ms ∧ m'.read as = ss

end PyPDP.Spec
