/-
Vocabulary for C168: the hyperparameters in another order, some axes turned around.
-/
import Verif.Spec.Stability

namespace PyPDP.Spec
variable {K : Type}

/-- Position `k` of the one space is position `place k` of the other; every position below `n` is used once. -/
structure Rearranges (n : Nat) (place : Nat → Nat) : Prop where
  lt : ∀ k, k < n → place k < n
  inj : ∀ k l, k < n → l < n → place k = place l → k = l

/-- `hp` of the one space is `hp'` of the other -/
def MovedTo (space space' : ConfigSpace K) (place : Nat → Nat) (hp hp' : Hp K) : Prop := ∃ k : Nat, space[k]? = some hp ∧ space'[place k]? = some hp'

variable [Ring K]

/-- The same normalised vector with its entries moved to other positions, those of the turned axes measured from the other end. -/
structure TurnedRow (n : Nat) (place : Nat → Nat) (turned : Nat → Bool) (r r' : List K) : Prop where
  len : r.length = n
  len' : r'.length = n
  entry : ∀ k, k < n → r'.getD (place k) 0 = if turned k then 1 - r.getD k 0 else r.getD k 0

/-- a region with the same curves (their vectors turned), the same means and the same variances -/
structure TurnedRegion (n : Nat) (place : Nat → Nat) (turned : Nat → Bool) (m m' : Node K) : Prop where
  depth : m'.depth = m.depth
  x : List.Forall₂ (List.Forall₂ (TurnedRow n place turned)) m.x m'.x
  y : m'.y = m.y
  v : m'.v = m.v

end PyPDP.Spec
