/-
Specification vocabulary for the surrogate properties.
-/
import Verif.Model.Surrogate

namespace PyPDP.Spec
variable {K : Type}

/-- The surrogate was fitted to rows of `d` numbers, and its predictions are functions of the single rows: it answers for every
array of at least one row of `d` numbers (nothing is required of other arrays, which scikit-learn rejects). -/
def RowWise (d : Nat) (predict : Predict K) (mu sd : List K → K) : Prop :=
  ∀ X : List (List K), X ≠ [] → (∀ r ∈ X, r.length = d) → predict X = .ok (X.map mu, X.map sd)

/-- `c` is the first best element of `l` (smallest value if `minimize`, else largest). -/
def FirstBestOf {C : Type} [LT K] (minimize : Bool) (value : C → K) (l : List C) (c : C) : Prop :=
  ∃ i : Nat, l[i]? = some c ∧ (∀ d ∈ l, if minimize then ¬ value d < value c else ¬ value c < value d) ∧
    ∀ j < i, ∀ d, l[j]? = some d → if minimize then value c < value d else value d < value c

end PyPDP.Spec
