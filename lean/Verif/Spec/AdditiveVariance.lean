/-
Vocabulary for C165.
-/
import Verif.Spec.Dependence

namespace PyPDP.Spec
variable {K : Type}

/-- sum of the squared deviations of `w` from its mean -/
def scatter [Field K] (w : List K → K) (sub : List (List K)) : K := (sub.map fun r => (w r - (sub.map w).sum / (sub.length : K)) ^ 2).sum

/-- `row` has the features of `r` that are not selected -/
def AgreesOnOthers (space : ConfigSpace K) (selected : List (Hp K)) (r row : List K) : Prop :=
  ∀ f, (∀ hp ∈ selected, ¬ IsFeature space hp f) → row[f]? = r[f]?

end PyPDP.Spec
