/-
Specification vocabulary for the Bayesian-optimisation properties.
-/
import Verif.Spec.Sampler

namespace PyPDP.Spec
variable {C K M S : Type}

/-- `c` is the first element of `l` with the largest `value`. -/
def FirstMax [LT K] (value : C → K) (l : List C) (c : C) : Prop :=
  ∃ i : Nat, l[i]? = some c ∧ (∀ d ∈ l, ¬ value c < value d) ∧ ∀ j < i, ∀ d, l[j]? = some d → value d < value c

/-- `v` is the incumbent value of the recorded values `ys`: nothing (infinity) if there are none, otherwise a best one. -/
def IsIncumbentValue [LT K] (minimize : Bool) (ys : List K) (v : Option K) : Prop :=
  match v with
  | none => ys = []
  | some w => w ∈ ys ∧ ∀ y ∈ ys, if minimize then ¬ y < w else ¬ w < y

/-- `c` is a proper next point after the data `cs, ys`: with a surrogate `m` that was just fitted on exactly this data and the
incumbent value `eta` of exactly this data, `c` is the first maximiser of the acquisition function among the candidates drawn from
the acquisition function's config space (in some random state `r`). -/
def IsAcquired [LT K] (env : BOEnv C K M S) (cs : List C) (ys : List K) (c : C) : Prop :=
  ∃ m0 m eta r, env.fit m0 cs ys = .ok m ∧ IsIncumbentValue env.minimize ys eta ∧
    FirstMax (env.acq m eta) (env.acqDrawer.draw r env.nCandidates.toNat).1 c

/-- `acq` are points acquired one after the other, starting from the data `cs, ys`. -/
def AcquiredSeq [LT K] (f : C → K) (env : BOEnv C K M S) : List C → List K → List C → Prop
  | _, _, [] => True
  | cs, ys, c :: rest => IsAcquired env cs ys c ∧ AcquiredSeq f env (cs ++ [c]) (ys ++ [f c]) rest

/-- A fresh sampler without cache. -/
def freshBO (rng : S) (model : M) : BOState C K M S :=
  { configs := [], ys := [], cache := [], calls := 0,
    extra := { rng, model, eta := none, fittedHash := none, nextObj := 0, lastFit := none, fits := 0 } }

end PyPDP.Spec
