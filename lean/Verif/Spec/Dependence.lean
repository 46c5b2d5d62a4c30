/-
Specification vocabulary for partial dependence.
-/
import Verif.Spec.Pdp

namespace PyPDP.Spec
variable {K : Type}

/-- The normalised vector `r` of a configuration with the selected hyperparameters set to `t` (`t[j]` for `selected[j]`). -/
def atPoint [Zero K] (space : ConfigSpace K) (selected : List (Hp K)) (t r : List K) : List K :=
  List.zipWith (fun hp v => match selected.findIdx? (fun s => s.name == hp.name) with
    | some j => t.getD j 0
    | none => v) space r

/-- `PDP(surrogate, sel, samples, g).y_pdp` -/
def yPdp [Field K] (space : ConfigSpace K) (predict : Predict K) (sel : Selection K) (samples : List (List K)) (g : Nat) : Py (List K) := do
  let s ← pdpInit space predict sel samples g
  (pdpReadY s).2

/-- `PDP(surrogate, sel, samples, g).y_variances` -/
def vPdp [Field K] (space : ConfigSpace K) (predict : Predict K) (sel : Selection K) (samples : List (List K)) (g : Nat) : Py (List K) := do
  let s ← pdpInit space predict sel samples g
  (pdpReadV s).2

/-- `ice = ICE(surrogate, sel, samples, g); ice.centered = centered; ice.y_ice` -/
def yIce [Field K] (space : ConfigSpace K) (predict : Predict K) (sel : Selection K) (samples : List (List K)) (g : Nat) (centered : Bool) :
    Py (List (List K)) := do
  let c ← algorithmInit space predict sel samples g
  (readY (iceStep (iceInit c) (.setCentered centered))).2

/-- What ICE and PDP need besides a surrogate; `selected` are the hyperparameters that `sel` stands for, `grid` the grid points. -/
structure DependenceInput [Field K] (space : ConfigSpace K) (sel : Selection K) (selected : List (Hp K)) (samples : List (List K)) (g : Nat)
    (grid : List (List K)) : Prop where
  wf : space.WF
  sel_eq : convertHyperparameters sel space = .ok selected
  mem : ∀ hp ∈ selected, hp ∈ space
  ne : selected ≠ []
  distinct : (selected.map Hp.name).Nodup
  samples_ne : samples ≠ []
  rows : ∀ r ∈ samples, r.length = space.length
  grid_pos : g ≠ 0
  grid_eq : gridPoints selected.length g = .ok grid

/-- `u` reads only the selected features of a vector -/
def ReadsSelected (space : ConfigSpace K) (selected : List (Hp K)) (u : List K → K) : Prop :=
  ∀ r r' : List K, r.length = space.length → r'.length = space.length →
    (∀ hp ∈ selected, ∀ f, IsFeature space hp f → r[f]? = r'[f]?) → u r = u r'

/-- `w` reads only the features of a vector that are not selected -/
def ReadsOthers (space : ConfigSpace K) (selected : List (Hp K)) (w : List K → K) : Prop :=
  ∀ r r' : List K, r.length = space.length → r'.length = space.length →
    (∀ f, (∀ hp ∈ selected, ¬ IsFeature space hp f) → r[f]? = r'[f]?) → w r = w r'

/-- `u` does not fall when the selected features of a vector rise and the others stay the same -/
def RisesInSelected [LE K] (space : ConfigSpace K) (selected : List (Hp K)) (u : List K → K) : Prop :=
  ∀ r r' : List K, r.length = space.length → r'.length = space.length →
    (∀ f, (∀ hp ∈ selected, ¬ IsFeature space hp f) → r[f]? = r'[f]?) →
    (∀ hp ∈ selected, ∀ f, IsFeature space hp f → ∀ a b, r[f]? = some a → r'[f]? = some b → a ≤ b) → u r ≤ u r'

/-- the point `t` gives every hyperparameter the value that `s` gives it -/
def SamePoint (selected selected' : List (Hp K)) (s t : List K) : Prop :=
  ∀ (k k' : Nat) (hp : Hp K), selected[k]? = some hp → selected'[k']? = some hp → s[k]? = t[k']?

end PyPDP.Spec
