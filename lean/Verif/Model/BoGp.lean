/-
`BayesianOptimizationSampler.__init__` (pyPDP/sampler/bayesian_optimization.py:17-54) with a `GaussianProcessSurrogate` (the default) and
one of the acquisition functions of the package: the environment of Model/Bayes.

Simplified: the acquisition value of a candidate is computed from the prediction of this candidate alone (the code predicts all
candidates at once; the predictions are row by row, C99). Where the code would raise - prediction by a surrogate that is not fitted - the
value is 0 here; C101 shows that the surrogate is fitted whenever the acquisition function is used.
-/
import Verif.Model.Bayes
import Verif.Model.Gp

namespace PyPDP

/-- the acquisition functions with their exploration parameter -/
inductive AcqKind
  | ei (eps : ℝ)
  | pi (eps : ℝ)
  | lcb (tau : ℝ)

/-- acquisition_function.py:128-138, 157-168, 188-195: the value of a candidate with prediction `mean, sigma`. `eta` is the incumbent's
value (the infinite one of a sampler without points, for which no acquisition function is called, is read as 0). -/
noncomputable def AcqKind.value (minimize : Bool) (eta : Option ℝ) (mean sigma : ℝ) : AcqKind → ℝ
  | .ei eps => eiValue (eta.getD 0) eps mean sigma
  | .pi eps => piValue minimize (eta.getD 0) eps mean sigma
  | .lcb tau => lcbValue minimize tau mean sigma

/-- the constructors: `ExpectedImprovement` refuses maximisation (acquisition_function.py:118-119) -/
def AcqKind.init (minimize : Bool) : AcqKind → Py Unit
  | .ei _ => eiInit minimize
  | _ => .ok ()

/-- `self.surrogate_model.fit(self.X, self.y_list)` (bayesian_optimization.py:77) -/
noncomputable def gpFitStep (choose : List (List ℝ) → List ℝ → Kernel) (m : GpSurrogate) (cs : List (Config ℝ)) (ys : List ℝ) : Py GpSurrogate :=
  match m.fit choose (cs.map Config.vector) ys with
  | (m', .ok _) => .ok m'
  | (_, .error e) => .error e

/-- the acquisition value of a candidate -/
noncomputable def gpAcq (kind : AcqKind) (minimize : Bool) (m : GpSurrogate) (eta : Option ℝ) (c : Config ℝ) : ℝ :=
  match m.predict [c.vector] with
  | .ok ([mean], [sigma]) => kind.value minimize eta mean sigma
  | _ => 0

/-- bayesian_optimization.py:17-54 `__init__`: the surrogate is a new one -/
noncomputable def gpSampler {S : Type} (choose : List (List ℝ) → List ℝ → Kernel) (kind : AcqKind) (minimize : Bool) (initialPoints : Int)
    (names : List String) (drawer acqDrawer : Drawer (Config ℝ) S) (nCandidates : Int) : Py (BOEnv (Config ℝ) ℝ GpSurrogate S × GpSurrogate) := do
  kind.init minimize
  return ({ initialPoints, minimize, names, drawer, acqDrawer, nCandidates, fit := gpFitStep choose, acq := gpAcq kind minimize }, .new)

end PyPDP
