/-
Model of pyPDP/sampler/acquisition_function.py (without plotting).

Parameters: the candidate draws of the acquisition function's config space, the surrogate's predictions.
-/
import Verif.Model.Sampler
import Mathlib.Probability.Distributions.Gaussian.Real
import Mathlib.Probability.CDF

namespace PyPDP

/-- What `get_optimum` hands out: a configuration, or - when a bare configuration was iterated - one of its keys. -/
inductive Picked (C : Type)
  | config (c : C)
  | name (s : String)
  deriving DecidableEq, Repr

/-- acquisition_function.py:40-42: `max` over the pairs of candidates and values. Iterating over a bare configuration yields its
keys `names`; `max` of nothing is a ValueError (for no candidates already `predict` raises one). -/
def pickMax {C K : Type} [LinearOrder K] (names : List String) (value : C → K) : Draws C → Py (Picked C × K)
  | .one c => pyMaxBy (·.2) ((names.zip [value c]).map fun p => (Picked.name p.1, p.2))
  | .many l => pyMaxBy (·.2) (l.map fun c => (Picked.config c, value c))

/-- acquisition_function.py:34-42 `get_optimum`: result and new random state. -/
def getOptimum {C K S : Type} [LinearOrder K] (names : List String) (d : Drawer C S) (nCandidates : Int) (value : C → K)
    (rng : S) : S × Py (Picked C) :=
  let (draws, r) := d.sampleConfiguration rng nCandidates
  (r, (pickMax names value draws).map (·.1))

section values
open ProbabilityTheory

/-- `scipy.stats.norm.cdf` -/
noncomputable def normCdf (z : ℝ) : ℝ := cdf (gaussianReal 0 1) z

/-- `scipy.stats.norm.pdf` -/
noncomputable def normPdf (z : ℝ) : ℝ := gaussianPDFReal 0 1 z

/-- acquisition_function.py:118-119: `ExpectedImprovement` refuses maximisation. -/
def eiInit (minimize : Bool) : Py Unit := if minimize = false then .error .notImplemented else .ok ()

/-- acquisition_function.py:128-138 `ExpectedImprovement.__call__` for one candidate with prediction `mean, sigma`; the nan/inf
of the division by `sigma = 0` is overwritten with 0 (line 137). -/
noncomputable def eiValue (eta eps mean sigma : ℝ) : ℝ :=
  if sigma = 0 then 0
  else
    let z := (eta - mean - eps) / sigma
    sigma * (z * normCdf z + normPdf z)

/-- acquisition_function.py:157-168 `ProbabilityOfImprovement.__call__` -/
noncomputable def piValue (minimize : Bool) (eta eps mean sigma : ℝ) : ℝ :=
  if sigma = 0 then 0
  else if minimize then normCdf ((eta - mean - eps) / sigma)
  else normCdf ((mean - eta - eps) / sigma)

/-- acquisition_function.py:188-195 `LowerConfidenceBound.__call__` -/
def lcbValue {K : Type} [Field K] (minimize : Bool) (tau mean sigma : K) : K :=
  if minimize then -mean + tau * sigma else mean + tau * sigma

end values
end PyPDP
