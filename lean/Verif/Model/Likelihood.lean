/-
Model of `Region.mean_confidence`, `Region.negative_log_likelihood` and `Region.delta_nll` (pyPDP/algorithms/partitioner/__init__.py).
-/
import Verif.Model.Partitioner
import Verif.Model.Blackbox

namespace PyPDP

/-- What a region needs from a `BlackboxFunction`: its space and `pd_integral` (called with hyperparameter objects). -/
structure TrueFn where
  space : ConfigSpace ℝ
  pdIntegral : List (SelItem ℝ) → Py (BlackboxFn ℝ)

/-- `StyblinskiTang` on a space -/
noncomputable def trueStyblinskiTang (order : SpaceOrder ℝ) (cs : ConfigSpace ℝ) : TrueFn :=
  ⟨cs, fun hps => (styblinskiTangPdIntegral order cs hps).map (·.1)⟩

/-- a function that inherits `pd_integral` from `BlackboxFunction` -/
def trueDefault (cs : ConfigSpace ℝ) : TrueFn := ⟨cs, pdIntegralDefault⟩

/-- `scipy.stats.norm.logpdf(x, loc, scale)`: the standardised density, nan unless `scale > 0`. -/
noncomputable def normLogpdf (x loc scale : ℝ) : Py ℝ :=
  if 0 < scale then .ok (-((x - loc) / scale) ^ 2 / 2 - Real.log (Real.sqrt (2 * Real.pi)) - Real.log scale) else .error .nan

/-- partitioner/__init__.py:51-52 `mean_confidence` (nan for an empty region) -/
noncomputable def meanConfidence (n : Node ℝ) : Py ℝ := mean (n.v.flatten.map Real.sqrt)

/-- partitioner/__init__.py:66-73: the hyperparameters of the true function that are not selected -/
def notSelected (space : ConfigSpace ℝ) (selected : List (Hp ℝ)) : List (Hp ℝ) :=
  space.filter fun hp => decide (hp.name ∉ selected.map Hp.name)

/-- partitioner/__init__.py:77-81: the true partial dependence at one grid point (`row` = `x_points[0, i]`) -/
noncomputable def trueAt (inv : Hp ℝ → Val ℝ → ℝ) (space : ConfigSpace ℝ) (hp : Hp ℝ) (idx : Nat) (integral : BlackboxFn ℝ)
    (row : List ℝ) : Py ℝ := do
  let t ← pyGet row idx
  let u ← unscaleFloat t space hp.name
  integral.call inv [(hp.name, .num u)]

/-- partitioner/__init__.py:62-96 `negative_log_likelihood`. `inv` is the normalisation used inside `CS.Configuration`. -/
noncomputable def negativeLogLikelihood (inv : Hp ℝ → Val ℝ → ℝ) (space : ConfigSpace ℝ) (selected : List (Hp ℝ)) (n : Node ℝ) (f : TrueFn) :
    Py ℝ := do
  let hp ← pyGet selected 0
  let idx ← space.idx hp.name                                             -- 66
  let integral ← f.pdIntegral ((notSelected f.space selected).map .hp)    -- 68-75
  let m ← pyGet n.x 0
  let trueY ← m.mapM (trueAt inv space hp idx integral)                   -- 77-81
  let mu ← meanRows n.y                                                   -- 84
  let var ← meanRows n.v
  let std := var.map Real.sqrt                                            -- 90
  let lp ← (trueY.zip (mu.zip std)).mapM fun p => normLogpdf p.1 p.2.1 p.2.2   -- 92
  let a ← mean lp
  return -a                                                               -- 93

/-- partitioner/__init__.py:96-99 `delta_nll` -/
noncomputable def deltaNll (inv : Hp ℝ → Val ℝ → ℝ) (space : ConfigSpace ℝ) (selected : List (Hp ℝ)) (n full : Node ℝ) (f : TrueFn) : Py ℝ := do
  let nll ← negativeLogLikelihood inv space selected n f
  let root ← negativeLogLikelihood inv space selected full f
  calculateLogDelta nll root

end PyPDP
