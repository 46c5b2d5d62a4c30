/-
Model of `SkLearnPipelineSurrogate` and `GaussianProcessSurrogate` (pyPDP/surrogate_models/sklearn_surrogates.py:11-39) and of
`SurrogateModel.fit` (pyPDP/surrogate_models/__init__.py:15-17, 49-56), over the real numbers.

The classes assemble a scikit-learn pipeline; what the pipeline computes is modelled after the documented formulas of
`StandardScaler` (column means, population standard deviations, a standard deviation of 0 replaced by 1) and of
`GaussianProcessRegressor` (Rasmussen & Williams, algorithm 2.1) with the arguments of lines 32-36: `normalize_y=True` and
`alpha=1e-8`. The maximisation of the likelihood (`n_restarts_optimizer=20`, the seed) is the parameter `choose`: the kernel
found, a function of the standardised data.

Simplified: exact real arithmetic (scikit-learn replaces standard deviations below `10 * eps`, not only 0; solves with a Cholesky
factor where `⁻¹` is written here); warnings; after a failing `fit` the surrogate counts as unfitted.
-/
import Mathlib.Analysis.Matrix.Order
import Mathlib.Analysis.SpecialFunctions.ExpDeriv
import Verif.Model.Surrogate

namespace PyPDP
open Matrix

/-- a kernel: two rows give their covariance -/
abbrev Kernel := List ℝ → List ℝ → ℝ

/-- `np.mean` of a non-empty list -/
noncomputable def npMean (l : List ℝ) : ℝ := l.sum / l.length

/-- `np.std` of a non-empty list -/
noncomputable def npStd (l : List ℝ) : ℝ := √(npMean (l.map fun v => (v - npMean l) ^ 2))

/-- scikit-learn's `_handle_zeros_in_scale` -/
noncomputable def handleZeros (s : ℝ) : ℝ := if s = 0 then 1 else s

/-- the fitted `StandardScaler`: `mean_`, `scale_` -/
structure Scaler where
  mean : List ℝ
  scale : List ℝ

/-- `StandardScaler().fit(X)` for an array with `d` columns -/
noncomputable def Scaler.fit (d : Nat) (X : List (List ℝ)) : Scaler :=
  ⟨(List.range d).map fun j => npMean (X.map (·.getD j 0)), (List.range d).map fun j => handleZeros (npStd (X.map (·.getD j 0)))⟩

/-- `StandardScaler.transform`, one row -/
noncomputable def Scaler.row (s : Scaler) (r : List ℝ) : List ℝ :=
  List.zipWith (fun x p => (x - p.1) / p.2) r (s.mean.zip s.scale)

/-- sklearn_surrogates.py:35 `alpha=1e-8` -/
noncomputable def gpAlpha : ℝ := 1 / 10 ^ 8

/-- covariance matrix of the training rows plus `alpha` on the diagonal -/
noncomputable def gramAlpha (k : Kernel) (Z : List (List ℝ)) : Matrix (Fin Z.length) (Fin Z.length) ℝ :=
  Matrix.of (fun i j => k Z[i] Z[j]) + gpAlpha • (1 : Matrix (Fin Z.length) (Fin Z.length) ℝ)

/-- the fitted pipeline -/
structure GpFit where
  scaler : Scaler
  dim : Nat
  kernel : Kernel
  rows : List (List ℝ)
  ymean : ℝ
  ystd : ℝ
  /-- the normalised targets, one per row -/
  targets : Fin rows.length → ℝ

/-- `GaussianProcessRegressor.predict`, the mean of a standardised row -/
noncomputable def GpFit.meanAt (g : GpFit) (z : List ℝ) : ℝ :=
  g.ystd * ((fun i => g.kernel z g.rows[i]) ⬝ᵥ ((gramAlpha g.kernel g.rows)⁻¹ *ᵥ g.targets)) + g.ymean

/-- `GaussianProcessRegressor.predict(return_std=True)`, the standard deviation of a standardised row: negative variances are set
to 0, the variance is multiplied by `ystd ** 2` -/
noncomputable def GpFit.stdAt (g : GpFit) (z : List ℝ) : ℝ :=
  let v := g.kernel z z - (fun i => g.kernel z g.rows[i]) ⬝ᵥ ((gramAlpha g.kernel g.rows)⁻¹ *ᵥ fun i => g.kernel z g.rows[i])
  √((if v < 0 then 0 else v) * g.ystd ^ 2)

/-- the surrogate object: `num_fitted_points` and its pipeline -/
structure GpSurrogate where
  numFitted : Nat
  pipeline : Option GpFit

/-- surrogate_models/__init__.py:15-17, sklearn_surrogates.py:31-39 `__init__` -/
def GpSurrogate.new : GpSurrogate := ⟨0, none⟩

open Classical in
/-- `Pipeline.fit(X, y)`: scikit-learn rejects data without rows or columns, ragged rows, a different number of targets; the
Cholesky factorisation rejects matrices that are not positive definite (`LinAlgError`, a ValueError). -/
noncomputable def pipelineFit (choose : List (List ℝ) → List ℝ → Kernel) (X : List (List ℝ)) (y : List ℝ) : Py GpFit :=
  match X with
  | [] => .error .value
  | r :: _ =>
    if r.length = 0 ∨ (∃ q ∈ X, q.length ≠ r.length) ∨ y.length ≠ X.length then .error .value
    else
      let s := Scaler.fit r.length X
      let m := npMean y
      let c := handleZeros (npStd y)
      let Z := X.map s.row
      let k := choose Z (y.map fun v => (v - m) / c)
      if (gramAlpha k Z).PosDef then .ok ⟨s, r.length, k, Z, m, c, fun i => (y.getD i 0 - m) / c⟩
      else .error .value

/-- surrogate_models/__init__.py:49-56 `fit` with sklearn_surrogates.py:16-17 `_fit`: the number of points is stored first -/
noncomputable def GpSurrogate.fit (choose : List (List ℝ) → List ℝ → Kernel) (X : List (List ℝ)) (y : List ℝ) (_ : GpSurrogate) :
    GpSurrogate × Py Unit :=
  match pipelineFit choose X y with
  | .ok g => (⟨y.length, some g⟩, .ok ())
  | .error e => (⟨y.length, none⟩, .error e)

open Classical in
/-- sklearn_surrogates.py:19-27 `predict`: `NotFittedError` (a ValueError) before `fit`; arrays without rows or with rows of another
length are rejected -/
noncomputable def GpSurrogate.predict (s : GpSurrogate) : Predict ℝ := fun X =>
  match s.pipeline with
  | none => .error .value
  | some g =>
    if X = [] ∨ ∃ r ∈ X, r.length ≠ g.dim then .error .value
    else .ok ((X.map g.scaler.row).map g.meanAt, (X.map g.scaler.row).map g.stdAt)

/-- sklearn_surrogates.py:31 the default kernel `Matern(nu=1.5)` with length scale `ℓ` -/
noncomputable def matern (ℓ : ℝ) : Kernel := fun x y =>
  let t := √3 * (√((List.zipWith (fun a b => (a - b) ^ 2) x y).sum) / ℓ)
  (1 + t) * Real.exp (-t)

end PyPDP
