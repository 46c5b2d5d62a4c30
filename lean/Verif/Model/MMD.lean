/-
Model of `Sampler.maximum_mean_discrepancy` (pyPDP/sampler/__init__.py:167-193).

Parameters: the vectors of the sampled configurations and the vectors of the uniform draws; for the whole method the random draws of the config space.
-/
import Verif.Model.Utils
import Verif.Model.Sampler

namespace PyPDP

/-- scikit-learn's `RBF(l)(X)`: entry `(i, j)` is `exp(-0.5 * |x_i / l - x_j / l|²)` (lines 181, 183). -/
noncomputable def rbfMatrix (l : ℝ) (X : List (List ℝ)) : List (List ℝ) :=
  X.map fun a => X.map fun b =>
    Real.exp (-(1 / 2) * (List.zipWith (fun x y => (x / l - y / l) ^ 2) a b).sum)

/-- `np.sum(w * cov[r0 : r0 + n, c0 : c0 + m])` for a weight `w i j` (lines 186-188). -/
noncomputable def blockSum (w : Nat → Nat → ℝ) (cov : List (List ℝ)) (r0 n c0 m : Nat) : ℝ :=
  ((List.range n).map fun i => ((List.range m).map fun j => w i j * entry cov (r0 + i) (c0 + j)).sum).sum

/-- entry of `1 - np.eye(n)` -/
def offDiag (i j : Nat) : ℝ := 1 - (if i = j then 1 else 0)

/-- sampler/__init__.py:169-193 from the two arrays on. A quotient 0/0 (fewer than two points on one side) and the median of no
distances are nan; simplified: for `m = 1` the code already fails in `config_list_to_array`, for no samples in `np.concatenate`. -/
noncomputable def maximumMeanDiscrepancy (Xs Xu : List (List ℝ)) : Py ℝ := do
  let l ← medianDistanceBetweenPoints (Xs ++ Xu)                         -- 175-179
  let cov := rbfMatrix l (Xs ++ Xu)                                     -- 181-183
  let n := Xs.length
  let m := Xu.length
  if n < 2 ∨ m < 2 then .error .nan
  else
    let term1 := blockSum offDiag cov 0 n 0 n / (n * ((n : ℝ) - 1))      -- 186
    let term2 := blockSum offDiag cov n m n m / (m * ((m : ℝ) - 1))      -- 187
    let term3 := blockSum (fun _ _ => 1) cov 0 n n m * 2 / (n * m)       -- 188
    let t := term1 + term2 - term3
    if t < 0 then .ok 0 else .ok (Real.sqrt t)                           -- 190-193

/-- sampler/__init__.py:167-193, the whole method, for a sampler with the configurations `configs`. `seedState k` is the random state of a config space after
`cs.seed(k)`, `entropy` the one after `cs.seed(None)` (different at every call). The uniform points are drawn from a copy: the sampler does not change. No samples
or no draws are an array with one dimension, a single draw is a configuration and no list: neither can be joined with a table (ValueError at line 175, without
any samples and draws at utils.py:189). -/
noncomputable def samplerMmd {S : Type} (seedState : Int → S) (entropy : S) (d : Drawer (Config ℝ) S) (configs : List (Config ℝ)) (m seed : Option Int) : Py ℝ :=
  let m := m.getD configs.length                                          -- 169-170
  let start := seed.elim entropy seedState                                -- 173
  match configs, (d.sampleConfiguration start m).1 with                   -- 171, 174-175
  | [], _ => .error .value
  | _ :: _, .one _ => .error .value
  | _ :: _, .many [] => .error .value
  | _ :: _, .many us => maximumMeanDiscrepancy (configs.map Config.vector) (us.map Config.vector)

end PyPDP
