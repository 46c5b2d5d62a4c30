/-
Model of utils/utils.py `get_uniform_distributed_ranges` and utils/plotting.py `plot_function` with rounded arithmetic: `fl` is applied
to the exact result of every single operation of `np.linspace`, `log10` and `pow10` are the functions computed by `np.log10` and by
`np.power(10, ...)`.
-/
import Verif.Model.Plotting

namespace PyPDP

/-- the functions that are computed instead of the exact ones -/
structure Computed where
  fl : ℝ → ℝ
  log10 : ℝ → ℝ
  pow10 : ℝ → ℝ

/-- `np.linspace(a, b, num)`: `arange(num) * ((b - a) / (num - 1)) + a`, the last one replaced by `b` (`[a]` for `num = 1`) -/
noncomputable def linspaceF (fl : ℝ → ℝ) (a b : ℝ) (num : Nat) : List ℝ :=
  (List.range num).map fun i =>
    if i + 1 = num ∧ 1 < num then b else fl (fl ((i : ℝ) * fl (fl (b - a) / ((num : ℝ) - 1))) + a)

/-- one row of utils/utils.py:172-180 -/
noncomputable def uniformRangeF (c : Computed) (n : Nat) (scaled : Bool) (hp : Hp ℝ) : Py (List ℝ) :=
  match hp.numerical? with
  | none => .error .assertion                                                                  -- line 173
  | some (lower, upper, log) =>
    if scaled then .ok (linspaceF c.fl 0 1 n)                                                  -- line 175
    else if log then .ok ((linspaceF c.fl (c.log10 lower) (c.log10 upper) n).map c.pow10)      -- line 178
    else .ok (linspaceF c.fl lower upper n)                                                    -- line 180

/-- utils/utils.py:158-184 `get_uniform_distributed_ranges` -/
noncomputable def getUniformDistributedRangesF (c : Computed) (hps : List (Hp ℝ)) (samplesPerAxis : Nat) (scaled : Bool) :
    Py (List (List ℝ)) := do
  let ranges ← hps.mapM (uniformRangeF c samplesPerAxis scaled)
  if ranges.length = hps.length then .ok ranges else .error .assertion                         -- line 183

/-- utils/plotting.py:128-165 `plot_function`; `f` gets keyword arguments (names with values). -/
noncomputable def plotFunctionF (c : Computed) (f : List (String × Val ℝ) → Py ℝ) (cs : ConfigSpace ℝ) (samplesPerAxis : Nat) (color : String) :
    Plot ℝ Unit :=
  if 2 < (parametersOf cs).length then Plot.raise .value                                           -- 139
  else if (parametersOf cs).length = 0 then Plot.raise .value                                      -- 141
  else do
    let ranges ← Plot.lift (getUniformDistributedRangesF c (parametersOf cs) samplesPerAxis false) -- 144
    checkAndSetAxis (parametersOf cs)                                                              -- 147
    plotValues f (constantsOf cs) color ranges (parametersOf cs)

end PyPDP
