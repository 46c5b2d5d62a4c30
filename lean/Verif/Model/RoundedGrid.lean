/-
Model of the grid of an ICE (algorithms/ice.py:234-239) with rounded arithmetic. `fl` is applied to the exact result of every single operation of `np.linspace`;
`np.meshgrid`, `np.stack` and `reshape` only copy.
-/
import Verif.Model.Ice
import Verif.Model.RoundedRanges

namespace PyPDP

/-- ice.py:234-239 `grid_points` -/
noncomputable def gridPointsF (fl : ℝ → ℝ) (k perAxis : Nat) : Py (List (List ℝ)) :=
  if k = 0 then .error .value else .ok ((tuples (linspaceF fl 0 1 perAxis) k).map swap01)

end PyPDP
