/-
Model of `ICE._calculate` (pyPDP/algorithms/ice.py:200-232) for samples of any number type: `x_ice` is made from the samples by
`repeat`, so it has their dtype, and a float stored into an integer array is truncated.
-/
import Verif.Model.Ice

namespace PyPDP

/-- ice.py:200-232 `_calculate` for samples of dtype `dt`. `x_ice[:, :, idx] = x_s` (line 214) converts every grid value to the dtype
of `x_ice`, which is that of the samples (lines 211-213); everything else is as for floats (`iceCalc`). -/
def iceCalcD {ι K : Type} [Field K] (dt : DType ι K) (c : IceCfg K) (samples : List (List ι)) (grid : List (List K)) :
    Py (IceData K) :=
  iceCalc { c with samples := samples.map fun row => row.map dt.toNum } (grid.map fun g => g.map (dt.store false))

end PyPDP
