/-
Model of the figure of examples/main.py, which Model/Main leaves out. Legend and layout are left out here as well.
-/
import Verif.Model.MainPresentation

namespace PyPDP

/-- examples/main.py:20-49: the axis that line 79 shows; nothing is drawn after line 49. `d = 3`, `name = "x1"`, `kind = LowerConfidenceBound()`,
`nCandidates = 100`, `perAxis = 20`. -/
noncomputable def mainFigure {S : Type} (i : MainInput S) (argsort : List ℝ → List Nat) (d : Nat) (name : String) (kind : AcqKind) (nCandidates : Int)
    (perAxis : Nat) : Show (Ax ℝ) := do
  let f ← Show.lift (forNDimensions i.order (-5) 5 false styblinskiTangValue (d : ℝ) none none)           -- 20
  let hp ← Show.lift (f.cs.get name)                                                                      -- 23
  let (env, m) ← Show.lift (gpSampler i.choose kind true (d * 4) (f.cs.map Hp.name) i.drawer i.acqDrawer nCandidates)   -- 26
  let sampler ← Show.sampled (boSample (callObjective i.inv f) env (startSampler i m) (32 * d - 20))      -- 34-35
  let ax ← Show.on (samplerPlot argsort "red" f.cs (.one hp) sampler) Ax.new                              -- 36
  let gp ← Show.changed (GpSurrogate.new.fit i.choose (sampler.configs.map Config.vector) sampler.ys)     -- 39-40
  let samples ← Show.lift (samplesOf i.iceDraws)
  let c ← Show.lift (algorithmInit f.cs gp.predict (.one hp) samples perAxis)                             -- 43
  let pdp ← Show.lift (pdpFromIce (iceInit c))                                                            -- 47
  let (pdp, ax) ← Show.onWith (pdpPlotValues "black" pdp ax)                                              -- 48
  let (_, ax) ← Show.onWith (pdpPlotConfidences "grey" "lightsalmon" (3 / 2) pdp ax)                      -- 49
  return ax

end PyPDP
