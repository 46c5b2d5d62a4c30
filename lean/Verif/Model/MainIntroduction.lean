/-
Model of examples/main_presentation.py:56-152 `bo_introduction`.

Parameters and simplifications as in Model/MainPresentation.lean; in addition `getYlim` is what `ax.get_ylim()` returns for an axis (matplotlib chooses the limits
of an axis from what is drawn on it). The colour `(0.7, 0.7, 0.7)` is called "grey".
-/
import Verif.Model.MainPresentation
import Verif.Model.AcquisitionPlot

namespace PyPDP
variable {S : Type}

/-- `sampler.acq_func.plot(ax=ax_acq)`: the configurations are drawn from the random state of the acquisition function -/
noncomputable def acqFigure (argsort : List ℝ → List Nat) (cs : ConfigSpace ℝ) (env : BOEnv (Config ℝ) ℝ GpSurrogate S)
    (s : BOState (Config ℝ) ℝ GpSurrogate S) (ax : Ax ℝ) : BOState (Config ℝ) ℝ GpSurrogate S × Ax ℝ × Py Unit :=
  let r := acqPlot argsort "darkgreen" "red" true cs env.acqDrawer env.nCandidates (env.acq s.extra.model s.extra.eta) .none s.extra.rng ax
  ({ s with extra := { s.extra with rng := r.1 } }, r.2)

/-- lines 104-110, 123-128, 141-146: the upper axis of a figure -/
noncomputable def introAxis (i : MainInput S) (argsort : List ℝ → List Nat) (f : BlackboxFn ℝ) (perPlot : Nat) (gp : GpSurrogate)
    (s : BOState (Config ℝ) ℝ GpSurrogate S) : Show (Ax ℝ) := do
  let ax ← Show.on (plotFunction (f.call i.inv) f.cs 100 "grey") Ax.new
  let ax ← Show.on (surrogateMeans "blue" gp.predict f.cs perPlot) ax
  let ax ← Show.on (surrogateConfidences "blue" "lightblue" gp.predict f.cs perPlot) ax
  Show.on (samplerPlot argsort "red" f.cs .none s) ax

/-- `ax.set_ylim(lo, hi)` -/
def Ax.setYlim {K : Type} (ax : Ax K) (lims : K × K) : Ax K := { ax with ylim := some lims }

/-- lines 117-134, 136-152: a number of points is sampled, the surrogate is fitted again, a figure is saved; once for every entry of the list -/
noncomputable def introRounds (i : MainInput S) (argsort : List ℝ → List Nat) (f : BlackboxFn ℝ) (env : BOEnv (Config ℝ) ℝ GpSurrogate S) (perPlot : Nat)
    (lims : ℝ × ℝ) : List Int → GpSurrogate → BOState (Config ℝ) ℝ GpSurrogate S → Show (BOState (Config ℝ) ℝ GpSurrogate S)
  | [], _, s => pure s
  | n :: ns, gp, s => do
    let s ← Show.sampled (boSample (callObjective i.inv f) env s n)                                       -- 118, 137
    let gp ← Show.changed (gp.fit i.choose (s.configs.map Config.vector) s.ys)                            -- 119, 138
    let axF ← introAxis i argsort f perPlot gp s
    let (s, axA) ← Show.onWith (acqFigure argsort f.cs env s Ax.new)                                      -- 133, 151
    Show.figure "acquisition" [axF.setYlim lims, axA]
    introRounds i argsort f env perPlot lims ns gp s

/-- examples/main_presentation.py:56-152 `bo_introduction`. `d = 1`, `kind = LowerConfidenceBound()`, `perPlot = 50` or `300`, `rounds = [1, 1, 1, 1, 1, 51]`. -/
noncomputable def introduction (i : MainInput S) (argsort : List ℝ → List Nat) (getYlim : Ax ℝ → ℝ × ℝ) (d : Nat) (kind : AcqKind) (nCandidates : Int)
    (perPlot : Nat) (rounds : List Int) : Show (BOState (Config ℝ) ℝ GpSurrogate S) := do
  let f ← Show.lift (forNDimensions i.order (-5) 5 false styblinskiTangValue (d : ℝ) none none)           -- 58
  let (env, m) ← Show.lift (gpSampler i.choose kind true (4 * d) (f.cs.map Hp.name) i.drawer i.acqDrawer nCandidates)   -- 73-80
  let s ← Show.sampled (boSample (callObjective i.inv f) env (startSampler i m) env.initialPoints)        -- 81
  let ax ← Show.on (plotFunction (f.call i.inv) f.cs perPlot "black") Ax.new                              -- 85
  Show.figure "blackbox_function" [ax, Ax.new]
  let lims := (0.9 * (getYlim ax).1, 1.1 * (getYlim ax).2)                                                -- 88-90
  let ax ← Show.on (plotFunction (f.call i.inv) f.cs perPlot "grey") Ax.new                               -- 94
  let ax ← Show.on (samplerPlot argsort "red" f.cs .none s) ax                                            -- 95
  Show.figure "samples" [ax, Ax.new]
  let gp ← Show.changed (GpSurrogate.new.fit i.choose (s.configs.map Config.vector) s.ys)                 -- 100-101
  let axF ← introAxis i argsort f perPlot gp s
  Show.figure "surrogate" [axF, Ax.new]
  let (s, axA) ← Show.onWith (acqFigure argsort f.cs env s Ax.new)                                        -- 114
  Show.figure "acquisition" [axF, axA]
  introRounds i argsort f env perPlot lims rounds gp s

end PyPDP
