/-
Model of examples/main.py: StyblinskiTang, Bayesian optimisation, Gaussian process, ICE, PDP, tree, comparison of two regions.

Parameters: the random draws (samplers and `ICE.from_random_points`), the cache file of the sampler, the length scales chosen by the optimiser, the order of the
hyperparameters in the space. Left out: the plots (Model/MainFigure) and the import line 13, which names `utils.utils` instead of
`pyPDP.utils.utils`. The numbers of the script are arguments; its values are in the comments.
-/
import Verif.Model.BoGp
import Verif.Model.Likelihood
import Verif.Model.Pdp

namespace PyPDP

/-- the objective function of a sampler is the blackbox function, called as `obj_func(**config)` -/
noncomputable def callObjective (inv : Hp ℝ → Val ℝ → ℝ) (f : BlackboxFn ℝ) : Objective (Config ℝ) ℝ where
  value c := match f.call inv c.values with
    | .ok v => v
    | .error _ => 0
  raises _ c := match f.call inv c.values with
    | .ok _ => none
    | .error e => some e

/-- what is random (or chosen by the optimiser) in a run of the script -/
structure MainInput (S : Type) where
  order : SpaceOrder ℝ
  choose : List (List ℝ) → List ℝ → Kernel
  inv : Hp ℝ → Val ℝ → ℝ
  drawer : Drawer (Config ℝ) S
  acqDrawer : Drawer (Config ℝ) S
  rng : S
  ofVec : List ℝ → Py (Config ℝ)
  file : CacheFile (List ℝ) ℝ
  iceDraws : Draws (Config ℝ)

/-- what the script has computed before the last two prints -/
structure MainResult (S : Type) where
  space : ConfigSpace ℝ
  sampler : BOState (Config ℝ) ℝ GpSurrogate S
  surrogate : GpSurrogate
  incumbent : Config ℝ
  pdp : IceCurve ℝ
  root : Node ℝ
  region : Node ℝ
  implied : ConfigSpace ℝ
  nllBase : ℝ
  nllLeaf : ℝ
  mcBase : ℝ
  mcLeaf : ℝ

/-- examples/main.py:20-65. `d = 3`, `name = "x1"`, `kind = LowerConfidenceBound()`, `nCandidates = 100`, `perAxis = 20`,
`numSplits = 100`, `minPoints = 10`, `depth = 2`. -/
noncomputable def mainScript {S : Type} (i : MainInput S) (d : Nat) (name : String) (kind : AcqKind) (nCandidates : Int) (perAxis numSplits minPoints : Nat)
    (depth : Int) : Py (MainResult S) := do
  let f ← forNDimensions i.order (-5) 5 false styblinskiTangValue (d : ℝ) none none                     -- 20
  let hp ← f.cs.get name                                                                                -- 23
  let (env, m) ← gpSampler i.choose kind true (d * 4) (f.cs.map Hp.name) i.drawer i.acqDrawer nCandidates   -- 26
  let start := samplerInit i.ofVec i.file
    { rng := i.rng, model := m, eta := none, fittedHash := none, nextObj := 0, lastFit := none, fits := 0 }
  match boSample (callObjective i.inv f) env start (32 * d - 20) with                                   -- 34-35
  | (_, some e) => .error e
  | (sampler, none) =>
    match GpSurrogate.new.fit i.choose (sampler.configs.map Config.vector) sampler.ys with              -- 39-40
    | (_, .error e) => .error e
    | (surrogate, .ok _) =>
      let samples ← samplesOf i.iceDraws
      let c ← algorithmInit f.cs surrogate.predict (.one hp) samples perAxis                            -- 43
      let pdp ← pdpFromIce (iceInit c)                                                                  -- 47
      let curve ← (pdpCurve pdp).2
      let tree ← dtFromIce (iceInit c) numSplits minPoints none                                         -- 52
      match dtPartition tree depth with                                                                 -- 54
      | (_, .error e) => .error e
      | (tree', .ok _) =>
        match ← incumbent true sampler with                                                             -- 55
        | (none, _) => .error .attribute
        | (some best, _) =>
          match ← dtIncumbentRegion tree' best with
          | none => .error .attribute
          | some region =>
            let implied ← regionImplied f.cs region.conds                                               -- 56
            let nllBase ← negativeLogLikelihood i.inv f.cs [hp] tree'.root (trueStyblinskiTang i.order f.cs)   -- 59
            let nllLeaf ← negativeLogLikelihood i.inv f.cs [hp] region (trueStyblinskiTang i.order f.cs)       -- 60
            let mcBase ← meanConfidence tree'.root                                                      -- 61
            let mcLeaf ← meanConfidence region                                                          -- 62
            return ⟨f.cs, sampler, surrogate, best, curve, tree'.root, region, implied, nllBase, nllLeaf, mcBase, mcLeaf⟩

end PyPDP
