/-
Model of examples/main_meta_pdp.py: the partitioning of a surrogate as a function of the kernel, and the optimisation of this function.

Parameters and simplifications as in Model/Main and Model/MainPresentation; `partitioner_class` is the default DecisionTreePartitioner. The kernels
`Matern(nu=kernel_size)` are `choose` of the input. The file written by `save_cache` is left out (C24, C76).
-/
import Verif.Model.MainPresentation
import Verif.Model.AdvancedPlots

namespace PyPDP
variable {S : Type}

/-- what one repetition computes -/
structure MetaRun (S : Type) where
  sampler : BOState (Config ℝ) ℝ GpSurrogate S
  surrogate : GpSurrogate
  incumbent : Config ℝ
  root : Node ℝ
  region : Node ℝ
  baseMc : ℝ
  mc : ℝ
  delta : ℝ

/-- examples/main_meta_pdp.py:42-66: the body of the loop. The loop variable is not used, every seed is the global one. -/
noncomputable def metaRepetition (i : MainInput S) (f : BlackboxFn ℝ) (d : Nat) (kind : AcqKind) (nCandidates : Int) (perAxis numSplits minPoints : Nat)
    (nSplits : Int) : Py (MetaRun S) := do
  let (env, m) ← gpSampler i.choose kind true (4 * d) (f.cs.map Hp.name) i.drawer i.acqDrawer nCandidates  -- 42-51
  match boSample (callObjective i.inv f) env (startSampler i m) (34 * d - 20 + env.initialPoints) with     -- 52
  | (_, some e) => .error e
  | (sampler, none) =>
    match m.fit i.choose (sampler.configs.map Config.vector) sampler.ys with                               -- 54
    | (_, .error e) => .error e
    | (surrogate, .ok _) =>
      let samples ← samplesOf i.iceDraws
      let tree ← dtInit f.cs surrogate.predict (.name "x1") samples perAxis numSplits minPoints none       -- 56-60
      let baseMc ← meanConfidence tree.root                                                                -- 61
      match dtPartition tree nSplits with                                                                  -- 63
      | (_, .error e) => .error e
      | (tree', .ok _) =>
        match ← incumbent true sampler with                                                                -- 64
        | (none, _) => .error .attribute
        | (some best, _) =>
          match ← dtIncumbentRegion tree' best with
          | none => .error .attribute
          | some region =>
            let mc ← meanConfidence region                                                                 -- 65
            let delta ← calculateLogDelta mc baseMc                                                        -- 67
            return ⟨sampler, surrogate, best, tree.root, region, baseMc, mc, delta⟩

/-- examples/main_meta_pdp.py:30-69 `blackbox_function`: one input for every repetition (`N_REPETITIONS = 1`). `d = n_dim = 3`,
`kind = LowerConfidenceBound(tau)`, `nCandidates = 100`, `perAxis = 20`, `numSplits = 100`, `minPoints = 10`, `nSplits = 3`. The mean of nothing is nan. -/
noncomputable def metaFunction (order : SpaceOrder ℝ) (inputs : List (MainInput S)) (d : Nat) (kind : AcqKind) (nCandidates : Int)
    (perAxis numSplits minPoints : Nat) (nSplits : Int) : Py (ℝ × List (MetaRun S)) := do
  let f ← forNDimensions order (-5) 5 false styblinskiTangValue (d : ℝ) none none                          -- 38
  let runs ← inputs.mapM fun i => metaRepetition i f d kind nCandidates perAxis numSplits minPoints nSplits
  if runs = [] then .error .nan
  else return (-((runs.map MetaRun.delta).sum / runs.length), runs)                                        -- 69

/-- Calls of `blackbox_function` one after the other for different kernels, with one repetition each. The samplers have the same key (of the surrogate only the class
is hashed), so each call reads the file left by the ones before, and writes it when its sampler is deleted (sampler/__init__.py:46-47). -/
noncomputable def metaCalls (i : MainInput S) (f : BlackboxFn ℝ) (d : Nat) (kind : AcqKind) (nCandidates : Int) (perAxis numSplits minPoints : Nat) (nSplits : Int) :
    CacheFile (List ℝ) ℝ → List (List (List ℝ) → List ℝ → Kernel) → Py (List (MetaRun S))
  | _, [] => .ok []
  | file, k :: ks => do
    let r ← metaRepetition { i with choose := k, file } f d kind nCandidates perAxis numSplits minPoints nSplits
    let rs ← metaCalls i f d kind nCandidates perAxis numSplits minPoints nSplits (saveCache Config.vector r.sampler file) ks
    return r :: rs

/-- `blackbox_function(**config)` with the configuration space of `optimize_mc` as an objective function; `g` is the function of `kernel_size`. Any other keyword
argument has another meaning or is refused; here it is a TypeError. -/
noncomputable def metaObjective (g : ℝ → Py ℝ) : Objective (Config ℝ) ℝ :=
  let call : Config ℝ → Py ℝ := fun c => match c.values with
    | [("kernel_size", .num v)] => g v
    | _ => .error .type
  { value := fun c => match call c with
      | .ok v => v
      | .error _ => 0
    raises := fun _ c => match call c with
      | .ok _ => none
      | .error e => some e }

/-- the space of examples/main_meta_pdp.py:72-81 -/
noncomputable def metaSpace (lower upper : ℝ) : ConfigSpace ℝ := [⟨"kernel_size", .float lower upper false⟩]

/-- `plt.savefig(name)` -/
def Show.save (name : String) (axes : List (Ax ℝ)) : Show Unit := fun g => (⟨g.count, saveFig g.files name axes⟩, .ok ())

/-- two matrices of axes -/
def showMatrix (r : List (List (Ax ℝ)) × List (List (Ax ℝ)) × Py Unit) : Show (List (List (Ax ℝ)) × List (List (Ax ℝ))) :=
  Show.changed ((r.1, r.2.1), r.2.2)

/-- examples/main_meta_pdp.py:72-111 `optimize_mc`. `lower = 0.1`, `upper = 5`, `kind = LowerConfidenceBound(0.1)`, `nCandidates = 100`, `perAxis = 50`. -/
noncomputable def optimizeMc (i : MainInput S) (argsort : List ℝ → List Nat) (g : ℝ → Py ℝ) (lower upper : ℝ) (kind : AcqKind) (nCandidates : Int)
    (perAxis : Nat) (draws : Hp ℝ → Hp ℝ → Draws (Config ℝ)) : Show (BOState (Config ℝ) ℝ GpSurrogate S) := do
  let cs := metaSpace lower upper
  let n : Int := cs.length                                                                                 -- 87
  let (env, m) ← Show.lift (gpSampler i.choose kind true (4 * n) (cs.map Hp.name) i.drawer i.acqDrawer nCandidates)   -- 88-95
  let s ← Show.sampled (boSample (metaObjective g) env (startSampler i m) (34 * n - 20))                   -- 96
  let ax ← Show.on (samplerPlot argsort "red" cs .none s) Ax.new                                           -- 98
  Show.save "samples" [ax]                                                                                 -- 100
  let gp ← Show.changed (GpSurrogate.new.fit i.choose (s.configs.map Config.vector) s.ys)                  -- 103-104
  let (mean, std) ← showMatrix (hyperparameterArray2D gp.predict cs perAxis draws)                         -- 106
  Show.save "hyperparameters_mean" mean.flatten                                                            -- 108
  Show.save "hyperparameters_std" std.flatten                                                              -- 109
  return s

end PyPDP
