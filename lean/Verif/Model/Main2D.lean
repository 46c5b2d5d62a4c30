/-
Model of examples/main_2d_pdp.py: partial dependence on two hyperparameters, with its figures and the files they are saved to.

Parameters and simplifications as in Model/Main.lean; `argsort` is `np.argsort` (not used for two hyperparameters). Left out: titles, image
contents beyond the shapes on the axes.
-/
import Verif.Model.Main
import Verif.Model.AdvancedPlots

namespace PyPDP

/-- `plt.savefig(folder / name)`: a file of this name is replaced -/
def saveFig {α : Type} (files : List (String × α)) (name : String) (fig : α) : List (String × α) := files.filter (fun p => decide (p.1 ≠ name)) ++ [(name, fig)]

structure TwoDimResult (S : Type) where
  sampler : BOState (Config ℝ) ℝ GpSurrogate S
  region : Node ℝ
  /-- the axis of the first figure -/
  means : Ax ℝ
  /-- the folder after the run: file names and the axes in the images -/
  files : List (String × List (Ax ℝ))

/-- examples/main_2d_pdp.py:17-61 `styblinski_tang_3d`. `d = 3`, `name1 = "x1"`, `name2 = "x2"`, `kind = LowerConfidenceBound(tau=0.1)`, `n = 80`,
`nCandidates = 100`, `perAxis = 20`, `numSplits = 100`, `minPoints = 10`, `depth = 1`. -/
noncomputable def twoDimScript {S : Type} (i : MainInput S) (argsort : List ℝ → List Nat) (d : Nat) (name1 name2 : String) (kind : AcqKind) (n nCandidates : Int)
    (perAxis numSplits minPoints : Nat) (depth : Int) : Py (TwoDimResult S) := do
  let f ← forNDimensions i.order (-5) 5 false styblinskiTangValue (d : ℝ) none none                         -- 28
  let (env, m) ← gpSampler i.choose kind true (d * 4) (f.cs.map Hp.name) i.drawer i.acqDrawer nCandidates   -- 29
  let start := samplerInit i.ofVec i.file
    { rng := i.rng, model := m, eta := none, fittedHash := none, nextObj := 0, lastFit := none, fits := 0 }
  match boSample (callObjective i.inv f) env start (n + d * 4) with                                         -- 31
  | (_, some e) => .error e
  | (sampler, none) =>
    match GpSurrogate.new.fit i.choose (sampler.configs.map Config.vector) sampler.ys with                  -- 33-34
    | (_, .error e) => .error e
    | (surrogate, .ok _) =>
      let selected := Selection.many [.name name1, .name name2]
      let samples ← samplesOf i.iceDraws
      let c ← algorithmInit f.cs surrogate.predict selected samples perAxis                                 -- 36
      let pdp ← pdpFromIce (iceInit c)                                                                      -- 37
      match pdpPlotValues "red" pdp Ax.new with                                                             -- 40
      | (_, _, .error e) => .error e
      | (pdp1, ax1, .ok _) =>
        match samplerPlot argsort "red" f.cs selected sampler ax1 with                                      -- 41
        | (_, .error e) => .error e
        | (axMeans, .ok _) =>
          let files := saveFig [] "mean_and_sampler" [axMeans]                                              -- 43
          match pdpPlotConfidences "red" "lightsalmon" (3 / 2) pdp1 Ax.new with                             -- 47
          | (_, _, .error e) => .error e
          | (pdp2, ax2, .ok _) =>
            match samplerPlot argsort "red" f.cs selected sampler ax2 with                                  -- 48
            | (_, .error e) => .error e
            | (axStds, .ok _) =>
              let files := saveFig files "mean_and_sampler" [axStds]                                        -- 50
              let ice ← pdpIce pdp2
              let tree ← dtFromIce ice numSplits minPoints none                                             -- 53
              match dtPartition tree depth with                                                             -- 54
              | (_, .error e) => .error e
              | (tree', .ok _) =>
                match ← incumbent true sampler with                                                         -- 55
                | (none, _) => .error .attribute
                | (some best, _) =>
                  match ← dtIncumbentRegion tree' best with
                  | none => .error .attribute
                  | some region =>
                    let part ← regionPdp f.cs tree'.cfg.selected region                                     -- 56
                    match curveWithConfidence part with                                                     -- 59
                    | (_, _, .error e) => .error e
                    | (axM, axS, .ok _) => return ⟨sampler, region, axMeans, saveFig files "region_pdp" [axM, axS]⟩   -- 60

end PyPDP
