/-
Model of `visualize_bad_nll` in examples/main_paper.py: the loop over the replications, the averages, and the figure with two axes.

Parameters as in Model/Main, once for every replication (the seeds 0, 1, ...); `order` is the order of the hyperparameters for the function of line 427.
`delta_nll` may become nan, which is carried along as an error value. Left out: legends, titles (the numbers in them are returned), the sharing of limits
between the two axes, saving and showing the figure. (`grid_points` does not depend on whether the curve has been read before.)
-/
import Verif.Model.MainPaper
import Verif.Model.Plots

namespace PyPDP

/-- what one replication computes -/
structure BadRun (S : Type) where
  space : ConfigSpace ℝ
  sampler : BOState (Config ℝ) ℝ GpSurrogate S
  incumbent : Config ℝ
  root : Node ℝ
  region : Node ℝ
  implied : ConfigSpace ℝ
  offset : ℝ
  nllBase : ℝ
  nllRegion : ℝ
  pdp : IceCurve ℝ
  grid : List (List ℝ)
  part : IceCurve ℝ

/-- `['x2', 'x3']` for three dimensions -/
def otherNames (d : Nat) : List (SelItem ℝ) := (List.range (d - 1)).map fun j => .name ("x" ++ toString (j + 2))

/-- examples/main_paper.py:373-406, up to the sums. `d = 3`, `kind = LowerConfidenceBound(0.1)`, `n = 80`, `nCandidates = 100`, `perAxis = 20`,
`numSplits = 100`, `minPoints = 10` (defaults), `depth = 3`. -/
noncomputable def badReplication {S : Type} (d : Nat) (kind : AcqKind) (n nCandidates : Int) (perAxis numSplits minPoints : Nat) (depth : Int)
    (i : MainInput S) : Py (BadRun S) := do
  let f ← forNDimensions i.order (-5) 5 false styblinskiTangValue (d : ℝ) none none                       -- 373
  let (env, m) ← gpSampler i.choose kind true (d * 4) (f.cs.map Hp.name) i.drawer i.acqDrawer nCandidates -- 375-376
  let start := samplerInit i.ofVec i.file
    { rng := i.rng, model := m, eta := none, fittedHash := none, nextObj := 0, lastFit := none, fits := 0 }
  match boSample (callObjective i.inv f) env start (n + (d * 4 : Nat)) with                               -- 377
  | (_, some e) => .error e
  | (sampler, none) =>
    match GpSurrogate.new.fit i.choose (sampler.configs.map Config.vector) sampler.ys with                -- 379-380
    | (_, .error e) => .error e
    | (surrogate, .ok _) =>
      let samples ← samplesOf i.iceDraws
      let c ← algorithmInit f.cs surrogate.predict (.name "x1") samples perAxis                           -- 382
      let tree ← dtFromIce (iceInit c) numSplits minPoints none                                           -- 383
      match dtPartition tree depth with                                                                   -- 384
      | (_, .error e) => .error e
      | (tree', .ok _) =>
        match ← incumbent true sampler with                                                               -- 385
        | (none, _) => .error .attribute
        | (some best, _) =>
          match ← dtIncumbentRegion tree' best with
          | none => .error .attribute
          | some region =>
            let _ ← styblinskiTangPdIntegral i.order f.cs (otherNames d)                                  -- 387
            let implied ← regionImplied f.cs region.conds                                                 -- 389
            let (_, offset) ← styblinskiTangPdIntegral i.order implied (otherNames d)                     -- 390
            let nllBase ← negativeLogLikelihood i.inv f.cs c.selected tree'.root (trueStyblinskiTang i.order f.cs)     -- 394
            let nllRegion ← negativeLogLikelihood i.inv f.cs c.selected region (trueStyblinskiTang i.order implied)    -- 395
            let pdp ← pdpFromIce (iceInit c)                                                              -- 399
            let curve ← (pdpCurve pdp).2                                                                  -- 400-401
            let grid ← (pdpGrid pdp).2                                                                    -- 402
            let part ← regionPdp f.cs c.selected region                                                   -- 405-406
            return ⟨f.cs, sampler, best, tree'.root, region, implied, offset, nllBase, nllRegion, curve, grid, part⟩

/-- the variables that are summed up; the arrays start as the number 0 -/
structure BadSums where
  base : ℝ
  region : ℝ
  delta : Py ℝ
  offset : ℝ
  y : Option (List ℝ)
  var : Option (List ℝ)
  yRegion : Option (List ℝ)
  varRegion : Option (List ℝ)
  grid : Option (List (List ℝ))

/-- examples/main_paper.py:361-371 -/
noncomputable def BadSums.zero : BadSums := ⟨0, 0, .ok 0, 0, none, none, none, none, none⟩

/-- `a = a + b` for arrays; ValueError for different lengths (simplified: a single entry is not broadcast) -/
def addArray (a : Option (List ℝ)) (b : List ℝ) : Py (Option (List ℝ)) :=
  match a with
  | none => .ok (some b)
  | some a => if a.length = b.length then .ok (some (List.zipWith (· + ·) a b)) else .error .value

/-- examples/main_paper.py:391-406: one replication is added -/
noncomputable def BadSums.add {S : Type} (s : BadSums) (r : BadRun S) : Py BadSums := do
  let base := s.base + r.nllBase                                                                          -- 394
  let region := s.region + r.nllRegion                                                                    -- 395
  let delta : Py ℝ := do return (← s.delta) + (← calculateLogDelta region base)                           -- 396
  let y ← addArray s.y r.pdp.y                                                                            -- 400
  let var ← addArray s.var r.pdp.v                                                                        -- 401
  let yRegion ← addArray s.yRegion r.part.y                                                               -- 405
  let varRegion ← addArray s.varRegion r.part.v                                                           -- 406
  return ⟨base, region, delta, s.offset + r.offset, y, var, yRegion, varRegion, some r.grid⟩

/-- examples/main_paper.py:372-406 -/
noncomputable def badLoop {S : Type} (one : MainInput S → Py (BadRun S)) : BadSums → List (MainInput S) → Py (BadSums × List (BadRun S))
  | s, [] => .ok (s, [])
  | s, i :: rest => do
    let r ← one i
    let s ← s.add r
    let (s, rs) ← badLoop one s rest
    return (s, r :: rs)

/-- `a / num_replications` for arrays; the number 0 divided by 0 is a ZeroDivisionError -/
noncomputable def divideArray (a : Option (List ℝ)) (n : Nat) : Py (List ℝ) :=
  match a with
  | none => .error .zeroDivision
  | some a => .ok (a.map fun v => v / n)

/-- examples/main_paper.py:435-438, 443-446: one axis -/
noncomputable def badAxis (x y var : List ℝ) (truth : List (String × Val ℝ) → Py ℝ) (cs : ConfigSpace ℝ) (perPlot : Nat) : Plot ℝ Unit := do
  confidenceGradients x y none (some var) "lightblue" 100 (3 / 2)
  confidenceLines x y none (some var) "lightblue" (.seq [0, 1, 2])
  plotLine "red" x y
  plotFunction truth cs perPlot "black"

/-- the numbers of the titles and the two axes -/
structure BadFigure (S : Type) where
  runs : List (BadRun S)
  base : ℝ
  region : ℝ
  delta : Py ℝ
  left : Ax ℝ
  right : Ax ℝ

/-- examples/main_paper.py:352-450 `visualize_bad_nll`; `perPlot = 200` -/
noncomputable def badNll {S : Type} (order : SpaceOrder ℝ) (inv : Hp ℝ → Val ℝ → ℝ) (d : Nat) (kind : AcqKind) (n nCandidates : Int)
    (perAxis numSplits minPoints : Nat) (depth : Int) (perPlot : Nat) (reps : List (MainInput S)) : Py (BadFigure S) := do
  let (s, runs) ← badLoop (badReplication d kind n nCandidates perAxis numSplits minPoints depth) .zero reps
  let y ← divideArray s.y reps.length                                                                     -- 409
  let var ← divideArray s.var reps.length
  let yRegion ← divideArray s.yRegion reps.length
  let varRegion ← divideArray s.varRegion reps.length                                                     -- 412
  let base := s.base / reps.length
  let region := s.region / reps.length
  let delta : Py ℝ := do return 100 * (← s.delta) / reps.length                                           -- 415
  let offset := s.offset / reps.length
  let f ← forNDimensions order (-5) 5 false styblinskiTangValue (d : ℝ) none none                         -- 427
  let (truth, _) ← styblinskiTangPdIntegral order f.cs (otherNames d)                                     -- 428
  let grid ← match s.grid with
    | none => .error .attribute
    | some g => .ok g
  let points ← unscale DType.float (.d2 grid) truth.cs                                                    -- 429
  let rows ← points.asRows
  let x ← numberColumn 0 rows
  let shifted : List (String × Val ℝ) → Py ℝ := fun args => do return (← truth.call inv args) + offset    -- 431-432
  match badAxis x y var (truth.call inv) truth.cs perPlot Ax.new with                                     -- 435-438
  | (_, .error e) => .error e
  | (left, .ok _) =>
    match badAxis x yRegion varRegion shifted truth.cs perPlot Ax.new with                                -- 443-446
    | (_, .error e) => .error e
    | (right, .ok _) => return ⟨runs, base, region, delta, left, right⟩

end PyPDP
