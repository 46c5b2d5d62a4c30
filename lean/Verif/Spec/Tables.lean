/-
Specification vocabulary for C111-C113: log files of the example scripts.
-/
import Verif.Model.Tables

namespace PyPDP.Spec
variable {K : Type} [Field K] [LinearOrder K]

/-- The cell holds a number. -/
def IsNumber (c : Cell K) : Prop := ∃ t : K, (∃ n : Int, c = .int n ∧ t = n) ∨ c = .float t

/-- The number in a cell. -/
def cellValue : Cell K → K
  | .int n => n
  | .float t => t
  | _ => 0

/-- By how many percent `v` lies below `base`, relative to `|base|`. -/
def reduction (v base : K) : K := (base - v) / |base| * 100

/-- `m` is the average of `xs`. -/
def AverageOf (xs : List K) (m : K) : Prop := xs ≠ [] ∧ (xs.length : K) * m = xs.sum

/-- The average reduction over some pairs `(v, base)`; nan if a base is zero. -/
def AverageReduction (pairs : List (K × K)) (r : Option K) : Prop :=
  ((∃ p ∈ pairs, p.2 = 0) ∧ r = none) ∨ ((∀ p ∈ pairs, p.2 ≠ 0) ∧ ∃ m, r = some m ∧ AverageOf (pairs.map fun p => reduction p.1 p.2) m)

/-- The average of numbers that may be nan. -/
def OptAverage (xs : List (Option K)) (r : Option K) : Prop :=
  (none ∈ xs ∧ r = none) ∨ ∃ vs m, xs = vs.map some ∧ r = some m ∧ AverageOf vs m

/-- The value of a line in the column `name`. -/
def lineValue (name : String) (l : PaperLine K) : Option K :=
  if name = "mmd" then l.mmd
  else if name = "base_mc" then some l.baseMc
  else if name = "base_nll" then some l.baseNll
  else if name = "mc" then some l.mc
  else some l.nll

/-- Every combination of dimension, `tau` and number of splits that occur occurs in a line. -/
def Complete (lines : List (PaperLine K)) : Prop :=
  ∀ a ∈ lines, ∀ b ∈ lines, ∀ c ∈ lines, ∃ l ∈ lines, l.dimension = a.dimension ∧ cellValue l.tau = cellValue b.tau ∧ l.splits = c.splits

/-- Every combination of dimension and `tau` that occur occurs in a line. -/
def CompletePairs (lines : List (PaperLine K)) : Prop :=
  ∀ a ∈ lines, ∀ b ∈ lines, ∃ l ∈ lines, l.dimension = a.dimension ∧ cellValue l.tau = cellValue b.tau

/-- Exactly the values `f` takes on the lines, each once, in increasing order. -/
def SortedValues {α : Type} (r : α → α → Prop) (f : PaperLine K → α) (lines : List (PaperLine K)) (vs : List α) : Prop :=
  vs.Pairwise r ∧ ∀ v, v ∈ vs ↔ ∃ l ∈ lines, f l = v

/-- The lines for one dimension and one `tau`. -/
def linesFor (lines : List (PaperLine K)) (d : Int) (t : K) : List (PaperLine K) :=
  lines.filter fun l => decide (l.dimension = d ∧ cellValue l.tau = t)

/-- The lines for one dimension, one `tau` and one number of splits. -/
def linesAt (lines : List (PaperLine K)) (d : Int) (t : K) (s : Int) : List (PaperLine K) :=
  (linesFor lines d t).filter fun l => decide (l.splits = s)

/-- `s` is the standard deviation of `xs`. -/
def IsDeviation (xs : List ℝ) (s : ℝ) : Prop := ∃ m, AverageOf xs m ∧ 0 ≤ s ∧ (xs.length : ℝ) * s ^ 2 = (xs.map fun x => (x - m) ^ 2).sum

/-- The standard deviation of numbers that may be nan. -/
def OptDeviation (xs : List (Option ℝ)) (r : Option ℝ) : Prop :=
  (none ∈ xs ∧ r = none) ∨ ∃ vs s, xs = vs.map some ∧ r = some s ∧ IsDeviation vs s

/-- What a replication of the random forest script measures: a forest with a number of trees, or the decision tree (`none`); the mean confidence of
the whole and of the region, if there is one. -/
structure Measurement where
  trees : Option Int
  base : ℝ
  region : Option ℝ

/-- All measurements of all replications. -/
def measurements {S : Type} (reps : List (Int × ForestResult S)) : List Measurement :=
  reps.flatMap fun p => (p.2.rows.map fun row => ⟨some row.numTrees, row.base, row.region.toOption⟩) ++ [⟨none, p.2.dtBase, some p.2.dtRegion⟩]

/-- The reduction of a measurement in percent, if it is a number. -/
noncomputable def Measurement.reduction (m : Measurement) : Option ℝ := if m.base = 0 then none else m.region.map fun v => Spec.reduction v m.base

/-- The reductions measured for the given number of trees, or for the decision tree. -/
noncomputable def reductionsFor {S : Type} (reps : List (Int × ForestResult S)) (t : Option Int) : List (Option ℝ) :=
  ((measurements reps).filter fun m => decide (m.trees = t)).map Measurement.reduction

end PyPDP.Spec
