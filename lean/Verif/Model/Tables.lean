/-
Model of the functions of the example scripts that read a log file back: `plot_tree_data` (examples/main_random_forest.py), `figure_6_drawing` and
`table_1_drawing` (examples/main_paper.py), and of how the two generating functions write it.

A file is a list of lines, a line a list of cells. A number read back is the number written (`repr` of a float is exact). Contract of pandas:
`read_csv` takes the first line as the names; a column becomes integers if all its cells are, floats if all are numbers or nan, and else keeps the
text of its cells (object). (Files below 256 KiB; larger ones are inferred in chunks.) `groupby` puts the rows with equal keys together in their
order; the order of the groups is not used by the code. Arithmetic with a text is a TypeError. Contract of matplotlib: `subplots(r, c)` returns an
array with the dimensions of size 1 left out; `boxplot` computes with its data.
Left out: the layout of what is printed, tick labels, titles, legends.
-/
import Verif.Model.MainForest
import Verif.Model.MainPaper
import Verif.Model.Plotting
import Mathlib.Data.List.Sort

namespace PyPDP

section cells
variable {K : Type}

/-- what stands between two commas of a line -/
inductive Cell (K : Type)
  | int (n : Int)
  | float (x : K)
  | nan
  | text (s : String)
  deriving DecidableEq, Repr

/-- an entry of a data frame; `str`: the text of a cell -/
inductive Entry (K : Type)
  | int (n : Int)
  | float (x : K)
  | nan
  | str (c : Cell K)
  deriving DecidableEq, Repr

/-- the type of a column -/
inductive ColKind
  | int | float | object
  deriving DecidableEq, Repr

def Cell.isInt : Cell K → Bool
  | .int _ => true
  | _ => false

def Cell.isText : Cell K → Bool
  | .text _ => true
  | _ => false

/-- `pd.read_csv`: the type of a column -/
def kindOf (cells : List (Cell K)) : ColKind :=
  if cells.all Cell.isInt then .int
  else if cells.any Cell.isText then .object
  else .float

/-- the entry for a cell of a column of the given type -/
def Cell.entry [IntCast K] : ColKind → Cell K → Entry K
  | .int, .int n => .int n
  | .float, .int n => .float n
  | .float, .float x => .float x
  | _, .nan => .nan
  | _, c => .str c

/-- a `pd.DataFrame` -/
structure Frame (K : Type) where
  names : List String
  rows : List (List (Entry K))
  deriving DecidableEq, Repr

def Cell.name? : Cell K → Option String
  | .text s => some s
  | _ => none

/-- `pd.read_csv(file, header=0)`. An empty file is an EmptyDataError, a line that is too long a ParserError (both ValueErrors); a short line is filled
with nan. Names are texts in all files considered. -/
def readCsv [IntCast K] : List (List (Cell K)) → Py (Frame K)
  | [] => .error .value
  | header :: lines =>
    if lines.any fun l => decide (header.length < l.length) then .error .value
    else
      .ok ⟨header.filterMap Cell.name?, lines.map fun l => (List.range header.length).map fun j =>
        (l.getD j .nan).entry (kindOf (lines.map (·.getD j .nan)))⟩

/-- the position of a column, `e` if there is none of that name -/
def Frame.column (f : Frame K) (e : PyErr) (name : String) : Py Nat :=
  match f.names.findIdx? (· == name) with
  | some j => .ok j
  | none => .error e

/-- `int(s)` for the text of an entry -/
def Entry.toInt : Entry K → Py Int
  | .int n => .ok n
  | .str (.int n) => .ok n
  | _ => .error .value

/-- `float(s)` for the text of an entry -/
def Entry.toFloat [IntCast K] : Entry K → Py K
  | .int n => .ok n
  | .float x => .ok x
  | .nan => .error .nan
  | .str (.int n) => .ok n
  | .str (.float x) => .ok x
  | .str .nan => .error .nan
  | .str (.text _) => .error .value

/-- `"dimension" in group_key`, one part of the key -/
def Entry.mentionsDimension : Entry K → Bool
  | .str (.text s) => decide ("dimension".toList <:+: s.toList)
  | _ => false

/-- an entry as a number; `none` for nan. A text is no number: TypeError in any arithmetic. -/
def Entry.number [IntCast K] : Entry K → Py (Option K)
  | .int n => .ok (some n)
  | .float x => .ok (some x)
  | .nan => .ok none
  | .str _ => .error .type

/-- `df.groupby(...)`: the keys with their rows. The key of a row consists of the entries in the given columns. -/
def Frame.groups [DecidableEq K] (f : Frame K) (cols : List Nat) : List (List (Entry K) × List (List (Entry K))) :=
  let key := fun row : List (Entry K) => cols.map fun j => row.getD j .nan
  (f.rows.map key).dedup.map fun k => (k, f.rows.filter fun row => decide (key row = k))

/-- the numbers in column `j` of some rows -/
def numbersOf [IntCast K] (j : Nat) (rows : List (List (Entry K))) : Py (List (Option K)) := rows.mapM fun row => (row.getD j .nan).number

end cells

section stats
variable {K : Type} [Field K] [LinearOrder K]

/-- `np.mean`; nan if there is a nan or nothing at all -/
def optMean (xs : List (Option K)) : Option K :=
  match xs with
  | [] => none
  | _ => (xs.mapM id).map fun v => v.sum / (v.length : K)

/-- `calculate_log_delta` on floats that may be nan; nan or infinite for a zero root -/
def optDelta (nll root : Option K) : Option K := do
  let a ← nll
  let r ← root
  match calculateLogDelta a r with
  | .ok v => some v
  | .error _ => none

/-- `calculate_log_delta(df.values[data, idx], df.values[data, idx_base])` -/
def deltas (idx base : Nat) (rows : List (List (Entry K))) : Py (List (Option K)) := do
  let b ← numbersOf base rows
  let a ← numbersOf idx rows
  return List.zipWith optDelta a b

end stats

/-! ### the table of the paper -/

section paper
variable {K : Type} [Field K] [LinearOrder K]

/-- examples/main_paper.py:176 -/
def paperHeader : List (Cell K) := ["seed", "dimension", "tau", "splits", "mmd", "base_mc", "base_nll", "mc", "nll"].map .text

/-- what a replication reports for one dimension and one `tau`: a line for each number of splits -/
structure PaperLine (K : Type) where
  seed : Int
  dimension : Int
  /-- the argument `tau`, an int or a float -/
  tau : Cell K
  splits : Int
  mmd : Option K
  baseMc : K
  baseNll : K
  mc : K
  nll : K

def optCell : Option K → Cell K
  | some x => .float x
  | none => .nan

/-- line 213 -/
def PaperLine.cells (l : PaperLine K) : List (Cell K) :=
  [.int l.seed, .int l.dimension, l.tau, .int l.splits, optCell l.mmd, .float l.baseMc, .float l.baseNll, .float l.mc, .float l.nll]

/-- lines 175-176, 213: what one call of `figure_6_table_1_data_generation` appends to the file -/
def paperLog (lines : List (PaperLine K)) : List (List (Cell K)) := paperHeader :: lines.map PaperLine.cells

/-- the lines for one seed, one dimension and one `tau` (lines 206-213) -/
def paperLines {S : Type} (seed dimension : Int) (tau : Cell ℝ) (r : PaperResult S) : List (PaperLine ℝ) :=
  r.rows.map fun row => ⟨seed, dimension, tau, row.splits, r.mmd.toOption, r.baseMc, r.baseNll, row.mc, row.nll⟩

/-- lines 306-309: the keys (dimension, tau, splits) with their rows -/
def parseKey3 (key : List (Entry K)) : Py (Int × K × Int) :=
  match key with
  | [a, b, c] => do
    let d ← a.toInt
    let t ← b.toFloat
    let s ← c.toInt
    return (d, t, s)
  | _ => .error .value

/-- lines 235-237: the keys (dimension, tau) -/
def parseKey2 (key : List (Entry K)) : Py (Int × K) :=
  match key with
  | [a, b] => do
    let d ← a.toInt
    let t ← b.toFloat
    return (d, t)
  | _ => .error .value

/-- the loop over `grouped.groups`: keys that mention "dimension" are skipped -/
def parseGroups {κ : Type} (parse : List (Entry K) → Py κ) (groups : List (List (Entry K) × List (List (Entry K)))) :
    Py (List (κ × List (List (Entry K)))) :=
  (groups.filter fun g => !g.1.any Entry.mentionsDimension).mapM fun g => do
    let k ← parse g.1
    return (k, g.2)

/-- `grouped.groups[keys[...]]`: a later entry of the dictionary `keys` replaces an earlier one -/
def rowsFor {κ : Type} [DecidableEq κ] (k : κ) (parsed : List (κ × List (List (Entry K)))) : Py (List (List (Entry K))) :=
  match parsed.reverse.find? fun p => decide (p.1 = k) with
  | some p => .ok p.2
  | none => .error .key

/-- a printed line of the table -/
structure TableRow (K : Type) where
  dimension : Int
  tau : K
  mmd : Option K
  deltaMc : List (Option K)
  deltaNll : List (Option K)
  deriving DecidableEq, Repr

/-- positions of the columns (lines 316-321) -/
structure PaperColumns where
  mmd : Nat
  mc : Nat
  baseMc : Nat
  nll : Nat
  baseNll : Nat

def percent (v : Option K) : Option K := v.map (· * 100)

/-- lines 339-344: the numbers for one number of splits; `none` in the code is an empty group, which is skipped -/
def tableCell (c : PaperColumns) (rows : List (List (Entry K))) : Py (Option K × Option K × Option K) := do
  let m ← numbersOf c.mmd rows
  let dm ← deltas c.mc c.baseMc rows
  let dn ← deltas c.nll c.baseNll rows
  return (optMean m, percent (optMean dm), percent (optMean dn))

/-- lines 332-349: one line. There is at least one number of splits whenever there is a dimension. -/
def tableRow (c : PaperColumns) (parsed : List ((Int × K × Int) × List (List (Entry K)))) (splits : List Int) (d : Int) (t : K) : Py (TableRow K) := do
  let cells ← splits.mapM fun s => do
    let rows ← rowsFor (d, t, s) parsed
    tableCell c rows
  let first ← pyGet cells 0                                                     -- 349
  return ⟨d, t, first.1, cells.map (·.2.1), cells.map (·.2.2)⟩

/-- the sorted elements of a set -/
def sortedSet {α : Type} [LinearOrder α] (l : List α) : List α := l.dedup.insertionSort (· ≤ ·)

/-- `sorted(..., reverse=True)` of a set -/
def sortedSetDown {α : Type} [LinearOrder α] (l : List α) : List α := l.dedup.insertionSort (· ≥ ·)

/-- examples/main_paper.py:288-349 `table_1_drawing` -/
def table1 (file : List (List (Cell K))) : Py (List (TableRow K)) := do
  let df ← readCsv file                                                         -- 291
  let cd ← df.column .key "dimension"                                           -- 294
  let ct ← df.column .key "tau"
  let cs ← df.column .key "splits"
  let parsed ← parseGroups parseKey3 (df.groups [cd, ct, cs])                   -- 296-314
  let mmd ← df.column .value "mmd"                                              -- 316-321
  let mc ← df.column .value "mc"
  let baseMc ← df.column .value "base_mc"
  let nll ← df.column .value "nll"
  let baseNll ← df.column .value "base_nll"
  let dims := sortedSet (parsed.map (·.1.1))                                    -- 324-326
  let taus := sortedSetDown (parsed.map (·.1.2.1))
  let splits := sortedSet (parsed.map (·.1.2.2))
  (dims.flatMap fun d => taus.map fun t => (d, t)).mapM fun dt =>               -- 331-332
    tableRow ⟨mmd, mc, baseMc, nll, baseNll⟩ parsed splits dt.1 dt.2

/-! ### figure 6 -/

/-- one column of axes: `tau` (the title) and, for each of the `columns`, the data of the boxes, one per dimension -/
structure BoxPanel (K : Type) where
  tau : K
  boxes : List (List (List (Option K)))
  deriving DecidableEq, Repr

/-- `axes[:, i]` for the array returned by `plt.subplots(nrows, ncols)` -/
def axesColumn (nrows ncols : Nat) : Py Unit :=
  if 2 ≤ nrows ∧ 2 ≤ ncols then .ok ()
  else if nrows = 1 ∧ ncols = 1 then .error .type                               -- a single `Axes`
  else .error .index                                                            -- a one-dimensional array

/-- examples/main_paper.py:217-285 `figure_6_drawing`: the dimensions (labels of the x axis) and the panels from left to right -/
def figure6 (file : List (List (Cell K))) (columns : List String) : Py (List Int × List (BoxPanel K)) := do
  let df ← readCsv file                                                         -- 221
  let cd ← df.column .key "dimension"                                           -- 224
  let ct ← df.column .key "tau"
  let parsed ← parseGroups parseKey2 (df.groups [cd, ct])                       -- 226-241
  let idx ← columns.mapM (df.column .value)                                     -- 244
  let dims := sortedSet (parsed.map (·.1.1))
  let taus := sortedSet (parsed.map (·.1.2))
  if columns.length = 0 ∨ taus.length = 0 then .error .value                    -- 248
  else do
    let panels ← taus.mapM fun t => do
      axesColumn columns.length taus.length                                     -- 257
      let data ← dims.mapM fun d => rowsFor (d, t) parsed                       -- 261-262
      let boxes ← idx.mapM fun j => data.mapM (numbersOf j)                     -- 267-273
      return (⟨t, boxes⟩ : BoxPanel K)
    return (dims, panels)

end paper

/-! ### the comparison of forests -/

/-- examples/main_random_forest.py:46 -/
def forestHeader : List (Cell ℝ) := ["seed", "num_trees", "base_mc", "region_mc"].map .text

/-- nan is written as such -/
def pyCell : Py ℝ → Cell ℝ
  | .ok x => .float x
  | .error _ => .nan

/-- lines 72, 81: the lines of one replication -/
def forestLines {S : Type} (seed : Int) (r : ForestResult S) : List (List (Cell ℝ)) :=
  (r.rows.map fun row => [.int seed, .int row.numTrees, .float row.base, pyCell row.region]) ++
    [[.int seed, .text "dt", .float r.dtBase, .float r.dtRegion]]

/-- lines 45-46, 72, 81: what one call of `generate_data_trees` appends to the file -/
def forestLog {S : Type} (reps : List (Int × ForestResult S)) : List (List (Cell ℝ)) := forestHeader :: reps.flatMap fun p => forestLines p.1 p.2

/-- `np.std`; nan if there is a nan -/
noncomputable def optStd (xs : List (Option ℝ)) : Option ℝ :=
  match xs with
  | [] => none
  | _ => (xs.mapM id).map npStd

/-- what `plot_tree_data` draws: mean and standard deviation of the percentages, for the decision tree and for each number of trees -/
structure TreeFigure where
  dtMean : Option ℝ
  dtStd : Option ℝ
  xs : List Int
  means : List (Option ℝ)
  stds : List (Option ℝ)

/-- lines 98-103, 120-126: mean and standard deviation for one group -/
noncomputable def treeGroup (region base : Nat) (rows : List (List (Entry ℝ))) : Py (Option ℝ × Option ℝ) := do
  let d ← deltas region base rows
  return (percent (optMean d), percent (optStd d))

/-- `result_dict[key]` -/
noncomputable def groupNamed (key : List (Entry ℝ)) (groups : List (List (Entry ℝ) × List (List (Entry ℝ)))) : Py (List (List (Entry ℝ))) :=
  match groups.find? fun g => decide (g.1 = key) with
  | some g => .ok g.2
  | none => .error .key

/-- the entry whose text is `str(n)`: the column is an integer one, or keeps the text -/
noncomputable def groupNumbered (n : Int) (groups : List (List (Entry ℝ) × List (List (Entry ℝ)))) : Py (List (List (Entry ℝ))) :=
  match groups.find? fun g => decide (g.1 = [.int n] ∨ g.1 = [.str (.int n)]) with
  | some g => .ok g.2
  | none => .error .key

/-- examples/main_random_forest.py:84-131 `plot_tree_data`: the numbers -/
noncomputable def treeData (file : List (List (Cell ℝ))) : Py TreeFigure := do
  let df ← readCsv file                                                         -- 85
  let cn ← df.column .key "num_trees"                                           -- 87
  let groups := df.groups [cn]
  let region ← df.column .attribute "region_mc"                                 -- 90-91
  let base ← df.column .attribute "base_mc"
  let dt ← groupNamed [.str (.text "dt")] groups                                -- 97
  let (m, s) ← treeGroup region base dt                                         -- 98-103
  let xs ← ((groups.map (·.1)).filter fun k => decide (k ≠ [.str (.text "dt")])).mapM fun k =>   -- 112-114
    match k with
    | [e] => e.toInt
    | _ => .error .value
  let xs := xs.insertionSort (· ≤ ·)                             -- 115
  let stats ← xs.mapM fun n => do                                               -- 118-129
    let rows ← groupNumbered n groups
    treeGroup region base rows
  return ⟨m, s, xs, stats.map (·.1), stats.map (·.2)⟩

/-- a number that can be drawn; matplotlib leaves nan out, this is not followed -/
def drawable (v : Option ℝ) : Py ℝ :=
  match v with
  | some x => .ok x
  | none => .error .nan

/-- lines 107-109, 132-134: the drawing -/
noncomputable def drawTreeFigure (t : TreeFigure) : Plot ℝ Unit := do
  let m ← Plot.lift (drawable t.dtMean)
  let s ← Plot.lift (drawable t.dtStd)
  Plot.add (.points "red" [1] [m])                                              -- 107
  Plot.add (.points "orange" [1] [m + s])                                       -- 108
  Plot.add (.points "orange" [1] [m - s])                                       -- 109
  let ms ← Plot.lift (t.means.mapM drawable)
  let ss ← Plot.lift (t.stds.mapM drawable)
  let xs := t.xs.map fun n : Int => (n : ℝ)
  drawLine "black" 1 xs ms                                                      -- 132
  confidenceLines xs ms (some ss) none "black" (.seq [1])                       -- 133
  confidenceGradients xs ms (some ss) none "lightblue" 100 (3 / 2)                -- 134

end PyPDP
