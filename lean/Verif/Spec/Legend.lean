/-
Vocabulary for the legends of the plots.
-/
import Verif.Model.Legend
import Verif.Spec.Plots

namespace PyPDP.Spec

/-- a name with which a label may begin: matplotlib does not list labels that are empty or begin with an underscore -/
def VisibleName (name : String) : Prop := name ≠ "" ∧ name.toList.head? ≠ some '_'

/-- `h` is the integer next to `x`; of two equally near ones the even one -/
def Rounds (x : ℝ) (h : Int) : Prop := |x - h| ≤ 1 / 2 ∧ (|x - h| = 1 / 2 → h % 2 = 0)

/-- How a factor is written: an integer in full, another number with two decimals, rounded. -/
def FactorText : Factor → String → Prop
  | .int n, t => t = toString n
  | .float x, t => ∃ h : Nat, Rounds (100 * x) h ∧ t = s!"{h / 100}.{h / 10 % 10}{h % 10}"

/-- Factors that cannot be told apart by how they are written: the same integer, or numbers that agree after rounding to two decimals. -/
def LooksLike : Factor → Factor → Prop
  | .int n, .int m => n = m
  | .float x, .float y => ∃ h, Rounds (100 * x) h ∧ Rounds (100 * y) h
  | _, _ => False

/-- what a plot adds to an axis: shapes, and the labelled ones among them -/
def Adds {K : Type} (la la' : LAx K) (shapes : List (Shape K)) (entries : List (String × Shape K)) : Prop :=
  la'.ax.shapes = la.ax.shapes ++ shapes ∧ la'.handles = la.handles ++ entries

/-- bands, and the two pairs of lines; the lower lines are in the legend -/
def AddsConfidence (name color : String) (xs y s : List ℝ) (la la' : LAx ℝ) : Prop :=
  ∃ bands a b c d, bands.length = 100 ∧ LinesOf color xs y s 1 [a, b] ∧ LinesOf color xs y s 2 [c, d] ∧
    Adds la la' (bands ++ [a, b, c, d]) [(name ++ "-$\\mu\\pm$1$\\sigma$", a), (name ++ "-$\\mu\\pm$2$\\sigma$", c)]

/-- the label of the points of a sampler: the given one, or their number and the class -/
def SamplerText (cls : String) (n : Nat) (label : Option String) (text : String) : Prop :=
  label = some text ∨ label = none ∧ text = s!"Sampled points ({n}, {cls})"

end PyPDP.Spec
