/-
Specification vocabulary for the `plot` methods.
-/
import Verif.Model.Plots
import Verif.Spec.Plotting
import Verif.Spec.Ice
import Verif.Spec.Sampler
import Verif.Spec.Partitioner

namespace PyPDP.Spec
variable {K : Type}

/-- A curve whose data fit its space: numerical hyperparameters only, one row of normalised values per grid point, selected
hyperparameters of the space. -/
structure ValidCurve (c : IceCurve ℝ) : Prop where
  declared : ∀ hp ∈ c.space, ∃ l u g, Declares c.space hp.name l u g
  rows : ∀ r ∈ c.x, r.length = c.space.length ∧ ∀ e ∈ r, 0 ≤ e ∧ e ≤ 1
  values : c.y.length = c.x.length
  variances : c.v.length = c.x.length
  selected : ∀ hp ∈ c.selected, hp ∈ c.space

/-- `v` is the value of hyperparameter `hp` in natural units at the point with normalised coordinates `row`. -/
def NaturalAt (cs : ConfigSpace ℝ) (hp : Hp ℝ) (row : List ℝ) (v : ℝ) : Prop :=
  ∃ f l u g e, IsFeature cs hp f ∧ (hp.kind = .float l u g ∨ hp.kind = .integer l u g) ∧ row[f]? = some e ∧ v = interpolate l u g e

/-- the non-negative square roots, entry by entry -/
def StdsOf (variances stds : List ℝ) : Prop := List.Forall₂ (fun v s => 0 ≤ s ∧ s * s = v) variances stds

/-- Attributes of an ICE or PDP over numerical hyperparameters, with normalised samples and a surrogate that predicts row by row. -/
structure Plottable (c : IceCfg ℝ) (mu sd : List ℝ → ℝ) : Prop where
  valid : ValidCfg c
  declared : ∀ hp ∈ c.space, ∃ l u g, Declares c.space hp.name l u g
  unit : ∀ r ∈ c.samples, ∀ e ∈ r, 0 ≤ e ∧ e ≤ 1
  samples : c.samples ≠ []
  points : c.perAxis ≠ 0
  predict : RowWise c.space.length c.predict mu sd

/-- the `i`-th of `n` evenly spaced values of `[0, 1]` -/
noncomputable def gridValue (n i : Nat) : ℝ := if n = 1 then 0 else (i : ℝ) / ((n : ℝ) - 1)

/-- the mean over the samples of a function of the row -/
noncomputable def meanOver (samples : List (List ℝ)) (h : List ℝ → ℝ) : ℝ := (samples.map h).sum / samples.length

/-- A line that shows a curve: its values over the natural-unit coordinates of hyperparameter `hp`. -/
def LineOf (cs : ConfigSpace ℝ) (hp : Hp ℝ) (color : String) (c : Curve ℝ) (s : Shape ℝ) : Prop :=
  ∃ xs, s = .line color xs c.2.1 ∧ List.Forall₂ (NaturalAt cs hp) c.1 xs

/-- A confidence plot: 100 nested bands of less than `maxSigma` standard deviations `s` around the values `y`, and the lines one and two
standard deviations off. -/
def ShowsConfidence (lineColor gradientColor : String) (maxSigma : ℝ) (xs y s : List ℝ) (shapes : List (Shape ℝ)) : Prop :=
  ∃ fs bands one two, shapes = bands ++ one ++ two ∧ List.Forall₂ (BandOf gradientColor xs y s) fs bands ∧ fs.length = 100 ∧
    fs.Pairwise (· < ·) ∧ (∀ f ∈ fs, 0 ≤ f ∧ f < maxSigma) ∧ bands.Pairwise Inside ∧ LinesOf lineColor xs y s 1 one ∧
    LinesOf lineColor xs y s 2 two

/-- The contract of `np.argsort`: the positions of the array, in an order that sorts it. -/
structure Argsort [LE K] (argsort : List K → List Nat) : Prop where
  perm : ∀ a, (argsort a).Perm (List.range a.length)
  sorts : ∀ a sorted, List.Forall₂ (fun i v => a[i]? = some v) (argsort a) sorted → sorted.Pairwise (· ≤ ·)

/-- The values of the hyperparameter `name` in the configurations, one after the other. -/
def ReadsAs (name : String) (configs : List (Config K)) (xs : List K) : Prop :=
  List.Forall₂ (fun c v => c.get? name = some (.num v)) configs xs

/-- `[lo, hi]` are the ends of a hyperparameter: the bounds of a numerical one, twice the value of a constant. -/
def EndsOf (hp : Hp K) (lo hi : K) : Prop :=
  (∃ g, hp.kind = .float lo hi g ∨ hp.kind = .integer lo hi g) ∨ (hp.kind = .constant (.num lo) ∧ hi = lo)

/-- curves with normalised points -/
def UnitCurves (L : List (Curve ℝ)) : Prop := ∀ c ∈ L, ∀ r ∈ c.1, ∀ e ∈ r, 0 ≤ e ∧ e ≤ 1

end PyPDP.Spec
