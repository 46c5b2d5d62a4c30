/-
What the combined plots are supposed to show.
-/
import Verif.Spec.Plots
import Verif.Spec.Pdp

namespace PyPDP.Spec

/-- the `n` evenly spaced values of a numerical hyperparameter (bounds `l`, `u`; `g`: on a log scale), in natural units -/
noncomputable def naturalGrid (l u : ℝ) (g : Bool) (n : Nat) : List ℝ := (List.range n).map fun i => interpolate l u g (gridValue n i)

/-- the predictions for a sample with feature `f` set to each of the evenly spaced values -/
noncomputable def iceValues (mu : List ℝ → ℝ) (f n : Nat) (r : List ℝ) : List ℝ := (List.range n).map fun i => mu (r.set f (gridValue n i))

/-- the means over the samples of the predictions -/
noncomputable def pdpMeans (samples : List (List ℝ)) (mu : List ℝ → ℝ) (f n : Nat) : List ℝ :=
  (List.range n).map fun i => meanOver samples fun r => mu (r.set f (gridValue n i))

/-- the square roots of the means over the samples of the squared predicted standard deviations -/
noncomputable def pdpStds (samples : List (List ℝ)) (sd : List ℝ → ℝ) (f n : Nat) : List ℝ :=
  (List.range n).map fun i => Real.sqrt (meanOver samples fun r => sd (r.set f (gridValue n i)) ^ 2)

/-- an axis set up for one hyperparameter, with the given shapes -/
def AxisOne (hp : Hp ℝ) (ylabel : String) (l u : ℝ) (g : Bool) (ax : Ax ℝ) (shapes : List (Shape ℝ)) : Prop :=
  ax = ⟨hp.name, ylabel, g, false, some (l, u), none, shapes⟩

/-- an axis set up for two hyperparameters, with the given shapes -/
def AxisTwo (p q : Hp ℝ) (l u : ℝ) (g : Bool) (l' u' : ℝ) (g' : Bool) (ax : Ax ℝ) (shapes : List (Shape ℝ)) : Prop :=
  ax = ⟨p.name, q.name, g, g', some (l, u), some (l', u'), shapes⟩

/-- A surface over two hyperparameters: over every combination of evenly spaced values (once each, in natural units) the value of `h`
at it. -/
def Surface (l u : ℝ) (g : Bool) (l' u' : ℝ) (g' : Bool) (n : Nat) (h : ℝ → ℝ → ℝ) (shapes : List (Shape ℝ)) : Prop :=
  ∃ grid : List (ℝ × ℝ), grid.Nodup ∧ (∀ a b, (a, b) ∈ grid ↔ (∃ i < n, a = gridValue n i) ∧ ∃ j < n, b = gridValue n j) ∧
    shapes = [.tri (grid.map fun t => interpolate l u g t.1) (grid.map fun t => interpolate l' u' g' t.2) (grid.map fun t => h t.1 t.2)]

/-- two hyperparameters set in every sample: the mean of the predictions -/
noncomputable def meanAt (samples : List (List ℝ)) (mu : List ℝ → ℝ) (f f' : Nat) (a b : ℝ) : ℝ :=
  meanOver samples fun r => mu ((r.set f a).set f' b)

/-- two hyperparameters set in every sample: the root of the mean of the squared standard deviations -/
noncomputable def stdAt (samples : List (List ℝ)) (sd : List ℝ → ℝ) (f f' : Nat) (a b : ℝ) : ℝ :=
  Real.sqrt (meanOver samples fun r => sd ((r.set f a).set f' b) ^ 2)

/-- the draws are several configurations, with the normalised vectors `samples` over all hyperparameters of the config space -/
def UnitDraws (cs : ConfigSpace ℝ) (draws : Draws (Config ℝ)) (samples : List (List ℝ)) : Prop :=
  ∃ configs : List (Config ℝ), draws = .many configs ∧ samples = configs.map Config.vector ∧ samples ≠ [] ∧
    ∀ r ∈ samples, r.length = cs.length ∧ ∀ e ∈ r, 0 ≤ e ∧ e ≤ 1

end PyPDP.Spec
