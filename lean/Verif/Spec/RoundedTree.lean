/-
Specification vocabulary for C161: the tree of exact arithmetic and the one that is computed with doubles.
-/
import Verif.Spec.Partitioner
import Mathlib.Analysis.SpecialFunctions.Log.Basic

namespace PyPDP.Spec

/-- the same condition at threshold number `j` of `N`, up to `η` in the threshold -/
def CondNear (η : ℝ) (possible : List (Hp ℝ)) (N : Nat) (c c' : Cond ℝ) : Prop :=
  ∃ hp ∈ possible, ∃ j t b, 1 ≤ j ∧ j ≤ N ∧ c = ⟨hp, .flt (threshold N j), some b⟩ ∧ c' = ⟨hp, .flt t, some b⟩ ∧ 0 < t ∧ t < 1 ∧ |t - threshold N j| ≤ η

/-- two regions that hold the same curves, unaltered and in the same order, and whose conditions are the same up to `η` in the thresholds -/
structure SameRegion (η : ℝ) (possible : List (Hp ℝ)) (N : Nat) (m m' : Node ℝ) : Prop where
  depth : m'.depth = m.depth
  x : m'.x = m.x
  y : m'.y = m.y
  v : m'.v = m.v
  conds : List.Forall₂ (CondNear η possible N) m.conds m'.conds

/-- no curve lies within `η` of a threshold at which it may be split -/
def AwayFromThresholds (η : ℝ) (space possible : List (Hp ℝ)) (N : Nat) (L : List (Curve ℝ)) : Prop :=
  ∀ c ∈ L, ∀ hp ∈ possible, ∀ f, IsFeature space hp f → ∀ j, 1 ≤ j → j ≤ N → η < |featureOf f c - threshold N j|

/-- the point at the fraction `t` of a linear or logarithmic axis -/
noncomputable def onAxis (l u : ℝ) (log : Bool) (t : ℝ) : ℝ :=
  if log then Real.exp (Real.log l + t * (Real.log u - Real.log l)) else l + t * (u - l)

/-- a distance on this axis that doubles certainly resolve -/
noncomputable def axisResolution (l u : ℝ) (log : Bool) : ℝ :=
  if log then u * (|Real.log l| + |Real.log u| + 1) / 2 ^ 48 else (|l| + |u|) / 2 ^ 49

/-- a configuration whose values are at some distance from all thresholds -/
def ConfigAway (possible : List (Hp ℝ)) (N : Nat) (cfg : Config ℝ) : Prop :=
  ∀ hp ∈ possible, ∃ l u g x, hp.numerical? = some (l, u, g) ∧ l ≤ u ∧ (g = true → 0 < l ∧ |Real.log l| + |Real.log u| ≤ 2 ^ 40) ∧
    cfg.get? hp.name = some (.num x) ∧ ∀ j, 1 ≤ j → j ≤ N → axisResolution l u g < |x - onAxis l u g (threshold N j)|

/-- two trees of a forest with the same curves, hyperparameters and corresponding leaves -/
structure SameTree (t t' : DT ℝ) : Prop where
  possible : t'.possible = t.possible
  root : t'.root = t.root
  space : t'.cfg.space = t.cfg.space
  leaves : List.Forall₂ (SameRegion (1 / 2 ^ 51) t.possible 100) t.leaves t'.leaves

end PyPDP.Spec
