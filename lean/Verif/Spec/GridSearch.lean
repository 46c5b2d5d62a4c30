/-
Vocabulary for C171: configurations of float hyperparameters by their normalised positions.
-/
import Verif.Spec.Sampler

namespace PyPDP.Spec

/-- The value of a float hyperparameter at position `x` between its bounds: `0` is the lower bound, `1` the upper one; on a logarithmic axis positions are
measured in the logarithm. -/
noncomputable def valueAtPos (hp : Hp ℝ) (x : ℝ) : Val ℝ :=
  match hp.kind with
  | .float l u b => .num (if b then l * (u / l) ^ x else l + x * (u - l))
  | _ => .num x

/-- the configuration with the given positions -/
noncomputable def configAtPos (space : ConfigSpace ℝ) (xs : List ℝ) : List (Val ℝ) := List.zipWith valueAtPos space xs

/-- `xs` are the positions of a configuration of `d` hyperparameters. -/
def IsPosition (d : Nat) (xs : List ℝ) : Prop := xs.length = d ∧ ∀ x ∈ xs, 0 ≤ x ∧ x ≤ 1

/-- Every position differs by at most `h`. -/
def WithinStep (h : ℝ) (xs ys : List ℝ) : Prop := List.Forall₂ (fun x y => |x - y| ≤ h) xs ys

end PyPDP.Spec
