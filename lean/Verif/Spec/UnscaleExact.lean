/-
Specification vocabulary for the exact form of C76: what an entry of an integer array stands for.
-/
import Verif.Spec.Unscale
import Mathlib.Data.Real.Basic

namespace PyPDP.Spec

/-- `z` is `x` without its digits behind the point, as numpy stores `x` in an integer array. -/
def Truncated (x z : ℝ) : Prop := (∃ n : Int, z = n) ∧ |z| ≤ |x| ∧ |x - z| < 1

/-- The value an integer `k` stands for on an axis from `l` to `u`: 0 and 1 are the ends; other integers continue a linear axis, and
are the nearer end of a logarithmic one. -/
def AtInteger (l u : ℝ) (g : Bool) (k : Int) (v : ℝ) : Prop :=
  (g = false → v = l + k * (u - l)) ∧ (g = true → v = if k ≤ 0 then l else u)

/-- A choice stands in the array in front of column `i`. -/
def BehindChoice (cs : ConfigSpace ℝ) (i : Nat) : Prop :=
  ∃ (j : Nat) (q : Hp ℝ) (c : List String), j < i ∧ cs[j]? = some q ∧ q.kind = .categorical c

/-- Every code of a choice, counted from the first choice or (negative) from behind the last one, belongs to a choice. -/
def CodesKnown (cs : ConfigSpace ℝ) (r : List Int) : Prop :=
  ∀ (i : Nat) (hp : Hp ℝ) (c : List String) (k : Int), cs[i]? = some hp → hp.kind = .categorical c → r[i]? = some k →
    -(c.length : Int) ≤ k ∧ k < c.length

/-- What `unscale` makes of a row of integers. -/
def IntegerRow (cs : ConfigSpace ℝ) (r : List Int) (out : List (Val ℝ)) : Prop :=
  out.length = r.length ∧ ∀ (i : Nat) (hp : Hp ℝ) (k : Int), cs[i]? = some hp → r[i]? = some k → ∃ w, out[i]? = some w ∧
    (∀ c, hp.kind = .categorical c → ∃ s, c[(if k < 0 then k + c.length else k).toNat]? = some s ∧ w = .str s) ∧
    ∀ l u g, hp.kind = .float l u g ∨ hp.kind = .integer l u g → ∃ v z, AtInteger l u g k v ∧ w = .num z ∧
      (BehindChoice cs i → z = v) ∧ (¬ BehindChoice cs i → Truncated v z)

end PyPDP.Spec
