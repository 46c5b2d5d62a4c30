/-
Specification vocabulary for samples that are given several times.
-/
namespace PyPDP.Spec

/-- the list, `k` times in a row -/
def copies {α : Type} (k : Nat) (L : List α) : List α := (List.replicate k L).flatten

end PyPDP.Spec
