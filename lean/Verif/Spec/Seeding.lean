/-
Specification vocabulary for C08: a stand-alone generator, and the projections of a program / its log to one component.
-/
import Verif.Model.Seeding

namespace PyPDP.Spec
variable {K S R : Type _}

/-- What a stand-alone generator started in state `s` returns for the requested sizes. -/
def stream (rng : Rng K S R) (hps : ConfigSpace K) : S → List Int → List R
  | _, [] => []
  | s, n :: ns => (rng.draw hps s n).1 :: stream rng hps (rng.draw hps s n).2 ns

/-- The sizes requested through handle `h`, in order. -/
def requests (h : Nat) : List HOp → List Int
  | [] => []
  | .draw h' n :: ops => if h' = h then n :: requests h ops else requests h ops
  | .build .. :: ops => requests h ops

/-- The results obtained through handle `h`, in order. -/
def results (h : Nat) : List (Nat × R) → List R
  | [] => []
  | (h', r) :: log => if h' = h then r :: results h log else results h log

/-- No component of this program is built on handle `h` with `seed=True`. -/
def NotShared (h : Nat) (ops : List HOp) : Prop :=
  ∀ src cls time, HOp.build src cls .existing time ∈ ops → src ≠ h

/-- All references point to existing objects. -/
def World.Valid (w : World K S) : Prop := ∀ r ∈ w.handles, r < w.spaces.length

end PyPDP.Spec
