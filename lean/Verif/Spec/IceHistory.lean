/-
Specification vocabulary for the whole life of an ICE object, in terms of the list of operations only (no object state).
-/
import Verif.Spec.Pdp

namespace PyPDP.Spec
variable {K : Type}

/-- one operation's effect on the attributes the user has set; the sizes `num_samples`, `num_grid_points` of the constructor stay -/
def assign (c : IceCfg K) : IceOp K → IceCfg K
  | .setCentered b => { c with centered := b }
  | .setSamples a => { c with samples := a }
  | .setPerAxis g => { c with perAxis := g }
  | .refit p => { c with predict := p }
  | _ => c

/-- the attributes after a history: of every attribute the value assigned last -/
def attributes (c : IceCfg K) (ops : List (IceOp K)) : IceCfg K := ops.foldl assign c

/-- operations that read the grid points -/
def readsGrid : IceOp K → Bool
  | .readX => true
  | .readY => true
  | .readV => true
  | .readGrid => true
  | _ => false

/-- the grid size in force when the grid points are (or were) read for the first time in the life of the object -/
def gridSize (c : IceCfg K) (ops : List (IceOp K)) : Nat := (attributes c (ops.takeWhile fun o => !readsGrid o)).perAxis

/-- the calculation after a history: with the attributes now in force, on the grid of the first read of all -/
def calcAfter [Field K] (c : IceCfg K) (ops : List (IceOp K)) : Py (IceData K) := do
  let g ← gridPoints c.selected.length (gridSize c ops)
  iceCalc (attributes c ops) g

/-- every read in this history either failed or was followed by a reset -/
def NothingKept [Field K] (c : IceCfg K) (ops : List (IceOp K)) : Prop :=
  ∀ a op b, ops = a ++ op :: b → IsDataRead op → (∃ o ∈ b, IsReset o) ∨ ∃ e, calcAfter c a = .error e

/-- the first successful read since the last reset of this history came after the operations `a` -/
def KeptSince [Field K] (c : IceCfg K) (ops a : List (IceOp K)) : Prop :=
  NothingKept c a ∧ (∃ d, calcAfter c a = .ok d) ∧ ∃ op b, ops = a ++ op :: b ∧ IsDataRead op ∧ ∀ o ∈ b, ¬ IsReset o

/-- the mean of what the ICE object of a PDP gives -/
def meanOfIce {α β : Type} (s : PdpState K) (read : IceState K → IceState K × Py α) (avg : α → Py β) : Py β :=
  pdpIce s >>= fun i => (read i).2 >>= avg

/-- what an operation on a PDP can do to its ICE object -/
inductive Induces : PdpOp K → List (IceOp K) → Prop
  | readX : Induces .readX [.readX]
  | readX_stored : Induces .readX []
  | readY : Induces .readY [.readY]
  | readY_stored : Induces .readY []
  | readV : Induces .readV [.readV]
  | readV_stored : Induces .readV []
  | readGrid : Induces .readGrid [.readGrid]
  | onIce (op : IceOp K) : Induces (.onIce op) [op]

end PyPDP.Spec
