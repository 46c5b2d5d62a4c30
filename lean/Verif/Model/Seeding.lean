/-
Model of `ConfigSpaceHolder` and `copy_config_space` (pyPDP/utils/utils.py:17-38, 225-228): every component holds a
reference to a config space object, which owns a random state.

Not modelled: the random generator itself. `Rng.seed hps k` is the state of a space with hyperparameters `hps` after
`cs.seed(k)`, `Rng.draw hps s n` is the result of `cs.sample_configuration(n)` and the state after it (contract of
ConfigSpace: the draw depends only on the hyperparameters and the random state, `seed` overwrites the whole state).
-/
import Verif.Model.ConfigSpace

namespace PyPDP

/-- Random generator of ConfigSpace (parameter). `R` = what `sample_configuration` returns. -/
structure Rng (K S R : Type _) where
  seed : ConfigSpace K → Nat → S
  draw : ConfigSpace K → S → Int → R × S

/-- A config space object. -/
structure SpaceObj (K S : Type _) where
  hps : ConfigSpace K
  state : S

/-- The `seed` argument: `True`, `None`, or an integer (`False` counts as the integer 0). -/
inductive SeedArg
  | existing
  | fresh
  | int (z : Int)
  deriving DecidableEq, Repr

/-- All config space objects, and the references `.config_space` held by the original space's owner and the components
built so far (a *handle* is a position in `handles`). -/
structure World (K S : Type _) where
  spaces : List (SpaceObj K S)
  handles : List Nat

/-- One step of a user program: build a component of class `cls` on the config space of an existing component (or of the
original, whichever handle), or sample through a component. `time` is `int(time.time() * 1000)` at that moment. -/
inductive HOp
  | build (src : Nat) (cls : String) (seed : SeedArg) (time : Int)
  | draw (h : Nat) (n : Int)

/-- utils/utils.py:29-32: the seed finally used, for a seed argument that is not `True`.
`md5 cls` is `int.from_bytes(md5(cls).digest(), "big")`; Python's `%` with a positive modulus is non-negative. -/
def finalSeed (md5 : String → Nat) (cls : String) (time : Int) : SeedArg → Option Nat
  | .existing => none
  | .fresh => some ((time % 2 ^ 31).toNat)
  | .int z => some ((((md5 cls : Int) + z) % 2 ^ 31).toNat)

variable {K S R : Type _}

/-- utils/utils.py:18-34 `ConfigSpaceHolder.__init__`, with `copy_config_space` (225-228) inlined: the deep copy is a new
object with the same hyperparameters, reseeded. -/
def holderInit (rng : Rng K S R) (md5 : String → Nat) (w : World K S) (src : Nat) (cls : String) (seed : SeedArg)
    (time : Int) : World K S :=
  match w.handles[src]? with
  | none => w
  | some r =>
    match finalSeed md5 cls time seed with
    | none => { w with handles := w.handles ++ [r] }
    | some k =>
      match w.spaces[r]? with
      | none => w
      | some sp => ⟨w.spaces ++ [⟨sp.hps, rng.seed sp.hps k⟩], w.handles ++ [w.spaces.length]⟩

/-- utils/utils.py:36-37 `sample_random_configuration`. -/
def sampleRandomConfiguration (rng : Rng K S R) (w : World K S) (h : Nat) (n : Int) : World K S × Option R :=
  match w.handles[h]? with
  | none => (w, none)
  | some r =>
    match w.spaces[r]? with
    | none => (w, none)
    | some sp =>
      let (res, s') := rng.draw sp.hps sp.state n
      ({ w with spaces := w.spaces.set r ⟨sp.hps, s'⟩ }, some res)

/-- one step, with the result of a draw -/
def hstep (rng : Rng K S R) (md5 : String → Nat) (w : World K S) : HOp → World K S × Option R
  | .build src cls seed time => (holderInit rng md5 w src cls seed time, none)
  | .draw h n => sampleRandomConfiguration rng w h n

/-- a whole program: final world and the log of draws `(handle, result)` in order. -/
def hrun (rng : Rng K S R) (md5 : String → Nat) : World K S → List HOp → World K S × List (Nat × R)
  | w, [] => (w, [])
  | w, op :: ops =>
    let (w', r) := hstep rng md5 w op
    let (w'', log) := hrun rng md5 w' ops
    match op, r with
    | .draw h _, some r => (w'', (h, r) :: log)
    | _, _ => (w'', log)

end PyPDP
