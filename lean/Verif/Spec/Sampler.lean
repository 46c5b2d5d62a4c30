/-
Specification vocabulary for the sampler properties.
-/
import Verif.Model.Bayes

namespace PyPDP.Spec
variable {C K X : Type}

/-- The recorded points: configurations and values in step, every value the objective value of its configuration. -/
def Aligned (f : C → K) (s : SamplerState C K X) : Prop := s.ys = s.configs.map f

/-- The cache holds objective values. -/
def CacheTrue (f : C → K) (s : SamplerState C K X) : Prop := ∀ p ∈ s.cache, p.2 = f p.1

/-- `s'` extends `s` by the points `new`. -/
def Extends (s s' : SamplerState C K X) (new : List (C × K)) : Prop :=
  s'.configs = s.configs ++ new.map Prod.fst ∧ s'.ys = s.ys ++ new.map Prod.snd

/-- Number of points a user expects to hold after a sequence of calls, starting with `len` points. -/
def expectedLen : Nat → List SOp → Nat
  | len, [] => len
  | len, .sample n :: ops => expectedLen (len + n.toNat) ops
  | _, .reset :: ops => expectedLen 0 ops
  | len, .clearCache :: ops => expectedLen len ops
  | len, .saveCache :: ops => expectedLen len ops

/-- `i` is the first position of a best value (`better a b`: `a` is strictly better than `b`). -/
def FirstBest (better : K → K → Prop) (ys : List K) (i : Nat) (v : K) : Prop :=
  ys[i]? = some v ∧ (∀ w ∈ ys, ¬ better w v) ∧ ∀ j < i, ∀ w, ys[j]? = some w → better v w

/-- `sample` is the `sample` method of one of the three sampler classes, on objective `o`. -/
inductive IsSampler [DecidableEq C] [LinearOrder K] (o : Objective C K) :
    (X : Type) → (SamplerState C K X → Int → SamplerState C K X × Option PyErr) → Prop
  | random {S : Type} (d : Drawer C S) : IsSampler o S (randomSampler o d)
  | grid {G : Type} (env : GridEnv C G) : IsSampler o (GridExtra C G) (gridSampler o env)
  | bo {M S : Type} (env : BOEnv C K M S) : IsSampler o (BOExtra C K M S) (boSample o env)

/-- Random or Bayesian-optimisation sampler. -/
inductive IsRandomOrBO [LinearOrder K] (o : Objective C K) :
    (X : Type) → (SamplerState C K X → Int → SamplerState C K X × Option PyErr) → Prop
  | random {S : Type} (d : Drawer C S) : IsRandomOrBO o S (randomSampler o d)
  | bo {M S : Type} (env : BOEnv C K M S) : IsRandomOrBO o (BOExtra C K M S) (boSample o env)

end PyPDP.Spec
