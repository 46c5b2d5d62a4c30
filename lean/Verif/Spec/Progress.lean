/-
Specification vocabulary for the progress bar of the samplers.
-/
import Verif.Model.Progress

namespace PyPDP.Spec
variable {C K X : Type}

/-- `plain` and `barred` are the `sample` methods, without and with the argument `show_progress`, of the sampler class called `cls`, on
objective `o` with name `obj`. -/
inductive ShowsProgress [DecidableEq C] [LinearOrder K] (o : Objective C K) (obj : Option String) :
    (cls : String) → (X : Type) → (plain : SamplerState C K X → Int → SamplerState C K X × Option PyErr) →
    (barred : Bool → SamplerState C K X → Int → BarRun C K X) → Prop
  | random {S : Type} (d : Drawer C S) : ShowsProgress o obj "RandomSampler" S (randomSampler o d) (randomSamplerBar obj o d)
  | grid {G : Type} (env : GridEnv C G) :
    ShowsProgress o obj "GridSampler" (GridExtra C G) (gridSampler o env) (gridSamplerBar obj o env)
  | bo {M S : Type} (env : BOEnv C K M S) :
    ShowsProgress o obj "BayesianOptimizationSampler" (BOExtra C K M S) (boSample o env) (boSampleBar obj o env)

/-- the counts `j, j + 1, ..., k` -/
def countsFrom (j k : Nat) : List Int := (List.range' j (k + 1 - j)).map Int.ofNat

/-- `bar` is a faithful progress bar of a call `sample(n)` of a sampler of class `cls` that takes the state `s` to `s'`: it is labelled with the class and the name of the objective,
its total is `n`, its updates took it to `first`, then up by one each time to the count it shows now, at each update it showed the number of configurations and of values the call had
recorded by then, and it does not show more points than the call has recorded values. -/
structure BarFacts (cls name : String) (n : Int) (s s' : SamplerState C K X) (first : Nat) (bar : Bar) : Prop where
  desc : bar.desc = cls ++ "(" ++ name ++ ")"
  total : bar.total = n
  counts : ∃ k : Nat, bar.shown = k ∧ bar.moments.map Moment.shown = countsFrom first k
  truthful : ∀ m ∈ bar.moments, (m.configs : Int) = s.configs.length + m.shown ∧ (m.ys : Int) = s.ys.length + m.shown
  recorded : bar.shown + s.ys.length ≤ s'.ys.length

end PyPDP.Spec
