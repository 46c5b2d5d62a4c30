/-
C124, C125: the points a Bayesian optimisation evaluates do not depend on the unit and the zero of the objective function, and maximising a
function evaluates the same points as minimising its negative.
-/
import Verif.Props.BoGp
import Verif.Props.AcquisitionSigma
import Verif.Props.Gp
import Verif.Props.TreeInvariance

namespace PyPDP
open Spec Matrix

/-! ### two runs of the sampler side by side -/

section simulation
variable {C K M S : Type} [LinearOrder K]

theorem argmin_map {T : K → K} (hT : StrictMono T) (l : List K) : argmin (l.map T) = argmin l := by
  have gen : ∀ (vs : List K) (bi i : Nat) (bv : K), argminFrom bi (T bv) i (vs.map T) = argminFrom bi bv i vs := by
    intro vs
    induction vs with
    | nil => intros; rfl
    | cons v vs ih => intro bi i bv; simp only [List.map_cons, argminFrom, hT.lt_iff_lt, ih]
  cases l with
  | nil => rfl
  | cons v vs => simp only [List.map_cons, argmin, gen]

theorem argmax_map {T : K → K} (hT : StrictMono T) (l : List K) : argmax (l.map T) = argmax l := by
  have gen : ∀ (vs : List K) (bi i : Nat) (bv : K), argmaxFrom bi (T bv) i (vs.map T) = argmaxFrom bi bv i vs := by
    intro vs
    induction vs with
    | nil => intros; rfl
    | cons v vs ih => intro bi i bv; simp only [List.map_cons, argmaxFrom, hT.lt_iff_lt, ih]
  cases l with
  | nil => rfl
  | cons v vs => simp only [List.map_cons, argmax, gen]

theorem argmax_map_anti {T : K → K} (hT : StrictAnti T) (l : List K) : argmax (l.map T) = argmin l := by
  have gen : ∀ (vs : List K) (bi i : Nat) (bv : K), argmaxFrom bi (T bv) i (vs.map T) = argminFrom bi bv i vs := by
    intro vs
    induction vs with
    | nil => intros; rfl
    | cons v vs ih => intro bi i bv; simp only [List.map_cons, argmaxFrom, argminFrom, hT.lt_iff_gt, ih]
  cases l with
  | nil => rfl
  | cons v vs => simp only [List.map_cons, argmax, argmin, gen]

theorem argmin_map_anti {T : K → K} (hT : StrictAnti T) (l : List K) : argmin (l.map T) = argmax l := by
  have gen : ∀ (vs : List K) (bi i : Nat) (bv : K), argminFrom bi (T bv) i (vs.map T) = argmaxFrom bi bv i vs := by
    intro vs
    induction vs with
    | nil => intros; rfl
    | cons v vs ih => intro bi i bv; simp only [List.map_cons, argmaxFrom, argminFrom, hT.lt_iff_gt, ih]
  cases l with
  | nil => rfl
  | cons v vs => simp only [List.map_cons, argmax, argmin, gen]

/-- `max` only looks at the order of the keys -/
theorem pyMaxBy_order {α : Type} {key key' : α → K} (l : List α) (h : ∀ a ∈ l, ∀ b ∈ l, key' a < key' b ↔ key a < key b) :
    pyMaxBy key' l = pyMaxBy key l := by
  cases l with
  | nil => rfl
  | cons x xs =>
    have gen : ∀ (ys : List α) (b : α), b ∈ x :: xs → (∀ a ∈ ys, a ∈ x :: xs) →
        ys.foldl (fun best y => if key' best < key' y then y else best) b = ys.foldl (fun best y => if key best < key y then y else best) b := by
      intro ys
      induction ys with
      | nil => intros; rfl
      | cons y ys ih =>
        intro b hb hys
        have hy := hys y (by simp)
        simp only [List.foldl_cons, h b hb y hy]
        refine ih _ ?_ fun a ha => hys a (by simp [ha])
        split
        · exact hy
        · exact hb
    simp only [pyMaxBy, gen xs x (by simp) (fun a ha => by simp [ha])]

theorem pyMaxBy_map {α β : Type} (key : β → K) (f : α → β) (l : List α) : pyMaxBy key (l.map f) = (pyMaxBy (key ∘ f) l).map f := by
  cases l with
  | nil => rfl
  | cons x xs =>
    have gen : ∀ (ys : List α) (b : α), (ys.map f).foldl (fun best y => if key best < key y then y else best) (f b) =
        f (ys.foldl (fun best y => if key (f best) < key (f y) then y else best) b) := by
      intro ys
      induction ys with
      | nil => intros; rfl
      | cons y ys ih =>
        intro b
        simp only [List.map_cons, List.foldl_cons]
        rw [← ih]
        congr 1
        split <;> rfl
    simp only [List.map_cons, pyMaxBy, gen]
    rfl

theorem py_map_map {α β γ : Type} (x : Py α) (f : α → β) (g : β → γ) : (x.map f).map g = x.map (g ∘ f) := by cases x <;> rfl

theorem pickMax_order (names : List String) {value value' : C → K} (draws : Draws C)
    (h : ∀ l, draws = .many l → ∀ c ∈ l, ∀ d ∈ l, value' c < value' d ↔ value c < value d) :
    (pickMax names value' draws).map (·.1) = (pickMax names value draws).map (·.1) := by
  cases draws with
  | one c =>
    cases names with
    | nil => rfl
    | cons n ns => simp [pickMax, pyMaxBy, Except.map]
  | many l =>
    simp only [pickMax, pyMaxBy_map, py_map_map]
    exact congrArg (Except.map Picked.config) (pyMaxBy_order (key := value) (key' := value') l fun a ha b hb => h l rfl a ha b hb)

theorem getOptimum_order (names : List String) (d : Drawer C S) (n : Int) {value value' : C → K}
    (r : S) (h : ∀ c ∈ (d.draw r n.toNat).1, ∀ e ∈ (d.draw r n.toNat).1, value' c < value' e ↔ value c < value e) :
    getOptimum names d n value' r = getOptimum names d n value r := by
  have : ∀ l, (d.sampleConfiguration r n).1 = .many l → ∀ c ∈ l, c ∈ (d.draw r n.toNat).1 := by
    intro l hl c hc
    unfold Drawer.sampleConfiguration at hl
    split at hl
    · cases hl; cases hc
    · rcases hx : d.draw r n.toNat with ⟨l', r'⟩
      rw [hx] at hl
      dsimp only at hl
      split at hl
      · split at hl
        · cases hl
        · cases hl; cases hc
      · cases hl; exact hc
  simp only [getOptimum]
  rw [pickMax_order names _ fun l hl c hc e he => h c (this l hl c hc) e (this l hl e he)]

/-- The objective function in other units. -/
def Objective.through (T : K → K) (o : Objective C K) : Objective C K := ⟨T ∘ o.value, o.raises⟩

omit [LinearOrder K] in
theorem through_eval (T : K → K) (o : Objective C K) (t : Nat) (c : C) : (o.through T).eval t c = (o.eval t c).map T := by
  unfold Objective.eval Objective.through
  dsimp only
  cases o.raises t c <;> rfl

/-- The second state is the first one with all values transformed; the surrogates are not compared. -/
structure SameRun (T : K → K) (s s' : BOState C K M S) : Prop where
  configs : s'.configs = s.configs
  ys : s'.ys = s.ys.map T
  cache : s'.cache = s.cache.map fun p => (p.1, T p.2)
  calls : s'.calls = s.calls
  rng : s'.extra.rng = s.extra.rng
  eta : s'.extra.eta = s.extra.eta.map T
  hash : s'.extra.fittedHash = s.extra.fittedHash
  nextObj : s'.extra.nextObj = s.extra.nextObj
  fits : s'.extra.fits = s.extra.fits
  lastFit : s'.extra.lastFit = s.extra.lastFit.map fun p => (p.1, p.2.map T)
  old : HashOld s
  len : s.configs.length = s.ys.length

/-- Two samplers on the same drawers whose surrogates and acquisition functions see the same problem through `T`: fits fail alike or give
surrogates related by `Rel`, and related surrogates order the candidates (all `good`) in the same way. -/
structure SameProblem (T : K → K) (env env' : BOEnv C K M S) (Rel : List C → List K → M → M → Prop) (good : C → Prop) : Prop where
  initialPoints : env'.initialPoints = env.initialPoints
  names : env'.names = env.names
  drawer : env'.drawer = env.drawer
  acqDrawer : env'.acqDrawer = env.acqDrawer
  nCandidates : env'.nCandidates = env.nCandidates
  best : ∀ l : List K, bestIndex env'.minimize (l.map T) = bestIndex env.minimize l
  fit : ∀ m m' cs ys, cs.length = ys.length →
    (∃ e, env.fit m cs ys = .error e ∧ env'.fit m' cs (ys.map T) = .error e) ∨
    ∃ k k', env.fit m cs ys = .ok k ∧ env'.fit m' cs (ys.map T) = .ok k' ∧ Rel cs ys k k'
  acq : ∀ cs ys k k' eta, Rel cs ys k k' → IsIncumbentValue env.minimize ys eta →
    ∀ c d, good c → good d → (env'.acq k' (eta.map T) c < env'.acq k' (eta.map T) d ↔ env.acq k eta c < env.acq k eta d)
  draws : ∀ r n, ∀ c ∈ (env.acqDrawer.draw r n).1, good c

variable {good : C → Prop} {T : K → K} {env env' : BOEnv C K M S} {Rel : List C → List K → M → M → Prop} {o : Objective C K}

/-- the outcomes agree, the states are the same up to `T`; after success the surrogates are related -/
def Parallel (T : K → K) (Rel : List C → List K → M → M → Prop) (fitted : Prop) (x x' : BOState C K M S × Option PyErr) : Prop :=
  x'.2 = x.2 ∧ SameRun T x.1 x'.1 ∧ (fitted → x.2 = none → Rel x.1.configs x.1.ys x.1.extra.model x'.1.extra.model)

theorem fitSurrogate_parallel (h : SameProblem T env env' Rel good) {s s' : BOState C K M S} (hs : SameRun T s s') (force : Bool) :
    Parallel T Rel True (fitSurrogate env force s) (fitSurrogate env' force s') := by
  have hne : s.extra.fittedHash ≠ some s.extra.nextObj := fun he => absurd (hs.old _ he) (lt_irrefl _)
  have hne' : s'.extra.fittedHash ≠ some s'.extra.nextObj := by rw [hs.hash, hs.nextObj]; exact hne
  have hold := fitSurrogate_hash env force s hs.old
  unfold Parallel
  unfold fitSurrogate at hold ⊢
  dsimp only at hold ⊢
  rw [if_pos (Or.inr hne)] at hold ⊢
  rw [if_pos (Or.inr hne')]
  rcases h.fit s.extra.model s'.extra.model s.configs s.ys hs.len with ⟨e, h1, h2⟩ | ⟨k, k', h1, h2, h3⟩
  · rw [h1] at hold ⊢
    rw [hs.configs, hs.ys, h2]
    exact ⟨rfl, ⟨rfl, rfl, hs.cache, hs.calls, hs.rng, hs.eta, hs.hash, by simp [hs.nextObj], by simp [hs.fits], rfl, hold, hs.len⟩, fun _ hc => by cases hc⟩
  · rw [h1] at hold ⊢
    rw [hs.configs, hs.ys, h2]
    exact ⟨rfl, ⟨rfl, rfl, hs.cache, hs.calls, hs.rng, hs.eta, by simp [hs.nextObj], by simp [hs.nextObj], by simp [hs.fits], rfl, hold, hs.len⟩,
      fun _ _ => h3⟩

omit [LinearOrder K] in
theorem evalAll_through (t : Nat) (cs : List C) : evalAll (o.through T) t cs = ((evalAll o t cs).1, (evalAll o t cs).2.map (List.map T)) := by
  induction cs generalizing t with
  | nil => rfl
  | cons c cs ih =>
    simp only [evalAll, through_eval]
    cases o.eval t c with
    | error e => rfl
    | ok v =>
      simp only [Except.map, ih]
      rcases hx : evalAll o (t + 1) cs with ⟨t', e | vs⟩ <;> rfl

theorem boInitial_parallel (h : SameProblem T env env' Rel good) {s s' : BOState C K M S} (hs : SameRun T s s') (n : Int) :
    Parallel T Rel True (boInitial o env s n) (boInitial (o.through T) env' s' n) := by
  unfold boInitial
  rw [h.drawer, h.initialPoints, hs.rng]
  rcases hd : env.drawer.sampleConfiguration s.extra.rng (min env.initialPoints n) with ⟨draws, r⟩
  dsimp only
  rw [evalAll_through, hs.calls]
  rcases hx : evalAll o s.calls draws.toList with ⟨t, e | vs⟩
  · exact ⟨rfl, ⟨hs.configs, hs.ys, hs.cache, rfl, rfl, hs.eta, hs.hash, hs.nextObj, hs.fits, hs.lastFit, hs.old, hs.len⟩, fun _ hc => by cases hc⟩
  · refine fitSurrogate_parallel h ?_ true
    refine ⟨?_, ?_, hs.cache, rfl, rfl, hs.eta, hs.hash, hs.nextObj, hs.fits, hs.lastFit, hs.old, ?_⟩
    · simp [hs.configs]
    · simp [hs.ys]
    · have : vs.length = draws.toList.length := by
        have gen : ∀ (cs : List C) (t t' : Nat) (vs : List K), evalAll o t cs = (t', .ok vs) → vs.length = cs.length := by
          intro cs
          induction cs with
          | nil => intro t t' vs hv; simp only [evalAll, Prod.mk.injEq, Except.ok.injEq] at hv; simp [← hv.2]
          | cons c cs ih =>
            intro t t' vs hv
            simp only [evalAll] at hv
            cases hc : o.eval t c with
            | error e => rw [hc] at hv; simp at hv
            | ok v =>
              rw [hc] at hv
              rcases hw : evalAll o (t + 1) cs with ⟨t2, e | ws⟩
              · rw [hw] at hv; simp at hv
              · rw [hw] at hv
                simp only [Prod.mk.injEq, Except.ok.injEq] at hv
                rw [← hv.2]
                simp [ih _ _ _ hw]
        exact gen _ _ _ _ hx
      simp [hs.len, this]

theorem incumbent_parallel (h : SameProblem T env env' Rel good) {s s' : BOState C K M S} (hs : SameRun T s s') :
    incumbent env'.minimize s' = (incumbent env.minimize s).map fun p => (p.1, p.2.map T) := by
  unfold incumbent
  rw [hs.ys, hs.configs, List.length_map, h.best]
  split
  · rfl
  · cases bestIndex env.minimize s.ys with
    | error e => rfl
    | ok i =>
      simp only [Py.ok_bind]
      cases pyGet s.configs i with
      | error e => rfl
      | ok c =>
        simp only [Py.ok_bind]
        have : pyGet (s.ys.map T) i = (pyGet s.ys i).map T := by
          unfold pyGet
          rw [List.getElem?_map]
          cases s.ys[i]? <;> rfl
        rw [this]
        cases pyGet s.ys i <;> rfl

theorem boStep_parallel (h : SameProblem T env env' Rel good) {s s' : BOState C K M S} (hs : SameRun T s s')
    (hr : Rel s.configs s.ys s.extra.model s'.extra.model) : Parallel T Rel True (boStep o env s) (boStep (o.through T) env' s') := by
  unfold boStep
  rw [incumbent_parallel h hs]
  rcases hi : incumbent env.minimize s with e | ⟨c0, v⟩
  · exact ⟨rfl, hs, fun _ hc => by cases hc⟩
  · have hv := incumbent_isIncumbentValue hs.len hi
    simp only [Except.map]
    rw [h.names, h.acqDrawer, h.nCandidates, hs.rng, getOptimum_order _ _ _ _ fun c hc d hd => h.acq _ _ _ _ v hr hv c d (h.draws _ _ c hc) (h.draws _ _ d hd)]
    rcases hg : getOptimum env.names env.acqDrawer env.nCandidates (env.acq s.extra.model v) s.extra.rng with ⟨r, e | ⟨c | n⟩⟩
    · exact ⟨rfl, ⟨hs.configs, hs.ys, hs.cache, hs.calls, rfl, rfl, hs.hash, hs.nextObj, hs.fits, hs.lastFit, hs.old, hs.len⟩, fun _ hc => by cases hc⟩
    · dsimp only
      rw [through_eval, hs.calls]
      cases o.eval s.calls c with
      | error e =>
        exact ⟨rfl, ⟨hs.configs, hs.ys, hs.cache, by simp [SamplerState.tick], rfl, rfl, hs.hash, hs.nextObj, hs.fits, hs.lastFit, hs.old, hs.len⟩,
          fun _ hc => by cases hc⟩
      | ok y =>
        refine fitSurrogate_parallel h ?_ false
        refine ⟨?_, ?_, hs.cache, ?_, rfl, rfl, hs.hash, hs.nextObj, hs.fits, hs.lastFit, hs.old, ?_⟩
        · simp [SamplerState.record, SamplerState.tick, hs.configs]
        · simp [SamplerState.record, SamplerState.tick, hs.ys]
        · simp [SamplerState.record, SamplerState.tick]
        · simp [SamplerState.record, SamplerState.tick, hs.len]
    · exact ⟨rfl, ⟨hs.configs, hs.ys, hs.cache, hs.calls, rfl, rfl, hs.hash, hs.nextObj, hs.fits, hs.lastFit, hs.old, hs.len⟩, fun _ hc => by cases hc⟩

theorem boLoop_parallel (h : SameProblem T env env' Rel good) (k : Nat) {s s' : BOState C K M S} (hs : SameRun T s s')
    (hr : Rel s.configs s.ys s.extra.model s'.extra.model) : Parallel T Rel True (boLoop o env k s) (boLoop (o.through T) env' k s') := by
  induction k generalizing s s' with
  | zero => exact ⟨rfl, hs, fun _ _ => hr⟩
  | succ k ih =>
    have hp := boStep_parallel (o := o) h hs hr
    simp only [boLoop]
    rcases hx : boStep o env s with ⟨t, _ | e⟩ <;> rcases hx' : boStep (o.through T) env' s' with ⟨t', _ | e'⟩ <;> rw [hx, hx'] at hp
    · exact ih hp.2.1 (hp.2.2 trivial rfl)
    · cases hp.1
    · cases hp.1
    · exact ⟨hp.1, hp.2.1, fun _ hc => by cases hc⟩

theorem boAcquire_parallel (h : SameProblem T env env' Rel good) (k : Nat) {s s' : BOState C K M S} (hs : SameRun T s s') :
    Parallel T Rel True (boAcquire o env s k) (boAcquire (o.through T) env' s' k) := by
  have hp := fitSurrogate_parallel h hs false
  simp only [boAcquire]
  rcases hx : fitSurrogate env false s with ⟨t, _ | e⟩ <;> rcases hx' : fitSurrogate env' false s' with ⟨t', _ | e'⟩ <;> rw [hx, hx'] at hp
  · exact boLoop_parallel h k hp.2.1 (hp.2.2 trivial rfl)
  · cases hp.1
  · cases hp.1
  · exact ⟨hp.1, hp.2.1, fun _ hc => by cases hc⟩

theorem boInner_parallel (h : SameProblem T env env' Rel good) (n : Int) {s s' : BOState C K M S} (hs : SameRun T s s') :
    Parallel T Rel True (boInner o env s n) (boInner (o.through T) env' s' n) := by
  unfold boInner
  rw [hs.configs, h.initialPoints]
  split
  · have hp := boInitial_parallel (o := o) h hs n
    rcases hx : boInitial o env s n with ⟨t, _ | e⟩ <;> rcases hx' : boInitial (o.through T) env' s' n with ⟨t', _ | e'⟩ <;> rw [hx, hx'] at hp
    · simp only
      rw [hp.2.1.configs]
      exact boAcquire_parallel h _ hp.2.1
    · cases hp.1
    · cases hp.1
    · exact ⟨hp.1, hp.2.1, fun _ hc => by cases hc⟩
  · exact boAcquire_parallel h _ hs

omit [LinearOrder K] in
theorem useCache_parallel (k : Nat) {s s' : BOState C K M S} (hs : SameRun T s s') :
    SameRun T (useCache k s).1 (useCache k s').1 ∧ (useCache k s').2 = (useCache k s).2 := by
  induction k generalizing s s' with
  | zero => exact ⟨hs, rfl⟩
  | succ k ih =>
    have hc := hs.cache
    rcases hx : s.cache with _ | ⟨⟨c, v⟩, rest⟩
    · rw [hx] at hc
      simp only [List.map_nil] at hc
      simp only [useCache, hx, hc]
      exact ⟨hs, trivial⟩
    · rw [hx] at hc
      simp only [List.map_cons] at hc
      simp only [useCache, hx, hc]
      obtain ⟨h1, h2⟩ := ih (s := { s with cache := rest }.record c v) (s' := { s' with cache := rest.map fun p : C × K => (p.1, T p.2) }.record c (T v))
        ⟨by simp [SamplerState.record, hs.configs], by simp [SamplerState.record, hs.ys], rfl, hs.calls, hs.rng, hs.eta, hs.hash, hs.nextObj, hs.fits,
          hs.lastFit, hs.old, by simp [SamplerState.record, hs.len]⟩
      exact ⟨h1, by simp [h2]⟩

theorem boSample_parallel (h : SameProblem T env env' Rel good) (n : Int) {s s' : BOState C K M S} (hs : SameRun T s s') :
    Parallel T Rel True (boSample o env s n) (boSample (o.through T) env' s' n) := by
  have hw : Parallel T Rel False (sampleWith (boInner o env) s n) (sampleWith (boInner (o.through T) env') s' n) := by
    unfold sampleWith
    obtain ⟨s1, h1⟩ : ∃ s1, s1 = if (s.configs.length : Int) + n > s.cache.length then s.clearCache else s := ⟨_, rfl⟩
    obtain ⟨s1', h1'⟩ : ∃ s1', s1' = if (s'.configs.length : Int) + n > s'.cache.length then s'.clearCache else s' := ⟨_, rfl⟩
    rw [← h1, ← h1']
    have hs1 : SameRun T s1 s1' := by
      rw [h1, h1', hs.configs, hs.cache, List.length_map]
      split
      · exact ⟨hs.configs, hs.ys, rfl, hs.calls, hs.rng, hs.eta, hs.hash, hs.nextObj, hs.fits, hs.lastFit, hs.old, hs.len⟩
      · exact hs
    obtain ⟨h2, h3⟩ := useCache_parallel n.toNat hs1
    rcases hx : useCache n.toNat s1 with ⟨s2, k⟩
    rcases hx' : useCache n.toNat s1' with ⟨s2', k'⟩
    rw [hx, hx'] at h2 h3
    dsimp only at h2 h3
    simp only [hx, hx', h3]
    split
    · obtain ⟨p1, p2, -⟩ := boInner_parallel (o := o) h (n - k) h2
      exact ⟨p1, p2, fun hf => hf.elim⟩
    · exact ⟨rfl, h2, fun hf => hf.elim⟩
  unfold boSample
  rcases hx : sampleWith (boInner o env) s n with ⟨t, _ | e⟩ <;> rcases hx' : sampleWith (boInner (o.through T) env') s' n with ⟨t', _ | e'⟩ <;> rw [hx, hx'] at hw
  · exact fitSurrogate_parallel h hw.2.1 false
  · cases hw.1
  · cases hw.1
  · exact ⟨hw.1, hw.2.1, fun _ hc => by cases hc⟩

theorem srun_parallel (h : SameProblem T env env' Rel good) (ops : List SOp) {s s' : BOState C K M S} (hs : SameRun T s s') :
    SameRun T (srun (boSample o env) s ops).1 (srun (boSample (o.through T) env') s' ops).1 ∧
    (srun (boSample (o.through T) env') s' ops).2 = (srun (boSample o env) s ops).2 := by
  induction ops generalizing s s' with
  | nil => exact ⟨hs, rfl⟩
  | cons op ops ih =>
    simp only [srun]
    have step : SameRun T (sstep (boSample o env) s op).1 (sstep (boSample (o.through T) env') s' op).1 ∧
        (sstep (boSample (o.through T) env') s' op).2 = (sstep (boSample o env) s op).2 := by
      cases op with
      | sample n =>
        obtain ⟨p1, p2, -⟩ := boSample_parallel (o := o) h n hs
        exact ⟨p2, p1⟩
      | reset => exact ⟨⟨rfl, rfl, hs.cache, hs.calls, hs.rng, hs.eta, hs.hash, hs.nextObj, hs.fits, hs.lastFit, hs.old, rfl⟩, rfl⟩
      | clearCache => exact ⟨⟨hs.configs, hs.ys, rfl, hs.calls, hs.rng, hs.eta, hs.hash, hs.nextObj, hs.fits, hs.lastFit, hs.old, hs.len⟩, rfl⟩
      | saveCache => exact ⟨hs, rfl⟩
    obtain ⟨h1, h2⟩ := ih step.1
    exact ⟨h1, by rw [step.2, h2]⟩

end simulation

/-! ### the Gaussian process in other units -/

theorem npStd_units {y : List ℝ} (hy : y ≠ []) (a b : ℝ) : npStd (y.map fun v => a * v + b) = |a| * npStd y := by
  have e : ((y.map fun v => a * v + b).map fun v => (v - (a * npMean y + b)) ^ 2) =
      ((y.map fun v => (v - npMean y) ^ 2).map fun v => a ^ 2 * v + 0) := by
    rw [List.map_map, List.map_map]
    refine List.map_congr_left fun v _ => ?_
    simp only [Function.comp]
    ring
  unfold npStd
  rw [npMean_affine hy, e, npMean_affine (by simpa using hy), add_zero, Real.sqrt_mul (by positivity), Real.sqrt_sq_eq_abs]

/-- the sign of `a`, as a factor -/
noncomputable def sgn (a : ℝ) : ℝ := if 0 < a then 1 else -1

theorem sgn_abs (a : ℝ) : |a| * sgn a = a := by
  unfold sgn
  split
  · rw [abs_of_pos (by assumption), mul_one]
  · next h => rw [abs_of_nonpos (not_lt.1 h)]; ring

theorem constant_mean {y : List ℝ} (hy : y ≠ []) (h : npStd y = 0) : ∀ v ∈ y, v = npMean y := by
  intro v hv
  have hall := (npStd_eq_zero hy).1 h
  have e : y = List.replicate y.length v := List.eq_replicate_iff.2 ⟨rfl, fun w hw => hall w hw v hv⟩
  have hn : (y.length : ℝ) ≠ 0 := by simpa using hy
  unfold npMean
  conv_rhs => rw [e, List.sum_replicate, List.length_replicate, nsmul_eq_mul]
  field_simp

theorem normalised_units {y : List ℝ} (hy : y ≠ []) {a : ℝ} (ha : a ≠ 0) (b : ℝ) : ∀ v ∈ y,
    (a * v + b - npMean (y.map fun v => a * v + b)) / handleZeros (npStd (y.map fun v => a * v + b)) = sgn a * ((v - npMean y) / handleZeros (npStd y)) := by
  intro v hv
  rw [npMean_affine hy, npStd_units hy]
  have hab : |a| ≠ 0 := abs_ne_zero.2 ha
  by_cases h0 : npStd y = 0
  · rw [← constant_mean hy h0 v hv]; simp
  · rw [handleZeros, handleZeros, if_neg h0, if_neg (mul_ne_zero hab h0)]
    have := sgn_abs a
    rw [show a * v + b - (a * npMean y + b) = |a| * sgn a * (v - npMean y) by rw [this]; ring]
    field_simp

/-- The optimiser does not mind the sign of the targets: the likelihood of `-t` is that of `t`. -/
def SignFree (choose : List (List ℝ) → List ℝ → Kernel) : Prop := ∀ Z t, choose Z (t.map Neg.neg) = choose Z t

/-- the second fit predicts in the units `a * v + b`; for equal targets the standard deviations do not scale -/
structure InUnits (a b : ℝ) (X : List (List ℝ)) (ys : List ℝ) (g g' : GpFit) : Prop where
  scaler : g'.scaler = g.scaler
  dim : g'.dim = g.dim
  mean : ∀ z, g'.meanAt z = a * g.meanAt z + b
  std : npStd ys ≠ 0 ∧ (∀ z, g'.stdAt z = |a| * g.stdAt z) ∨ npStd ys = 0 ∧ (∀ z, g'.stdAt z = g.stdAt z) ∧ ∀ v ∈ ys, ∀ z, g.meanAt z = v
  targets : ys ≠ []
  width : ∀ r ∈ X, r.length = g.dim

theorem pipelineFit_units {choose : List (List ℝ) → List ℝ → Kernel} {a : ℝ} (ha : a ≠ 0) (hev : a < 0 → SignFree choose) (b : ℝ)
    (X : List (List ℝ)) (y : List ℝ) :
    (∃ e, pipelineFit choose X y = .error e ∧ pipelineFit choose X (y.map fun v => a * v + b) = .error e) ∨
    ∃ g g', pipelineFit choose X y = .ok g ∧ pipelineFit choose X (y.map fun v => a * v + b) = .ok g' ∧ InUnits a b X y g g' := by
  classical
  cases X with
  | nil => exact .inl ⟨.value, rfl, rfl⟩
  | cons r X =>
    unfold pipelineFit
    dsimp only
    have hcc : (r.length = 0 ∨ (∃ q ∈ r :: X, q.length ≠ r.length) ∨ (y.map fun v => a * v + b).length ≠ (r :: X).length) ↔
        (r.length = 0 ∨ (∃ q ∈ r :: X, q.length ≠ r.length) ∨ y.length ≠ (r :: X).length) := by rw [List.length_map]
    by_cases hc : r.length = 0 ∨ (∃ q ∈ r :: X, q.length ≠ r.length) ∨ y.length ≠ (r :: X).length
    · rw [if_pos hc, if_pos (hcc.2 hc)]
      exact .inl ⟨.value, rfl, rfl⟩
    · rw [if_neg hc, if_neg fun h => hc (hcc.1 h)]
      have hlen : y.length = (r :: X).length := by
        by_contra h
        exact hc (.inr (.inr h))
      have hy : y ≠ [] := by rintro rfl; cases hlen
      have hker : ∀ Z, choose Z ((y.map fun v => a * v + b).map fun v =>
          (v - npMean (y.map fun v => a * v + b)) / handleZeros (npStd (y.map fun v => a * v + b))) =
          choose Z (y.map fun v => (v - npMean y) / handleZeros (npStd y)) := by
        intro Z
        rw [List.map_map]
        rcases lt_or_gt_of_ne ha with hn | hp
        · rw [← hev hn Z (y.map fun v => (v - npMean y) / handleZeros (npStd y)), List.map_map]
          congr 1
          refine List.map_congr_left fun v hv => ?_
          simp only [Function.comp]
          rw [normalised_units hy ha b v hv, sgn, if_neg (not_lt.2 hn.le)]; ring
        · congr 1
          refine List.map_congr_left fun v hv => ?_
          simp only [Function.comp]
          rw [normalised_units hy ha b v hv, sgn, if_pos hp]; ring
      simp only [hker]
      generalize hZ : (r :: X).map (Scaler.fit r.length (r :: X)).row = Z
      have hZl : Z.length = y.length := by rw [← hZ, hlen, List.length_map]
      generalize choose Z (y.map fun v => (v - npMean y) / handleZeros (npStd y)) = k
      by_cases hpd : (gramAlpha k Z).PosDef
      · rw [if_pos hpd, if_pos hpd]
        refine .inr ⟨_, _, rfl, rfl, rfl, rfl, fun z => ?_, ?_, hy, fun q hq => by_contra fun h => hc (.inr (.inl ⟨q, hq, h⟩))⟩
        · have ht : (fun i : Fin Z.length => ((y.map fun v => a * v + b).getD i 0 - npMean (y.map fun v => a * v + b)) /
              handleZeros (npStd (y.map fun v => a * v + b))) = sgn a • fun i : Fin Z.length => (y.getD i 0 - npMean y) / handleZeros (npStd y) := by
            funext i
            have hi : (i : Nat) < y.length := hZl ▸ i.isLt
            rw [List.getD_eq_getElem?_getD, List.getElem?_map, List.getElem?_eq_getElem hi]
            simp only [Option.map_some, Option.getD_some, Pi.smul_apply, smul_eq_mul]
            rw [normalised_units hy ha b _ (List.getElem_mem hi), List.getD_eq_getElem?_getD, List.getElem?_eq_getElem hi]
            rfl
          simp only [GpFit.meanAt]
          rw [ht, Matrix.mulVec_smul, dotProduct_smul, npMean_affine hy, npStd_units hy, smul_eq_mul]
          by_cases h0 : npStd y = 0
          · have : (fun i : Fin Z.length => (y.getD i 0 - npMean y) / handleZeros (npStd y)) = 0 := by
              funext i
              have hi : (i : Nat) < y.length := hZl ▸ i.isLt
              rw [List.getD_eq_getElem?_getD, List.getElem?_eq_getElem hi, Option.getD_some, constant_mean hy h0 _ (List.getElem_mem hi)]
              simp
            rw [this, Matrix.mulVec_zero, dotProduct_zero]; ring
          · rw [handleZeros, handleZeros, if_neg h0, if_neg (mul_ne_zero (abs_ne_zero.2 ha) h0)]
            have := sgn_abs a
            obtain ⟨q, hq⟩ : ∃ q, q = (fun i : Fin Z.length => k z Z[i]) ⬝ᵥ ((gramAlpha k Z)⁻¹ *ᵥ fun i : Fin Z.length => (y.getD i 0 - npMean y) / npStd y) := ⟨_, rfl⟩
            rw [← hq]
            rw [show |a| * npStd y * (sgn a * q) = (|a| * sgn a) * (npStd y * q) by ring, this]; ring
        · by_cases h0 : npStd y = 0
          · refine .inr ⟨h0, fun z => ?_, fun v hv z => ?_⟩
            · simp only [GpFit.stdAt]
              rw [npStd_units hy, h0, mul_zero]
            · have : (fun i : Fin Z.length => (y.getD i 0 - npMean y) / handleZeros (npStd y)) = 0 := by
                funext i
                have hi : (i : Nat) < y.length := hZl ▸ i.isLt
                rw [List.getD_eq_getElem?_getD, List.getElem?_eq_getElem hi, Option.getD_some, constant_mean hy h0 _ (List.getElem_mem hi)]
                simp
              simp only [GpFit.meanAt]
              rw [this, Matrix.mulVec_zero, dotProduct_zero, mul_zero, zero_add, constant_mean hy h0 v hv]
          · refine .inl ⟨h0, fun z => ?_⟩
            simp only [GpFit.stdAt]
            rw [npStd_units hy, handleZeros, handleZeros, if_neg h0, if_neg (mul_ne_zero (abs_ne_zero.2 ha) h0), mul_pow,
              show ∀ u : ℝ, u * (|a| ^ 2 * npStd y ^ 2) = |a| ^ 2 * (u * npStd y ^ 2) from fun u => by ring,
              Real.sqrt_mul (by positivity), Real.sqrt_sq (abs_nonneg a)]
      · rw [if_neg hpd, if_neg hpd]
        exact .inl ⟨.value, rfl, rfl⟩

/-- The exploration parameter in other units: that of the improvement is a difference of values, that of the confidence bound a plain number. -/
def AcqKind.units (a : ℝ) : AcqKind → AcqKind
  | .ei eps => .ei (|a| * eps)
  | .pi eps => .pi (|a| * eps)
  | .lcb tau => .lcb tau

/-- the direction of the optimisation in other units -/
noncomputable def direction (a : ℝ) (minimize : Bool) : Bool := if 0 < a then minimize else !minimize

theorem lead_units {a : ℝ} (ha : a ≠ 0) (b : ℝ) (minimize : Bool) (eta eps mean : ℝ) :
    lead (direction a minimize) (a * eta + b) (|a| * eps) (a * mean + b) = |a| * lead minimize eta eps mean := by
  rcases lt_or_gt_of_ne ha with h | h
  · rw [abs_of_neg h, direction, if_neg (not_lt.2 h.le)]
    cases minimize <;> simp [lead] <;> ring
  · rw [abs_of_pos h, direction, if_pos h]
    cases minimize <;> simp [lead] <;> ring

/-- values in other units order the candidates in the same way -/
theorem value_units {a : ℝ} (ha : a ≠ 0) (b : ℝ) {kind : AcqKind} {minimize : Bool} (hk : (∀ eps, kind ≠ .ei eps) ∨ 0 < a)
    (eta m₁ m₂ : ℝ) {s₁ s₂ s₁' s₂' : ℝ} (h₁ : 0 ≤ s₁) (h₂ : 0 ≤ s₂)
    (hs : s₁' = |a| * s₁ ∧ s₂' = |a| * s₂ ∨ s₁' = s₁ ∧ s₂' = s₂ ∧ m₁ = eta ∧ m₂ = eta) :
    (kind.units a).value (direction a minimize) (some (a * eta + b)) (a * m₁ + b) s₁' <
      (kind.units a).value (direction a minimize) (some (a * eta + b)) (a * m₂ + b) s₂' ↔
    kind.value minimize (some eta) m₁ s₁ < kind.value minimize (some eta) m₂ s₂ := by
  have hpa : 0 < |a| := abs_pos.2 ha
  cases kind with
  | ei eps =>
    have hp : 0 < a := hk.resolve_left fun h => h eps rfl
    simp only [AcqKind.units, AcqKind.value, Option.getD_some]
    rcases hs with ⟨rfl, rfl⟩ | ⟨rfl, rfl, rfl, rfl⟩
    · have key : ∀ m s : ℝ, eiValue (a * eta + b) (|a| * eps) (a * m + b) (|a| * s) = |a| * eiValue eta eps m s := by
        intro m s
        by_cases h0 : s = 0
        · simp [eiValue, h0]
        · rw [eiValue, eiValue, if_neg h0, if_neg (mul_ne_zero hpa.ne' h0)]
          have : (a * eta + b - (a * m + b) - |a| * eps) / (|a| * s) = (eta - m - eps) / s := by
            rw [abs_of_pos hp]; have := hp.ne'; field_simp; ring
          dsimp only
          rw [this]; ring
      rw [key, key]
      exact mul_lt_mul_iff_right₀ hpa
    · have key : ∀ (e p m s t : ℝ), 0 ≤ s → 0 ≤ t → (eiValue e p m s < eiValue e p m t ↔ s < t) := by
        intro e p m s t hs ht
        constructor
        · intro h
          by_contra hc
          rcases (not_lt.1 hc).eq_or_lt with rfl | hc
          · exact lt_irrefl _ h
          · exact lt_asymm h (C126_ei e p m ht hc)
        · exact C126_ei e p m hs
      rw [key _ _ _ _ _ h₁ h₂, key _ _ _ _ _ h₁ h₂]
  | pi eps =>
    simp only [AcqKind.units, AcqKind.value, Option.getD_some]
    have zero : ∀ (mi : Bool) (e p m : ℝ), piValue mi e p m 0 = 0 := fun mi e p m => if_pos rfl
    rcases hs with ⟨rfl, rfl⟩ | ⟨rfl, rfl, rfl, rfl⟩
    · have key : ∀ m s : ℝ, piValue (direction a minimize) (a * eta + b) (|a| * eps) (a * m + b) (|a| * s) = piValue minimize eta eps m s := by
        intro m s
        by_cases h0 : s = 0
        · rw [h0, mul_zero, zero, zero]
        · rw [piValue_lead _ _ _ _ h0, piValue_lead _ _ _ _ (mul_ne_zero hpa.ne' h0), lead_units ha, mul_div_mul_left _ _ hpa.ne']
      rw [key, key]
    · have key : ∀ (mi : Bool) (e p m s t : ℝ), 0 ≤ s → 0 ≤ t → (piValue mi e p m s < piValue mi e p m t ↔
          (s = 0 ∧ 0 < t) ∨ (0 < s ∧ 0 < t ∧ (lead mi e p m < 0 ∧ s < t ∨ 0 < lead mi e p m ∧ t < s))) := by
        intro mi e p m s t hs ht
        rcases hs.eq_or_lt with rfl | hs
        · rcases ht.eq_or_lt with rfl | ht
          · simp
          · rw [zero, piValue_lead _ _ _ _ ht.ne']
            simp [normCdf_pos, ht]
        · rcases ht.eq_or_lt with rfl | ht
          · rw [zero, piValue_lead _ _ _ _ hs.ne']
            simp [hs.ne', (normCdf_pos _).le]
          · rw [piValue_lead _ _ _ _ hs.ne', piValue_lead _ _ _ _ ht.ne', (show StrictMono normCdf from fun _ _ h => normCdf_strict h).lt_iff_lt,
              div_lt_div_iff₀ hs ht]
            obtain ⟨l, hl⟩ : ∃ l, l = lead mi e p m := ⟨_, rfl⟩
            rw [← hl]
            simp only [hs, ht, hs.ne', true_and, false_and, false_or]
            constructor
            · intro h
              rcases lt_trichotomy l 0 with hl | rfl | hl
              · exact .inl ⟨hl, by by_contra hc; nlinarith⟩
              · simp at h
              · exact .inr ⟨hl, by by_contra hc; nlinarith⟩
            · rintro (⟨hl, h⟩ | ⟨hl, h⟩) <;> nlinarith
      rw [key _ _ _ _ _ _ h₁ h₂, key _ _ _ _ _ _ h₁ h₂, lead_units ha]
      simp only [mul_pos_iff_of_pos_left hpa, mul_neg_iff, hpa, hpa.not_gt, true_and, false_and, or_false]
  | lcb tau =>
    simp only [AcqKind.units, AcqKind.value]
    have e1 : ∀ m s : ℝ, lcbValue (direction a minimize) tau (a * m + b) (|a| * s) = |a| * lcbValue minimize tau m s +
        (if direction a minimize then -b else b) := by
      intro m s
      rcases lt_or_gt_of_ne ha with h | h
      · rw [abs_of_neg h, direction, if_neg (not_lt.2 h.le)]
        cases minimize <;> simp [lcbValue] <;> ring
      · rw [abs_of_pos h, direction, if_pos h]
        cases minimize <;> simp [lcbValue] <;> ring
    rcases hs with ⟨rfl, rfl⟩ | ⟨rfl, rfl, rfl, rfl⟩
    · rw [e1, e1, add_lt_add_iff_right]
      exact mul_lt_mul_iff_right₀ hpa
    · have : ∀ (mi : Bool) (m s t : ℝ), lcbValue mi tau m s < lcbValue mi tau m t ↔ tau * s < tau * t := by
        intro mi m s t
        cases mi <;> simp [lcbValue]
      rw [this, this]

/-- two samplers with the Gaussian process see the same problem through `a * v + b` -/
theorem gp_sameProblem {S : Type} {choose : List (List ℝ) → List ℝ → Kernel} {a : ℝ} (ha : a ≠ 0) (hev : a < 0 → SignFree choose) (b : ℝ) {kind : AcqKind}
    {minimize : Bool} (hk : (∀ eps, kind ≠ .ei eps) ∨ 0 < a) {initialPoints : Int} {names : List String} {drawer acqDrawer : Drawer (Config ℝ) S}
    {nCandidates : Int} {d : Nat} (hd : ∀ r n, ∀ c ∈ (acqDrawer.draw r n).1, c.vector.length = d) :
    SameProblem (fun v => a * v + b)
      { initialPoints, minimize, names, drawer, acqDrawer, nCandidates, fit := gpFitStep choose, acq := gpAcq kind minimize }
      { initialPoints, minimize := direction a minimize, names, drawer, acqDrawer, nCandidates, fit := gpFitStep choose, acq := gpAcq (kind.units a) (direction a minimize) }
      (fun cs ys k k' => ∃ n g g', k = ⟨n, some g⟩ ∧ k' = ⟨n, some g'⟩ ∧ InUnits a b (cs.map Config.vector) ys g g') (fun c => c.vector.length = d) := by
  refine ⟨rfl, rfl, rfl, rfl, rfl, fun l => ?_, fun m m' cs ys hl => ?_, fun cs ys k k' eta => ?_, hd⟩
  · dsimp only
    rcases lt_or_gt_of_ne ha with h | h
    · have hT : StrictAnti fun v : ℝ => a * v + b := fun v w hvw => by nlinarith
      rw [direction, if_neg (not_lt.2 h.le)]
      cases minimize
      · simpa [bestIndex] using argmin_map_anti hT l
      · simpa [bestIndex] using argmax_map_anti hT l
    · have hT : StrictMono fun v : ℝ => a * v + b := fun v w hvw => by nlinarith
      rw [direction, if_pos h]
      cases minimize
      · simpa [bestIndex] using argmax_map hT l
      · simpa [bestIndex] using argmin_map hT l
  · dsimp only [gpFitStep, GpSurrogate.fit]
    rw [List.length_map]
    rcases pipelineFit_units ha hev b (cs.map Config.vector) ys with ⟨e, h1, h2⟩ | ⟨g, g', h1, h2, h3⟩
    · rw [h1, h2]
      exact .inl ⟨e, rfl, rfl⟩
    · rw [h1, h2]
      exact .inr ⟨_, _, rfl, rfl, _, g, g', rfl, rfl, h3⟩
  · rintro ⟨n, g, g', rfl, rfl, hu⟩ hinc c e hc he
    dsimp only at hc he hinc ⊢
    cases eta with
    | none => exact absurd hinc hu.targets
    | some eta =>
      unfold gpAcq
      by_cases hw : g.dim = d
      · rw [predict_one (hc.trans hw.symm), predict_one (he.trans hw.symm), predict_one (hc.trans (hu.dim.trans hw).symm),
          predict_one (he.trans (hu.dim.trans hw).symm)]
        dsimp only [Option.map_some]
        rw [hu.scaler, hu.mean, hu.mean]
        refine value_units ha b hk _ _ _ (Real.sqrt_nonneg _) (Real.sqrt_nonneg _) ?_
        rcases hu.std with ⟨-, h⟩ | ⟨-, h, hm⟩
        · exact .inl ⟨h _, h _⟩
        · exact .inr ⟨h _, h _, hm eta hinc.1 _, hm eta hinc.1 _⟩
      · have bad : ∀ (n : Nat) (g : GpFit) (c : Config ℝ), c.vector.length = d → g.dim ≠ d → GpSurrogate.predict ⟨n, some g⟩ [c.vector] = .error .value := by
          intro n g c hc hg
          rw [GpSurrogate.predict]
          dsimp only
          exact if_pos (.inr ⟨_, by simp, fun h => hg (h.symm.trans hc)⟩)
        rw [bad n g c hc hw, bad n g e he hw, bad n g' c hc (by rw [hu.dim]; exact hw), bad n g' e he (by rw [hu.dim]; exact hw)]

theorem freshBO_same {S : Type} (T : ℝ → ℝ) (r : S) (m : GpSurrogate) (cache : List (Config ℝ × ℝ)) :
    SameRun T { (freshBO r m : BOState (Config ℝ) ℝ GpSurrogate S) with cache }
      { (freshBO r m : BOState (Config ℝ) ℝ GpSurrogate S) with cache := cache.map fun p => (p.1, T p.2) } :=
  ⟨rfl, rfl, rfl, rfl, rfl, rfl, rfl, rfl, rfl, rfl, (fun _ h => by cases h), rfl⟩

/-! ### the properties -/

section properties
variable {S : Type} {choose : List (List ℝ) → List ℝ → Kernel} {kind : AcqKind} {minimize : Bool} {initialPoints : Int} {names : List String}
  {drawer acqDrawer : Drawer (Config ℝ) S} {nCandidates : Int} {d : Nat} {env : BOEnv (Config ℝ) ℝ GpSurrogate S} {m : GpSurrogate}

/-- **C124** Measuring the objective function in other units (`a * f + b` with `a > 0`), and with it the exploration parameter of the improvement
functions and the cached values, changes nothing but the units: in every history of calls the same calls fail with the same errors, the same configurations
are evaluated in the same order, the recorded values are the converted ones, the incumbent is the same configuration, and the random generator ends in the
same state. -/
theorem C124_path {a : ℝ} (ha : 0 < a) (b : ℝ) (hd : ∀ r n, ∀ c ∈ (acqDrawer.draw r n).1, c.vector.length = d)
    (h : gpSampler choose kind minimize initialPoints names drawer acqDrawer nCandidates = .ok (env, m)) (o : Objective (Config ℝ) ℝ) :
    ∃ env', gpSampler choose (kind.units a) minimize initialPoints names drawer acqDrawer nCandidates = .ok (env', m) ∧
      ∀ (r : S) (cache : List (Config ℝ × ℝ)) (ops : List SOp) (run run' : BOState (Config ℝ) ℝ GpSurrogate S × List (Option PyErr)),
        run = srun (boSample o env) { freshBO r m with cache } ops →
        run' = srun (boSample ⟨fun c => a * o.value c + b, o.raises⟩ env') { freshBO r m with cache := cache.map fun p => (p.1, a * p.2 + b) } ops →
        run'.2 = run.2 ∧ run'.1.configs = run.1.configs ∧ run'.1.ys = run.1.ys.map (fun v => a * v + b) ∧ run'.1.calls = run.1.calls ∧
        run'.1.extra.rng = run.1.extra.rng ∧
        incumbent minimize run'.1 = (incumbent minimize run.1).map fun p => (p.1, p.2.map fun v => a * v + b) := by
  obtain ⟨⟨⟩, hi, henv⟩ := Py.bind_eq_ok.1 h
  obtain ⟨rfl, rfl⟩ := Prod.mk.inj (Except.ok.inj henv)
  have hp := gp_sameProblem (S := S) (choose := choose) ha.ne' (fun h => absurd h (not_lt.2 ha.le)) b (kind := kind) (minimize := minimize) (.inr ha)
    (initialPoints := initialPoints) (names := names) (drawer := drawer) (acqDrawer := acqDrawer) (nCandidates := nCandidates) hd
  have hdir : direction a minimize = minimize := if_pos ha
  rw [hdir] at hp
  have hi' : (kind.units a).init minimize = .ok () := by cases kind <;> exact hi
  refine ⟨_, by rw [gpSampler, hi', Py.ok_bind]; rfl, fun r cache ops run run' h1 h2 => ?_⟩
  obtain ⟨q1, q2⟩ := srun_parallel (o := o) hp ops (freshBO_same _ r .new cache)
  subst h1 h2
  exact ⟨q2, q1.configs, q1.ys, q1.calls, q1.rng, incumbent_parallel hp q1⟩

/-- a history whose last call is a sample that returned normally leaves related surrogates -/
theorem last_sample {C K M : Type} [LinearOrder K] {T : K → K} {env env' : BOEnv C K M S} {Rel : List C → List K → M → M → Prop} {good : C → Prop}
    {o : Objective C K} (h : SameProblem T env env' Rel good) (ops : List SOp) (n : Int) {s s' : BOState C K M S} (hs : SameRun T s s')
    (hl : (srun (boSample o env) s (ops ++ [.sample n])).2.getLast? = some none) :
    Rel (srun (boSample o env) s (ops ++ [.sample n])).1.configs (srun (boSample o env) s (ops ++ [.sample n])).1.ys
      (srun (boSample o env) s (ops ++ [.sample n])).1.extra.model (srun (boSample (o.through T) env') s' (ops ++ [.sample n])).1.extra.model := by
  induction ops generalizing s s' with
  | nil =>
    obtain ⟨-, -, p3⟩ := boSample_parallel (o := o) h n hs
    simp only [List.nil_append, srun, sstep, List.getLast?_singleton, Option.some.injEq] at hl ⊢
    exact p3 trivial hl
  | cons op ops ih =>
    simp only [List.cons_append, srun] at hl ⊢
    obtain ⟨q1, -⟩ := srun_parallel (o := o) h [op] hs
    refine ih q1 ?_
    rw [List.getLast?_cons] at hl
    rcases hx : (srun (boSample o env) (sstep (boSample o env) s op).1 (ops ++ [.sample n])).2.getLast? with _ | e
    · have : (srun (boSample o env) (sstep (boSample o env) s op).1 (ops ++ [.sample n])).2 = [] := List.getLast?_eq_none_iff.1 hx
      have gen : ∀ (l : List SOp) (t : BOState C K M S), (srun (boSample o env) t l).2.length = l.length := by
        intro l
        induction l with
        | nil => intro t; rfl
        | cons x l ih => intro t; simp only [srun, List.length_cons, ih]
      have h2 := gen (ops ++ [.sample n]) (sstep (boSample o env) s op).1
      rw [this] at h2
      simp at h2
    · rw [hx] at hl
      have he : e = none := by simpa using hl
      rw [he] at hx
      exact hx

/-- **C124** After a call of `sample` that returned normally, the surrogate predicts in the new units as well: for every row of numbers the mean is
converted like the values, and the standard deviation is multiplied by `a`, unless all recorded values are equal. -/
theorem C124_surrogate {a : ℝ} (ha : 0 < a) (b : ℝ) (hd : ∀ r n, ∀ c ∈ (acqDrawer.draw r n).1, c.vector.length = d)
    (h : gpSampler choose kind minimize initialPoints names drawer acqDrawer nCandidates = .ok (env, m)) (o : Objective (Config ℝ) ℝ)
    {env' : BOEnv (Config ℝ) ℝ GpSurrogate S} {m' : GpSurrogate}
    (h' : gpSampler choose (kind.units a) minimize initialPoints names drawer acqDrawer nCandidates = .ok (env', m'))
    (r : S) (cache : List (Config ℝ × ℝ)) (ops : List SOp) (n : Int) {run run' : BOState (Config ℝ) ℝ GpSurrogate S × List (Option PyErr)}
    (hrun : run = srun (boSample o env) { freshBO r m with cache } (ops ++ [.sample n]))
    (hrun' : run' = srun (boSample ⟨fun c => a * o.value c + b, o.raises⟩ env') { freshBO r m' with cache := cache.map fun p => (p.1, a * p.2 + b) }
      (ops ++ [.sample n])) (hl : run.2.getLast? = some none) :
    ∃ (w : Nat) (mu sd mu' sd' : List ℝ → ℝ), (∀ c ∈ run.1.configs, c.vector.length = w) ∧
      RowWise w run.1.extra.model.predict mu sd ∧ RowWise w run'.1.extra.model.predict mu' sd' ∧
      (∀ q, mu' q = a * mu q + b) ∧ ((∃ v ∈ run.1.ys, ∃ w ∈ run.1.ys, v ≠ w) → ∀ q, sd' q = a * sd q) ∧
      ((∀ v ∈ run.1.ys, ∀ w ∈ run.1.ys, v = w) → ∀ q, sd' q = sd q) := by
  obtain ⟨⟨⟩, hi, henv⟩ := Py.bind_eq_ok.1 h
  obtain ⟨rfl, rfl⟩ := Prod.mk.inj (Except.ok.inj henv)
  obtain ⟨⟨⟩, hi', henv'⟩ := Py.bind_eq_ok.1 h'
  obtain ⟨rfl, rfl⟩ := Prod.mk.inj (Except.ok.inj henv')
  have hp := gp_sameProblem (S := S) (choose := choose) ha.ne' (fun h => absurd h (not_lt.2 ha.le)) b (kind := kind) (minimize := minimize) (.inr ha)
    (initialPoints := initialPoints) (names := names) (drawer := drawer) (acqDrawer := acqDrawer) (nCandidates := nCandidates) hd
  rw [show direction a minimize = minimize from if_pos ha] at hp
  rw [hrun] at hl
  obtain ⟨k, g, g', e1, e2, hu⟩ := last_sample (o := o) hp ops n (freshBO_same _ r .new cache) hl
  rw [← hrun] at e1 hu
  have e2' : run'.1.extra.model = ⟨k, some g'⟩ := by rw [hrun']; exact e2
  refine ⟨g.dim, _, _, _, _, fun c hc => hu.width _ (List.mem_map_of_mem hc), by rw [e1]; exact predict_rowWise k g,
    by rw [e2', ← hu.dim]; exact predict_rowWise k g', fun q => by rw [hu.scaler, hu.mean], ?_, ?_⟩
  · rintro ⟨v, hv, w, hw, hne⟩ q
    rcases hu.std with ⟨-, h1⟩ | ⟨h0, -⟩
    · rw [hu.scaler, h1, abs_of_pos ha]
    · exact absurd ((npStd_eq_zero hu.targets).1 h0 v hv w hw) hne
  · intro hall q
    rcases hu.std with ⟨h0, -⟩ | ⟨-, h1, -⟩
    · exact absurd ((npStd_eq_zero hu.targets).2 hall) h0
    · rw [hu.scaler, h1]

/-- **C124** and the decision tree on top of it (with the same samples) has the same leaves: same conditions, same points. -/
theorem C124_tree {a : ℝ} (ha : 0 < a) (b : ℝ) (hd : ∀ r n, ∀ c ∈ (acqDrawer.draw r n).1, c.vector.length = d)
    (h : gpSampler choose kind minimize initialPoints names drawer acqDrawer nCandidates = .ok (env, m)) (o : Objective (Config ℝ) ℝ)
    {env' : BOEnv (Config ℝ) ℝ GpSurrogate S} {m' : GpSurrogate}
    (h' : gpSampler choose (kind.units a) minimize initialPoints names drawer acqDrawer nCandidates = .ok (env', m'))
    (r : S) (cache : List (Config ℝ × ℝ)) (ops : List SOp) (n : Int) {run run' : BOState (Config ℝ) ℝ GpSurrogate S × List (Option PyErr)}
    (hrun : run = srun (boSample o env) { freshBO r m with cache } (ops ++ [.sample n]))
    (hrun' : run' = srun (boSample ⟨fun c => a * o.value c + b, o.raises⟩ env') { freshBO r m' with cache := cache.map fun p => (p.1, a * p.2 + b) }
      (ops ++ [.sample n])) (hl : run.2.getLast? = some none)
    {space : ConfigSpace ℝ} (hwf : space.WF) (hw : ∃ c ∈ run.1.configs, c.vector.length = space.length)
    {samples : List (List ℝ)} (hrows : ∀ q ∈ samples, q.length = space.length) (hs : samples ≠ [])
    {sel : Selection ℝ} {perAxis numSplits minPoints : Nat} (hg : 1 ≤ perAxis) {notSplittable : Option (Selection ℝ)} {p : DT ℝ}
    (hdt : dtInit space run.1.extra.model.predict sel samples perAxis numSplits minPoints notSplittable = .ok p)
    (hmem : ∀ hp ∈ p.cfg.selected, hp ∈ space) (hdup : (p.cfg.selected.map Hp.name).Nodup) (hne : p.cfg.selected ≠ []) :
    ∃ p', dtInit space run'.1.extra.model.predict sel samples perAxis numSplits minPoints notSplittable = .ok p' ∧ ∀ depth : Int, 0 < depth →
      ∃ leaves leaves', (dtPartition p depth).2 = .ok leaves ∧ (dtPartition p' depth).2 = .ok leaves' ∧
        List.Forall₂ (fun m m' => m'.depth = m.depth ∧ m'.conds = m.conds ∧ m'.x = m.x) leaves leaves' := by
  obtain ⟨w, mu, sd, mu', sd', hwid, r1, r2, -, h1, h2⟩ := C124_surrogate ha b hd h o h' r cache ops n hrun hrun' hl
  obtain ⟨c, hc, hcw⟩ := hw
  obtain rfl : w = space.length := (hwid c hc).symm.trans hcw
  have fin : ∀ f : ℝ, 0 < f → (∀ q : List ℝ, q.length = space.length → sd' q ^ 2 = f * sd q ^ 2) → _ := fun f hf hq =>
    C123_tree hwf r1 r2 hf hq hrows hs hg hdt hmem hdup hne
  obtain ⟨p', hp', hP⟩ : ∃ p', dtInit space run'.1.extra.model.predict sel samples perAxis numSplits minPoints notSplittable = .ok p' ∧
      ∃ f : ℝ, ∀ depth : Int, 0 < depth → ∃ leaves leaves', (dtPartition p depth).2 = .ok leaves ∧ (dtPartition p' depth).2 = .ok leaves' ∧
        List.Forall₂ (fun m m' => m'.depth = m.depth ∧ m'.conds = m.conds ∧ m'.x = m.x ∧ m'.v = m.v.map (fun row => row.map (f * ·)) ∧
          regionLoss m'.v = f ^ 2 * regionLoss m.v) leaves leaves' := by
    by_cases hall : ∀ v ∈ run.1.ys, ∀ w ∈ run.1.ys, v = w
    · obtain ⟨p', e1, e2⟩ := fin 1 one_pos fun q _ => by rw [h2 hall q]; ring
      exact ⟨p', e1, 1, e2⟩
    · push Not at hall
      obtain ⟨p', e1, e2⟩ := fin (a ^ 2) (by positivity) fun q _ => by rw [h1 hall q]; ring
      exact ⟨p', e1, a ^ 2, e2⟩
  obtain ⟨f, hP⟩ := hP
  refine ⟨p', hp', fun depth hdep => ?_⟩
  obtain ⟨L, L', g1, g2, g3⟩ := hP depth hdep
  exact ⟨L, L', g1, g2, g3.imp fun _ _ h => ⟨h.1, h.2.1, h.2.2.1⟩⟩

/-- **C125** Maximising a function evaluates the same configurations in the same order as minimising its negative (for the acquisition functions that can do both,
and an optimiser of the likelihood that does not mind the sign of the targets): in every history the same calls fail alike, the recorded values are the negated ones, the incumbent
is the same configuration. -/
theorem C125_path (hev : SignFree choose) (hk : ∀ eps, kind ≠ .ei eps) (hd : ∀ r n, ∀ c ∈ (acqDrawer.draw r n).1, c.vector.length = d)
    (o : Objective (Config ℝ) ℝ) :
    ∃ env env', gpSampler choose kind minimize initialPoints names drawer acqDrawer nCandidates = .ok (env, .new) ∧
      gpSampler choose kind (!minimize) initialPoints names drawer acqDrawer nCandidates = .ok (env', .new) ∧
      ∀ (r : S) (cache : List (Config ℝ × ℝ)) (ops : List SOp) (run run' : BOState (Config ℝ) ℝ GpSurrogate S × List (Option PyErr)),
        run = srun (boSample o env) { freshBO r .new with cache } ops →
        run' = srun (boSample ⟨fun c => -o.value c, o.raises⟩ env') { freshBO r .new with cache := cache.map fun p => (p.1, -p.2) } ops →
        run'.2 = run.2 ∧ run'.1.configs = run.1.configs ∧ run'.1.ys = run.1.ys.map (fun v => -v) ∧ run'.1.calls = run.1.calls ∧
        run'.1.extra.rng = run.1.extra.rng ∧ incumbent (!minimize) run'.1 = (incumbent minimize run.1).map fun p => (p.1, p.2.map fun v => -v) := by
  have hp := gp_sameProblem (S := S) (choose := choose) (a := -1) (by norm_num) (fun _ => hev) 0 (kind := kind) (minimize := minimize) (.inl hk)
    (initialPoints := initialPoints) (names := names) (drawer := drawer) (acqDrawer := acqDrawer) (nCandidates := nCandidates) hd
  have hdir : direction (-1) minimize = !minimize := if_neg (by norm_num)
  have hun : kind.units (-1) = kind := by cases kind <;> simp [AcqKind.units]
  have hT : (fun v : ℝ => -1 * v + 0) = fun v => -v := by funext v; ring
  rw [hdir, hun] at hp
  simp only [hT] at hp
  refine ⟨_, _, gpSampler_ok choose (.inr hk) initialPoints names drawer acqDrawer nCandidates,
    gpSampler_ok choose (.inr hk) initialPoints names drawer acqDrawer nCandidates, fun r cache ops run run' h1 h2 => ?_⟩
  obtain ⟨q1, q2⟩ := srun_parallel (o := o) hp ops (freshBO_same _ r .new cache)
  subst h1 h2
  exact ⟨q2, q1.configs, q1.ys, q1.calls, q1.rng, incumbent_parallel hp q1⟩

end properties

/-! ### an example: temperatures in Celsius and Fahrenheit, whatever length scales are found -/

/-- the configurations 0, 1/7, ..., 6/7, 0, ... of a hyperparameter -/
noncomputable def unitDrawer : Drawer (Config ℝ) Nat :=
  ⟨fun s k => ((List.range k).map fun i => ⟨[(((s + i) % 7 : Nat) : ℝ) / 7], [("x1", .num ((((s + i) % 7 : Nat) : ℝ) / 7))]⟩, s + k), by simp⟩

theorem unitDrawer_width (r n : Nat) : ∀ c ∈ (unitDrawer.draw r n).1, c.vector.length = 1 := by
  intro c hc
  simp only [unitDrawer, List.mem_map] at hc
  obtain ⟨i, -, rfl⟩ := hc
  rfl

/-- all ten points of the two calls are evaluated, in both units the same ones -/
example (ℓ : List (List ℝ) → List ℝ → ℝ) (hℓ : ∀ Z t, 0 < ℓ Z t) (celsius : Config ℝ → ℝ) :
    ∃ env env' m, gpSampler (fun Z t => matern (ℓ Z t)) (.ei (1 / 10)) true 3 ["x1"] unitDrawer unitDrawer 100 = .ok (env, m) ∧
      gpSampler (fun Z t => matern (ℓ Z t)) (.ei (9 / 5 * (1 / 10))) true 3 ["x1"] unitDrawer unitDrawer 100 = .ok (env', m) ∧
      ∀ run run', run = srun (boSample ⟨celsius, fun _ _ => none⟩ env) (freshBO 0 m) [.sample 4, .sample 6] →
        run' = srun (boSample ⟨fun c => 9 / 5 * celsius c + 32, fun _ _ => none⟩ env') (freshBO 0 m) [.sample 4, .sample 6] →
        run.2 = [none, none] ∧ run.1.configs.length = 10 ∧ run'.2 = run.2 ∧ run'.1.configs = run.1.configs := by
  obtain ⟨env, m, h1, h2⟩ := C101_default (S := Nat) ℓ hℓ (d := 1) le_rfl (kind := .ei (1 / 10)) (minimize := true) (.inl rfl) (initialPoints := 3) (by norm_num)
    ["x1"] (drawer := unitDrawer) (acqDrawer := unitDrawer) (nCandidates := 100) (by norm_num) (good := fun c => c.vector.length = 1) (fun _ h => h)
    unitDrawer_width unitDrawer_width (o := ⟨celsius, fun _ _ => none⟩) (fun _ _ _ => rfl)
  obtain ⟨env', h3, h4⟩ := C124_path (a := 9 / 5) (by norm_num) 32 unitDrawer_width h1 ⟨celsius, fun _ _ => none⟩
  have hu : AcqKind.units (9 / 5) (.ei (1 / 10)) = .ei (9 / 5 * (1 / 10)) := by simp only [AcqKind.units]; rw [abs_of_pos (by norm_num)]
  rw [hu] at h3
  refine ⟨env, env', m, h1, h3, fun run run' e1 e2 => ?_⟩
  obtain ⟨q1, q2, -⟩ := h4 0 [] [.sample 4, .sample 6] run run' e1 e2
  have hok := h2 0 [] (by simp) [.sample 4, .sample 6] (by simp)
  have e1' : run = srun (boSample ⟨celsius, fun _ _ => none⟩ env) { (freshBO 0 m : BOState (Config ℝ) ℝ GpSurrogate Nat) with cache := [] } [.sample 4, .sample 6] := e1
  rw [← e1'] at hok
  refine ⟨?_, ?_, q1, q2⟩
  · have : run.2.length = 2 := by rw [e1]; rfl
    obtain ⟨x, y, hxy⟩ := List.length_eq_two.1 this
    rw [hxy] at hok ⊢
    rw [hok x (by simp), hok y (by simp)]
  · classical
    have := (C19_history (o := ⟨celsius, fun _ _ => none⟩) (sample := boSample ⟨celsius, fun _ _ => none⟩ env) (.bo env) (freshBO 0 m) rfl
      [.sample 4, .sample 6] (by rw [← e1]; exact hok)).1
    rw [← e1] at this
    rw [this]; rfl

/-- maximising the yield and minimising the loss -/
example (ℓ : List (List ℝ) → List ℝ → ℝ) (hev : ∀ Z t, ℓ Z (t.map Neg.neg) = ℓ Z t) (gain : Config ℝ → ℝ) :
    ∃ env env', gpSampler (fun Z t => matern (ℓ Z t)) (.lcb 5) false 3 ["x1"] unitDrawer unitDrawer 100 = .ok (env, .new) ∧
      gpSampler (fun Z t => matern (ℓ Z t)) (.lcb 5) true 3 ["x1"] unitDrawer unitDrawer 100 = .ok (env', .new) ∧
      (srun (boSample ⟨fun c => -gain c, fun _ _ => none⟩ env') (freshBO 0 .new) [.sample 4, .sample 6]).1.configs =
        (srun (boSample ⟨gain, fun _ _ => none⟩ env) (freshBO 0 .new) [.sample 4, .sample 6]).1.configs := by
  obtain ⟨env, env', h1, h2, h3⟩ := C125_path (S := Nat) (choose := fun Z t => matern (ℓ Z t)) (kind := .lcb 5) (minimize := false) (initialPoints := 3)
    (names := ["x1"]) (drawer := unitDrawer) (acqDrawer := unitDrawer) (nCandidates := 100) (fun Z t => by simp only [hev]) (by simp) unitDrawer_width
    ⟨gain, fun _ _ => none⟩
  exact ⟨env, env', h1, h2, (h3 0 [] [.sample 4, .sample 6] _ _ rfl rfl).2.1⟩

end PyPDP
