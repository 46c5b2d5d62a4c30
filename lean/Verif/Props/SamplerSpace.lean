/-
C148: a sampler whose config space is not the one of the blackbox function.
-/
import Verif.Props.Evaluations
import Verif.Props.RandomGrid
import Verif.Props.Blackbox
import Verif.Model.Main

namespace PyPDP
open Spec

section same
variable {C K S M G : Type} {o o' : Objective C K}

theorem randomLoop_congr (h : o.eval = o'.eval) (samples : Draws C) : ∀ (k i : Nat) (s : SamplerState C K S),
    randomLoop o samples i k s = randomLoop o' samples i k s
  | 0, _, _ => rfl
  | k + 1, i, s => by
    simp only [randomLoop, h]
    split
    · rfl
    · split
      · rfl
      · exact randomLoop_congr h samples k (i + 1) _

theorem evalAll_congr (h : o.eval = o'.eval) : ∀ (cs : List C) (t : Nat), evalAll o t cs = evalAll o' t cs
  | [], _ => rfl
  | c :: cs, t => by simp only [evalAll, h, evalAll_congr h cs]

theorem boLoop_congr [LinearOrder K] (h : o.eval = o'.eval) (env : BOEnv C K M S) : ∀ (k : Nat) (s : BOState C K M S),
    boLoop o env k s = boLoop o' env k s
  | 0, _ => rfl
  | k + 1, s => by
    have hs : boStep o env s = boStep o' env s := by simp only [boStep, h]
    simp only [boLoop, hs]
    split
    · rfl
    · exact boLoop_congr h env k _

theorem boSample_congr [LinearOrder K] (h : o.eval = o'.eval) (env : BOEnv C K M S) : boSample o env = boSample o' env := by
  have hacq : ∀ s k, boAcquire o env s k = boAcquire o' env s k := fun s k => by simp only [boAcquire, boLoop_congr h]
  have hinner : boInner o env = boInner o' env := by
    funext s n
    simp only [boInner, boInitial, evalAll_congr h, hacq]
  funext s n
  simp only [boSample, hinner]

theorem randomSampler_congr (h : o.eval = o'.eval) (d : Drawer C S) : randomSampler o d = randomSampler o' d := by
  have : randomSample o d = randomSample o' d := by
    funext s n
    simp only [randomSample, randomLoop_congr h]
  unfold randomSampler
  rw [this]

/-- the samplers see of the objective function only what its calls return or raise -/
theorem Spec.IsRandomOrBO.congr [LinearOrder K] {X : Type} {sample : SamplerState C K X → Int → SamplerState C K X × Option PyErr}
    (hs : IsRandomOrBO o X sample) (h : o.eval = o'.eval) : IsRandomOrBO o' X sample := by
  cases hs with
  | random d => rw [randomSampler_congr h]; exact .random d
  | bo env => rw [boSample_congr h]; exact .bo env

end same

theorem callObjective_eval (inv : Hp ℝ → Val ℝ → ℝ) (f : BlackboxFn ℝ) (t : Nat) (c : Config ℝ) :
    (callObjective inv f).eval t c = f.call inv c.values := by
  unfold Objective.eval callObjective
  cases h : f.call inv c.values <;> simp [h]

/-- **C148** A RandomSampler or BayesianOptimizationSampler records only what the function accepts, whatever its own config space is: after every
history of calls - also when some of them raised - every recorded configuration is one on which `f(**config)` returns, and the recorded value is
what it returns. (Points that were there at the start, or in the cache, must be of this kind.) -/
theorem C148_recorded (inv : Hp ℝ → Val ℝ → ℝ) (f : BlackboxFn ℝ) {X : Type}
    {sample : SamplerState (Config ℝ) ℝ X → Int → SamplerState (Config ℝ) ℝ X × Option PyErr} (hs : IsRandomOrBO (callObjective inv f) X sample)
    {s : SamplerState (Config ℝ) ℝ X} (hstart : List.Forall₂ (fun c y => f.call inv c.values = .ok y) s.configs s.ys)
    (hcache : ∀ p ∈ s.cache, f.call inv p.1.values = .ok p.2) (ops : List SOp) :
    List.Forall₂ (fun c y => f.call inv c.values = .ok y) (srun sample s ops).1.configs (srun sample s ops).1.ys := by
  -- the same objective function, with another (never used) value where the call raises
  obtain ⟨o', ho'⟩ : ∃ o' : Objective (Config ℝ) ℝ, o' = ⟨fun c => match f.call inv c.values with | .ok v => v | .error _ => 1,
      (callObjective inv f).raises⟩ := ⟨_, rfl⟩
  have heval : (callObjective inv f).eval = o'.eval := by
    funext t c
    rw [callObjective_eval, ho']
    unfold Objective.eval callObjective
    cases h : f.call inv c.values <;> simp [h]
  have hval : ∀ c y, f.call inv c.values = .ok y → y = (callObjective inv f).value c ∧ y = o'.value c := by
    intro c y h
    rw [ho']
    simp [callObjective, h]
  have hal : ∀ g : Config ℝ → ℝ, (∀ c y, f.call inv c.values = .ok y → y = g c) → Aligned g s ∧ CacheTrue g s := by
    intro g hg
    refine ⟨?_, fun p hp => hg _ _ (hcache p hp)⟩
    unfold Aligned
    generalize s.configs = a at hstart
    generalize s.ys = b at hstart
    induction hstart with
    | nil => rfl
    | cons h _ ih => rw [List.map_cons, ← ih, ← hg _ _ h]
  have h1 := C20_random_bo hs s (hal _ fun c y h => (hval c y h).1).1 (hal _ fun c y h => (hval c y h).1).2 ops
  have h2 := C20_random_bo (hs.congr heval) s (hal _ fun c y h => (hval c y h).2).1 (hal _ fun c y h => (hval c y h).2).2 ops
  dsimp only at h1 h2
  rw [List.forall₂_iff_get]
  refine ⟨h1.1, fun i hi hj => ?_⟩
  have e1 := h1.2 i _ _ (List.getElem?_eq_getElem hi) (List.getElem?_eq_getElem hj)
  have e2 := h2.2 i _ _ (List.getElem?_eq_getElem hi) (List.getElem?_eq_getElem hj)
  simp only [List.get_eq_getElem]
  rw [ho'] at e2
  cases h : f.call inv ((srun sample s ops).1.configs[i]).values with
  | ok v =>
    simp only [h] at e2
    rw [e2]
  | error e =>
    simp only [callObjective, h] at e1 e2
    rw [e1] at e2
    norm_num at e2

theorem randomLoop_stops {C K S : Type} (o : Objective C K) {l pre post : List C} {c : C} (hl : l = pre ++ c :: post) {e : PyErr}
    (hpre : ∀ q ∈ pre, ∀ t, o.raises t q = none) (hc : ∀ t, o.raises t c = some e) (s : SamplerState C K S) :
    randomLoop o (.many l) 0 l.length s = (⟨s.configs ++ pre, s.ys ++ pre.map o.value, s.cache, s.calls + pre.length + 1, s.extra⟩, some e) := by
  have key : ∀ (mid : List C) (i k : Nat) (s : SamplerState C K S), (∀ q ∈ mid, ∀ t, o.raises t q = none) → l.drop i = mid ++ c :: post →
      mid.length < k → randomLoop o (.many l) i k s =
        (⟨s.configs ++ mid, s.ys ++ mid.map o.value, s.cache, s.calls + mid.length + 1, s.extra⟩, some e) := by
    intro mid
    induction mid with
    | nil =>
      intro i k s _ hd hk
      obtain ⟨k, rfl⟩ : ∃ m, k = m + 1 := ⟨k - 1, by simp at hk; omega⟩
      have hi : i < l.length := by
        by_contra h
        rw [List.drop_eq_nil_of_le (by omega)] at hd
        simp at hd
      have hc' : l[i] = c := by
        rw [List.drop_eq_getElem_cons hi, List.nil_append] at hd
        exact (List.cons.inj hd).1
      have hg : Draws.get (.many l) i = .ok c := by simp [Draws.get, pyGet, hi, hc']
      unfold randomLoop
      rw [hg]
      dsimp only
      have : o.eval s.calls c = .error e := by rw [Objective.eval, hc]
      rw [this]
      simp [SamplerState.tick]
    | cons a mid ih =>
      intro i k s hm hd hk
      obtain ⟨k, rfl⟩ : ∃ m, k = m + 1 := ⟨k - 1, by simp at hk; omega⟩
      have hi : i < l.length := by
        by_contra h
        rw [List.drop_eq_nil_of_le (by omega)] at hd
        simp at hd
      rw [List.drop_eq_getElem_cons hi, List.cons_append] at hd
      obtain ⟨ha, hd⟩ := List.cons.inj hd
      have hg : Draws.get (.many l) i = .ok a := by simp [Draws.get, pyGet, hi, ha]
      unfold randomLoop
      rw [hg]
      dsimp only
      have : o.eval s.calls a = .ok (o.value a) := by rw [Objective.eval, hm a (by simp)]
      rw [this]
      dsimp only
      rw [ih (i + 1) k _ (fun q hq => hm q (by simp [hq])) hd (by simpa using hk)]
      simp only [SamplerState.tick, SamplerState.record, List.append_assoc, List.cons_append, List.nil_append, List.map_cons, List.length_cons]
      congr 2
      omega
  have := key pre 0 l.length s hpre (by rw [List.drop_zero, hl]) (by rw [hl]; simp)
  exact this

/-- **C148** The first drawn configuration that is illegal for the function (a hyperparameter that it does not know, one that is missing, or a value
out of its bounds) ends `RandomSampler.sample` with a ValueError: the configurations before it have been recorded with their values, this one and
the later ones have not. -/
theorem C148_first_illegal (inv : Hp ℝ → Val ℝ → ℝ) (f : BlackboxFn ℝ) {S : Type} (d : Drawer (Config ℝ) S) {s : SamplerState (Config ℝ) ℝ S}
    (hcache : s.cache = []) {n : Nat} (hn : 2 ≤ n) {pre post : List (Config ℝ)} {c : Config ℝ} (hdraw : (d.draw s.extra n).1 = pre ++ c :: post)
    {vs : List ℝ} (hpre : List.Forall₂ (fun q v => f.call inv q.values = .ok v) pre vs) (hc : ¬ LegalKwargs f.cs c.values) :
    (randomSampler (callObjective inv f) d s n).2 = some .value ∧ (randomSampler (callObjective inv f) d s n).1.configs = s.configs ++ pre ∧
      (randomSampler (callObjective inv f) d s n).1.ys = s.ys ++ vs := by
  have e : randomSampler (callObjective inv f) d s n = randomSample (callObjective inv f) d s n := by
    rw [randomSampler, sampleWith_nocache _ s hcache, if_pos (by omega)]
  have hd : d.sampleConfiguration s.extra n = (.many (d.draw s.extra n).1, (d.draw s.extra n).2) := by
    unfold Drawer.sampleConfiguration
    have h1 : ¬ (n : Int) < 1 := by omega
    have h2 : ¬ (n : Int) = 1 := by omega
    simp only [if_neg h1, if_neg h2, Int.toNat_natCast]
  have hvs : pre.map (callObjective inv f).value = vs ∧ ∀ q ∈ pre, ∀ t, (callObjective inv f).raises t q = none := by
    clear hdraw
    induction hpre with
    | nil => simp
    | cons h _ ih =>
      refine ⟨by rw [List.map_cons, ih.1]; simp [callObjective, h], fun q hq t => ?_⟩
      rcases List.mem_cons.1 hq with rfl | hq
      · simp [callObjective, h]
      · exact ih.2 q hq t
  have hlen : ((n : Int)).toNat = (d.draw s.extra n).1.length := by rw [d.draw_length]; simp
  rw [e, randomSample, hd]
  dsimp only
  rw [hlen, randomLoop_stops (e := .value) _ hdraw hvs.2 fun t => by simp [callObjective, C11_illegal inv f hc]]
  exact ⟨rfl, rfl, by rw [hvs.1]⟩

theorem first_false {α : Type} (p : α → Prop) (l : List α) :
    (∀ a ∈ l, p a) ∨ ∃ pre c post, l = pre ++ c :: post ∧ (∀ q ∈ pre, p q) ∧ ¬ p c := by
  induction l with
  | nil => left; simp
  | cons a l ih =>
    by_cases ha : p a
    · rcases ih with h | ⟨pre, c, post, h1, h2, h3⟩
      · left
        intro b hb
        rcases List.mem_cons.1 hb with rfl | hb
        exacts [ha, h b hb]
      · refine .inr ⟨a :: pre, c, post, by rw [h1]; rfl, fun q hq => ?_, h3⟩
        rcases List.mem_cons.1 hq with rfl | hq
        exacts [ha, h2 q hq]
    · exact .inr ⟨[], a, l, rfl, by simp, ha⟩

theorem randomLoop_all {C K S : Type} (o : Objective C K) (l : List C) (hno : ∀ c ∈ l, ∀ t, o.raises t c = none) (s : SamplerState C K S) :
    (randomLoop o (.many l) 0 l.length s).2 = none := by
  have key : ∀ (k i : Nat) (s : SamplerState C K S), i + k = l.length → (randomLoop o (.many l) i k s).2 = none := by
    intro k
    induction k with
    | zero => intro i s _; rfl
    | succ k ih =>
      intro i s h
      have hi : i < l.length := by omega
      unfold randomLoop
      have : Draws.get (.many l) i = .ok l[i] := by simp [Draws.get, pyGet, hi]
      rw [this]
      dsimp only
      have hv : o.eval s.calls l[i] = .ok (o.value l[i]) := by rw [Objective.eval, hno _ (List.getElem_mem hi)]
      rw [hv]
      exact ih (i + 1) _ (by omega)
  exact key l.length 0 s (by omega)

/-- **C148** `RandomSampler.sample(n)` succeeds exactly if every drawn configuration is one on which the function returns. -/
theorem C148_succeeds_iff (inv : Hp ℝ → Val ℝ → ℝ) (f : BlackboxFn ℝ) {S : Type} (d : Drawer (Config ℝ) S) {s : SamplerState (Config ℝ) ℝ S}
    (hcache : s.cache = []) {n : Nat} (hn : 2 ≤ n) :
    (randomSampler (callObjective inv f) d s n).2 = none ↔ ∀ c ∈ (d.draw s.extra n).1, ∃ v, f.call inv c.values = .ok v := by
  have e : randomSampler (callObjective inv f) d s n = randomSample (callObjective inv f) d s n := by
    rw [randomSampler, sampleWith_nocache _ s hcache, if_pos (by omega)]
  have hd : d.sampleConfiguration s.extra n = (.many (d.draw s.extra n).1, (d.draw s.extra n).2) := by
    unfold Drawer.sampleConfiguration
    have h1 : ¬ (n : Int) < 1 := by omega
    have h2 : ¬ (n : Int) = 1 := by omega
    simp only [if_neg h1, if_neg h2, Int.toNat_natCast]
  have hlen : ((n : Int)).toNat = (d.draw s.extra n).1.length := by rw [d.draw_length]; simp
  rw [e, randomSample, hd]
  dsimp only
  rw [hlen]
  have hno : ∀ c, (∃ v, f.call inv c.values = .ok v) → ∀ t, (callObjective inv f).raises t c = none := by
    rintro c ⟨v, hv⟩ t
    simp [callObjective, hv]
  rcases first_false (fun c => ∃ v, f.call inv c.values = .ok v) (d.draw s.extra n).1 with h | ⟨pre, c, post, h1, h2, h3⟩
  · rw [randomLoop_all _ _ fun c hc => hno c (h c hc)]
    exact ⟨fun _ => h, fun _ => rfl⟩
  · obtain ⟨er, her⟩ : ∃ er, f.call inv c.values = .error er := by
      cases hcall : f.call inv c.values with
      | ok v => exact absurd ⟨v, hcall⟩ h3
      | error er => exact ⟨er, rfl⟩
    rw [randomLoop_stops (e := er) _ h1 (fun q hq => hno q (h2 q hq)) fun t => by simp [callObjective, her]]
    refine ⟨fun h => (by cases h), fun h => absurd (h c (by rw [h1]; simp)) h3⟩

section concrete

private def exF : BlackboxFn ℝ := ⟨[⟨"x", .float (-5) 5 false⟩], fun _ => .ok 4⟩

/-- draws x = 2, x = 7, x = 2, ... -/
private def exDrawer : Drawer (Config ℝ) Unit :=
  ⟨fun _ n => ((List.range n).map fun i => ⟨[], [("x", .num (if i = 1 then 7 else 2))]⟩, ()), by simp⟩

/-- a function on [-5, 5] and a sampler that draws 2 and then 7: the first is recorded, the second raises -/
example (inv : Hp ℝ → Val ℝ → ℝ) :
    (randomSampler (callObjective inv exF) exDrawer ⟨[], [], [], 0, ()⟩ (3 : Nat)).2 = some .value ∧
    (randomSampler (callObjective inv exF) exDrawer ⟨[], [], [], 0, ()⟩ (3 : Nat)).1.ys = [4] := by
  have h : exF.call inv [("x", .num 2)] = .ok 4 := by
    obtain ⟨c, hc, -⟩ := C11_legal inv exF (kwargs := [("x", .num 2)]) (by simp) ⟨by simp [exF], by simp [exF, Hp.legal]; norm_num⟩
    rw [hc]; rfl
  have := C148_first_illegal inv exF exDrawer (s := ⟨[], [], [], 0, ()⟩) rfl (n := 3) (by omega) (pre := [⟨[], [("x", .num 2)]⟩])
    (c := ⟨[], [("x", .num 7)]⟩) (post := [⟨[], [("x", .num 2)]⟩]) (by simp [exDrawer, List.range_succ]) (vs := [4]) (.cons h .nil)
    (by rintro ⟨-, h⟩; obtain ⟨v, hv, hl⟩ := h _ (by simp [exF]; rfl); simp at hv; subst hv; norm_num [Hp.legal] at hl)
  exact ⟨this.1, by simpa using this.2.2⟩

end concrete

end PyPDP
