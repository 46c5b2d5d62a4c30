/-
C19: how often a call of `sample` evaluates the objective function.
-/
import Verif.Props.Bayes

namespace PyPDP
open Spec
variable {C K X S G M : Type}

theorem randomLoop_calls (o : Objective C K) (samples : Draws C) : ∀ (k i : Nat) (s s' : SamplerState C K S),
    randomLoop o samples i k s = (s', none) → s'.calls + s.configs.length = s.calls + s'.configs.length
  | 0, _, s, s', h => by simp only [randomLoop, Prod.mk.injEq, and_true] at h; rw [h]
  | k + 1, i, s, s', h => by
    simp only [randomLoop] at h
    split at h
    · cases h
    · split at h
      · cases h
      · have := randomLoop_calls o samples k (i + 1) _ s' h
        simp only [SamplerState.tick, SamplerState.record, List.length_append, List.length_cons, List.length_nil] at this
        omega

theorem gridLoop_calls [DecidableEq C] (o : Objective C K) (target : Nat) : ∀ (g : List C) (s s' : SamplerState C K (GridExtra C G)),
    gridLoop o target g s = (s', none) → s'.calls + s.configs.length = s.calls + s'.configs.length
  | [], s, s', h => by
    simp only [gridLoop] at h
    split at h
    · cases h
    · simp only [Prod.mk.injEq, and_true] at h; rw [h]
  | c :: rest, s, s', h => by
    simp only [gridLoop] at h
    split at h
    · split at h
      · have := gridLoop_calls o target rest _ s' h
        simpa using this
      · split at h
        · cases h
        · have := gridLoop_calls o target rest _ s' h
          simp only [SamplerState.tick, SamplerState.record, List.length_append, List.length_cons, List.length_nil] at this
          omega
    · simp only [Prod.mk.injEq, and_true] at h; rw [h]

theorem evalAll_calls (o : Objective C K) : ∀ (cs : List C) (t t' : Nat) (vs : List K), evalAll o t cs = (t', .ok vs) → t' = t + cs.length
  | [], t, t', vs, h => by simp only [evalAll, Prod.mk.injEq] at h; simp [h.1]
  | c :: cs, t, t', vs, h => by
    simp only [evalAll] at h
    split at h
    · cases h
    · split at h
      · cases h
      · next t1 vs1 h1 =>
        have := evalAll_calls o cs _ _ _ h1
        simp only [Prod.mk.injEq] at h
        rw [← h.1, this, List.length_cons]; omega

theorem fitSurrogate_calls (env : BOEnv C K M S) {force : Bool} {s s' : BOState C K M S} {e : Option PyErr} (h : fitSurrogate env force s = (s', e)) :
    s'.calls = s.calls ∧ s'.configs = s.configs := by
  have := fitSurrogate_fst env force s
  rw [h] at this
  exact ⟨this.2.2.2, this.1⟩

theorem boInitial_calls (o : Objective C K) (env : BOEnv C K M S) {s s' : BOState C K M S} {n : Int} (h : boInitial o env s n = (s', none)) :
    s'.calls + s.configs.length = s.calls + s'.configs.length := by
  simp only [boInitial] at h
  split at h
  · cases h
  · next t vs h1 =>
    have h2 := evalAll_calls o _ _ _ _ h1
    obtain ⟨h3, h4⟩ := fitSurrogate_calls env h
    rw [h3, h4]
    simp only [List.length_append] at h2 ⊢
    omega

theorem boStep_calls [LinearOrder K] (o : Objective C K) (env : BOEnv C K M S) {s s' : BOState C K M S} (h : boStep o env s = (s', none)) :
    s'.calls + s.configs.length = s.calls + s'.configs.length := by
  simp only [boStep] at h
  split at h
  · cases h
  · split at h
    · cases h
    · cases h
    · split at h
      · cases h
      · obtain ⟨h3, h4⟩ := fitSurrogate_calls env h
        rw [h3, h4]
        simp only [SamplerState.tick, SamplerState.record, List.length_append, List.length_cons, List.length_nil]
        omega

theorem boLoop_calls [LinearOrder K] (o : Objective C K) (env : BOEnv C K M S) : ∀ (k : Nat) (s s' : BOState C K M S), boLoop o env k s = (s', none) →
    s'.calls + s.configs.length = s.calls + s'.configs.length
  | 0, s, s', h => by simp only [boLoop, Prod.mk.injEq, and_true] at h; rw [h]
  | k + 1, s, s', h => by
    simp only [boLoop] at h
    split at h
    · cases h
    · next s1 h1 =>
      have a := boStep_calls o env h1
      have b := boLoop_calls o env k s1 s' h
      omega

theorem boAcquire_calls [LinearOrder K] (o : Objective C K) (env : BOEnv C K M S) {k : Nat} {s s' : BOState C K M S} (h : boAcquire o env s k = (s', none)) :
    s'.calls + s.configs.length = s.calls + s'.configs.length := by
  simp only [boAcquire] at h
  split at h
  · cases h
  · next s1 h1 =>
    obtain ⟨h3, h4⟩ := fitSurrogate_calls env h1
    have := boLoop_calls o env k s1 s' h
    rw [h3, h4] at this
    exact this

theorem boInner_calls [LinearOrder K] (o : Objective C K) (env : BOEnv C K M S) {n : Int} {s s' : BOState C K M S} (h : boInner o env s n = (s', none)) :
    s'.calls + s.configs.length = s.calls + s'.configs.length := by
  simp only [boInner] at h
  split at h
  · split at h
    · cases h
    · next s1 h1 =>
      have a := boInitial_calls o env h1
      have b := boAcquire_calls o env h
      omega
  · exact boAcquire_calls o env h

/-- a call of `sample` that the cache can serve does not reach the subclass; any other call starts it without cache -/
theorem sampleWith_calls (inner : SamplerState C K X → Int → SamplerState C K X × Option PyErr)
    (hi : ∀ n s s', inner s n = (s', none) → s'.calls + s.configs.length = s.calls + s'.configs.length) {s s' : SamplerState C K X} {n : Int}
    (h : sampleWith inner s n = (s', none)) :
    ((s.configs.length : Int) + n ≤ s.cache.length → s'.calls = s.calls) ∧
    ((s.cache.length : Int) < s.configs.length + n → s'.calls + s.configs.length = s.calls + s'.configs.length) := by
  unfold sampleWith at h
  constructor
  · intro hle
    rw [if_neg (by omega)] at h
    simp only [useCache_eq] at h
    rw [if_neg (by omega)] at h
    simp only [Prod.mk.injEq, and_true] at h
    rw [← h]
  · intro hlt
    rw [if_pos (by omega)] at h
    simp only [useCache_eq] at h
    split at h
    · have := hi _ _ _ h
      simpa [SamplerState.clearCache] using this
    · simp only [Prod.mk.injEq, and_true] at h
      rw [← h]; simp [SamplerState.clearCache]

/-- **C19** a call that returns normally evaluates the objective function exactly once for every point it appends, or not at all if the points are taken from the cache
(which is the case exactly if the cache has as many entries as points are recorded afterwards). -/
theorem C19_evaluations [DecidableEq C] [LinearOrder K] {o : Objective C K}
    {sample : SamplerState C K X → Int → SamplerState C K X × Option PyErr} (hs : IsSampler o X sample)
    {s s' : SamplerState C K X} {n : Int} (h : sample s n = (s', none)) :
    s'.calls = s.calls + if (s.configs.length : Int) + n ≤ s.cache.length then 0 else n.toNat := by
  have hlen : s'.configs.length = s.configs.length + n.toNat := by
    obtain ⟨new, h1, h2, -⟩ := C19_sample_appends hs h
    rw [h2, List.length_append, List.length_map, h1]
  have key : ((s.configs.length : Int) + n ≤ s.cache.length → s'.calls = s.calls) ∧
      ((s.cache.length : Int) < s.configs.length + n → s'.calls + s.configs.length = s.calls + s'.configs.length) := by
    cases hs with
    | random d =>
      refine sampleWith_calls _ (fun n s s' h => ?_) h
      have := randomLoop_calls o (d.sampleConfiguration s.extra n).1 _ _ _ _ h
      simpa using this
    | grid env =>
      refine sampleWith_calls _ (fun n s s' h => ?_) h
      unfold gridSample at h
      dsimp only at h
      rcases gridPrepare_spec env s ((s.configs.length : Int) + n).toNat with ⟨g, s1, hp, h1, h2, h3, h4, _⟩ | ⟨hp, _⟩
      · rw [hp] at h
        have := gridLoop_calls o _ g s1 s' h
        rw [h1, h4] at this
        exact this
      · rw [hp] at h
        cases h
    | bo env =>
      unfold boSample at h
      split at h
      · cases h
      · next s1 h1 =>
        obtain ⟨h3, h4⟩ := fitSurrogate_calls env h
        rw [h3, h4]
        exact sampleWith_calls _ (fun n s s' h => boInner_calls o env h) h1
  split
  · next hle => rw [key.1 hle]; rfl
  · next hle =>
    have := key.2 (by omega)
    omega

/-- three points, one of them recorded before; with an empty cache and with a cache of four entries -/
example :
    let s : SamplerState Nat Int Nat := ⟨[7], [7], [], 1, 0⟩
    (randomSampler plainObjective countingDrawer s 3).1.calls = 4 ∧
    (randomSampler plainObjective countingDrawer { s with cache := [(1, 1), (2, 2), (3, 3), (4, 4)] } 3).1.calls = 1 := by
  decide +kernel

/-! ### calls left by an exception -/

/-- What the objective calls made between `s` and the outcome `r` have left behind: all have been recorded, or the last of them raised what `r` raises. -/
def Accounted (o : Objective C K) (s : SamplerState C K X) (r : SamplerState C K X × Option PyErr) : Prop :=
  r.1.calls + s.ys.length = s.calls + r.1.ys.length ∨
    s.calls < r.1.calls ∧ ∃ c e, r.2 = some e ∧ o.raises (r.1.calls - 1) c = some e

theorem Accounted.refl (o : Objective C K) (s : SamplerState C K X) (e : Option PyErr) : Accounted o s (s, e) := .inl (by simp)

theorem Accounted.trans {o : Objective C K} {s s1 : SamplerState C K X} {r : SamplerState C K X × Option PyErr} (h1 : Accounted o s (s1, none))
    (hle : s.calls ≤ s1.calls) (h2 : Accounted o s1 r) : Accounted o s r := by
  rcases h1 with h1 | ⟨_, c, e, h, _⟩
  · rcases h2 with h2 | ⟨h2, h3⟩
    · exact .inl (by dsimp only at h1; omega)
    · exact .inr ⟨by dsimp only at h1; omega, h3⟩
  · cases h

/-- `Accounted`, with at most `k` calls -/
def AccountedUpTo (o : Objective C K) (k : Nat) (s : SamplerState C K X) (r : SamplerState C K X × Option PyErr) : Prop :=
  Accounted o s r ∧ s.calls ≤ r.1.calls ∧ r.1.calls ≤ s.calls + k

theorem AccountedUpTo.trans {o : Objective C K} {k l : Nat} {s s1 : SamplerState C K X} {r : SamplerState C K X × Option PyErr}
    (h1 : AccountedUpTo o k s (s1, none)) (h2 : AccountedUpTo o l s1 r) : AccountedUpTo o (k + l) s r := by
  obtain ⟨a, b, c⟩ := h1
  obtain ⟨a', b', c'⟩ := h2
  dsimp only at b c
  exact ⟨a.trans b a', by omega, by omega⟩

theorem AccountedUpTo.refl (o : Objective C K) (k : Nat) (s : SamplerState C K X) (e : Option PyErr) : AccountedUpTo o k s (s, e) :=
  ⟨.refl o s e, le_refl _, Nat.le_add_right _ _⟩

theorem AccountedUpTo.mono {o : Objective C K} {k l : Nat} {s : SamplerState C K X} {r : SamplerState C K X × Option PyErr}
    (h : AccountedUpTo o k s r) (hk : k ≤ l) : AccountedUpTo o l s r := ⟨h.1, h.2.1, h.2.2.trans (by omega)⟩

theorem eval_error {o : Objective C K} {t : Nat} {c : C} {e : PyErr} (h : o.eval t c = .error e) : o.raises t c = some e := by
  unfold Objective.eval at h
  split at h
  · next e' h' => cases h; exact h'
  · cases h

theorem randomLoop_accounted (o : Objective C K) (samples : Draws C) : ∀ (k i : Nat) (s : SamplerState C K S),
    AccountedUpTo o k s (randomLoop o samples i k s)
  | 0, _, s => by simp only [randomLoop]; exact .refl _ _ _ _
  | k + 1, i, s => by
    simp only [randomLoop]
    split
    · exact .refl _ _ _ _
    · next c _ =>
      split
      · next e h =>
        exact ⟨.inr ⟨Nat.lt_succ_self _, c, e, rfl, by simpa [SamplerState.tick] using eval_error h⟩, Nat.le_succ _, by simp [SamplerState.tick]⟩
      · have := randomLoop_accounted o samples k (i + 1) (s.tick.record c (by assumption))
        refine (AccountedUpTo.trans (k := 1) ?_ this).mono (by omega)
        exact ⟨.inl (by simp [SamplerState.tick, SamplerState.record]; omega), by simp [SamplerState.tick, SamplerState.record],
          by simp [SamplerState.tick, SamplerState.record]⟩

theorem gridLoop_accounted [DecidableEq C] (o : Objective C K) (target : Nat) : ∀ (g : List C) (s : SamplerState C K (GridExtra C G)),
    AccountedUpTo o (target - s.configs.length) s (gridLoop o target g s)
  | [], s => by
    simp only [gridLoop]
    split <;> exact .refl _ _ _ _
  | c :: rest, s => by
    simp only [gridLoop]
    split
    · next hlt =>
      split
      · have := gridLoop_accounted o target rest { s with extra := { s.extra with grid := some rest } }
        exact this
      · split
        · next e h =>
          exact ⟨.inr ⟨Nat.lt_succ_self _, c, e, rfl, by simpa [SamplerState.tick] using eval_error h⟩, Nat.le_succ _,
            by simp [SamplerState.tick]; omega⟩
        · next v h =>
          have := gridLoop_accounted o target rest (({ s with extra := { s.extra with grid := some rest } } : SamplerState C K (GridExtra C G)).record c v).tick
          refine (AccountedUpTo.trans (k := 1) ?_ this).mono (by simp [SamplerState.tick, SamplerState.record]; omega)
          exact ⟨.inl (by simp [SamplerState.tick, SamplerState.record]; omega), by simp [SamplerState.tick, SamplerState.record],
            by simp [SamplerState.tick, SamplerState.record]⟩
    · exact .refl _ _ _ _

theorem evalAll_error (o : Objective C K) : ∀ (cs : List C) (t t' : Nat) (e : PyErr), evalAll o t cs = (t', .error e) →
    t < t' ∧ t' ≤ t + cs.length ∧ ∃ c, o.raises (t' - 1) c = some e
  | [], t, t', e, h => by simp [evalAll] at h
  | c :: cs, t, t', e, h => by
    simp only [evalAll] at h
    split at h
    · next e' h' =>
      simp only [Prod.mk.injEq, Except.error.injEq] at h
      obtain ⟨rfl, rfl⟩ := h
      exact ⟨by omega, by simp, c, by simpa using eval_error h'⟩
    · split at h
      · next t1 e1 h1 =>
        simp only [Prod.mk.injEq, Except.error.injEq] at h
        obtain ⟨rfl, rfl⟩ := h
        obtain ⟨a, b, c⟩ := evalAll_error o cs _ _ _ h1
        exact ⟨by omega, by simp; omega, c⟩
      · cases h

theorem fitSurrogate_accounted {o : Objective C K} (env : BOEnv C K M S) (force : Bool) {s s0 : BOState C K M S} {k : Nat}
    (h : AccountedUpTo o k s0 (s, none)) : AccountedUpTo o k s0 (fitSurrogate env force s) := by
  obtain ⟨_, h2, _, h4⟩ := fitSurrogate_fst env force s
  obtain ⟨h | ⟨_, _, _, h, _⟩, b, c⟩ := h
  · dsimp only at h b c
    exact ⟨.inl (by rw [h2, h4, h]), by rw [h4]; exact b, by rw [h4]; exact c⟩
  · cases h

theorem boInitial_accounted (o : Objective C K) (env : BOEnv C K M S) (s : BOState C K M S) (n : Int) :
    AccountedUpTo o n.toNat s (boInitial o env s n) := by
  have hl : (env.drawer.sampleConfiguration s.extra.rng (min env.initialPoints n)).1.toList.length ≤ n.toNat := by
    rcases sampleConfiguration_toList env.drawer s.extra.rng (min env.initialPoints n) with h | ⟨_, h⟩
    · rw [h, env.drawer.draw_length]; omega
    · rw [h]; simp
  simp only [boInitial]
  split
  · next t e h =>
    obtain ⟨h1, h2, c, h3⟩ := evalAll_error o _ _ _ _ h
    exact ⟨.inr ⟨h1, c, e, rfl, h3⟩, le_of_lt h1, by dsimp only at h2 ⊢; omega⟩
  · next t vs h =>
    have h2 := evalAll_calls o _ _ _ _ h
    have h3 := congrArg List.length (evalAll_ok (o := o) (by rw [h]))
    rw [List.length_map] at h3
    refine fitSurrogate_accounted env true ⟨.inl ?_, ?_, ?_⟩
    · simp only [List.length_append]; omega
    · dsimp only at h2 ⊢; omega
    · dsimp only at h2 ⊢; omega

theorem boStep_accounted [LinearOrder K] (o : Objective C K) (env : BOEnv C K M S) (s : BOState C K M S) :
    AccountedUpTo o 1 s (boStep o env s) := by
  simp only [boStep]
  split
  · exact .refl _ _ _ _
  · split
    · exact .refl _ _ s _
    · exact .refl _ _ s _
    · next c _ =>
      split
      · next e h =>
        exact ⟨.inr ⟨Nat.lt_succ_self _, c, e, rfl, by simpa [SamplerState.tick] using eval_error h⟩, Nat.le_succ _, by simp [SamplerState.tick]⟩
      · refine fitSurrogate_accounted env false ⟨.inl ?_, ?_, ?_⟩
        · simp [SamplerState.tick, SamplerState.record]; omega
        · simp [SamplerState.tick, SamplerState.record]
        · simp [SamplerState.tick, SamplerState.record]

theorem boLoop_accounted [LinearOrder K] (o : Objective C K) (env : BOEnv C K M S) : ∀ (k : Nat) (s : BOState C K M S),
    AccountedUpTo o k s (boLoop o env k s)
  | 0, s => by simp only [boLoop]; exact .refl _ _ _ _
  | k + 1, s => by
    simp only [boLoop]
    have h := boStep_accounted o env s
    split
    · next s1 e h1 => rw [h1] at h; exact h.mono (by omega)
    · next s1 h1 =>
      rw [h1] at h
      exact (h.trans (boLoop_accounted o env k s1)).mono (by omega)

theorem boAcquire_accounted [LinearOrder K] (o : Objective C K) (env : BOEnv C K M S) (k : Nat) (s : BOState C K M S) :
    AccountedUpTo o k s (boAcquire o env s k) := by
  have h := fitSurrogate_accounted env false (AccountedUpTo.refl o 0 s none)
  simp only [boAcquire]
  split
  · next s1 e h1 => rw [h1] at h; exact h.mono (by omega)
  · next s1 h1 =>
    rw [h1] at h
    exact (h.trans (boLoop_accounted o env k s1)).mono (by omega)

theorem boInner_accounted [LinearOrder K] (o : Objective C K) (env : BOEnv C K M S) (n : Int) (s : BOState C K M S) :
    AccountedUpTo o n.toNat s (boInner o env s n) := by
  simp only [boInner]
  split
  · have h := boInitial_accounted o env s n
    split
    · next s1 e h1 => rw [h1] at h; exact h
    · next s1 h1 =>
      rw [h1] at h
      have hc := boInitial_calls o env h1
      have h3 := boAcquire_accounted o env (n - ((s1.configs.length : Int) - s.configs.length)).toNat s1
      obtain ⟨a, b, c⟩ := h
      obtain ⟨a', b', c'⟩ := h3
      dsimp only at b c
      exact ⟨a.trans b a', by omega, by omega⟩
  · exact boAcquire_accounted o env _ s

theorem sampleWith_accounted {o : Objective C K} {inner : SamplerState C K X → Int → SamplerState C K X × Option PyErr}
    (hi : ∀ n s, AccountedUpTo o n.toNat s (inner s n)) (s : SamplerState C K X) (n : Int) :
    AccountedUpTo o n.toNat s (sampleWith inner s n) ∨ (sampleWith inner s n).1.calls = s.calls := by
  unfold sampleWith
  by_cases hlt : (s.cache.length : Int) < s.configs.length + n
  · left
    rw [if_pos (by omega)]
    simp only [useCache_eq]
    split
    · have := hi n { s with cache := [] }
      simp only [SamplerState.clearCache, List.length_nil, Nat.min_zero, Int.natCast_zero, sub_zero, List.take_nil, List.map_nil, List.append_nil, List.drop_nil]
      exact this
    · have := AccountedUpTo.refl o n.toNat { s with cache := [] } none
      simp only [SamplerState.clearCache, List.take_nil, List.map_nil, List.append_nil, List.drop_nil]
      exact this
  · right
    rw [if_neg (by omega)]
    simp only [useCache_eq]
    rw [if_neg (by omega)]

/-- **C19** a call of `sample` left by an exception has evaluated the objective function at most `n` times, and in one of three ways: no evaluation was made; all
evaluations made returned and their values have been recorded; or the last evaluation is the one that raised this exception. -/
theorem C19_exception [DecidableEq C] [LinearOrder K] {o : Objective C K}
    {sample : SamplerState C K X → Int → SamplerState C K X × Option PyErr} (hs : IsSampler o X sample)
    {s s' : SamplerState C K X} {n : Int} {e : PyErr} (h : sample s n = (s', some e)) :
    s.calls ≤ s'.calls ∧ s'.calls ≤ s.calls + n.toNat ∧
    (s'.calls = s.calls ∨ s'.calls + s.ys.length = s.calls + s'.ys.length ∨
      s.calls < s'.calls ∧ ∃ c, o.raises (s'.calls - 1) c = some e) := by
  have key : AccountedUpTo o n.toNat s (s', some e) ∨ s'.calls = s.calls := by
    cases hs with
    | random d =>
      have := sampleWith_accounted (o := o) (inner := randomSample o d) (fun n s => by
        have := randomLoop_accounted o (d.sampleConfiguration s.extra n).1 n.toNat 0 { s with extra := (d.sampleConfiguration s.extra n).2 }
        exact this) s n
      rw [show sampleWith (randomSample o d) s n = (s', some e) from h] at this
      exact this
    | grid env =>
      have := sampleWith_accounted (o := o) (inner := gridSample o env) (fun n s => by
        unfold gridSample
        dsimp only
        rcases gridPrepare_spec env s ((s.configs.length : Int) + n).toNat with ⟨g, s1, hp, h1, h2, h3, h4, _⟩ | ⟨hp, _⟩
        · rw [hp]
          have := gridLoop_accounted o ((s.configs.length : Int) + n).toNat g s1
          unfold AccountedUpTo Accounted at this ⊢
          rw [h1, h2, h4] at this
          refine ⟨this.1, this.2.1, this.2.2.trans ?_⟩
          omega
        · rw [hp]
          exact .refl _ _ _ _) s n
      rw [show sampleWith (gridSample o env) s n = (s', some e) from h] at this
      exact this
    | bo env =>
      have h0 := sampleWith_accounted (o := o) (inner := boInner o env) (fun n s => boInner_accounted o env n s) s n
      unfold boSample at h
      split at h
      · next s1 e1 h1 => rw [h1] at h0; cases h; exact h0
      · next s1 h1 =>
        rw [h1] at h0
        have h2 := fitSurrogate_fst env false s1
        rcases h0 with h0 | h0
        · left; rw [← h]; exact fitSurrogate_accounted env false h0
        · right
          rw [h] at h2
          rw [h2.2.2.2]; exact h0
  rcases key with ⟨a | ⟨a, c, e', a', a''⟩, b, d⟩ | h
  · exact ⟨b, d, .inr (.inl a)⟩
  · cases a'
    exact ⟨b, d, .inr (.inr ⟨a, c, a''⟩)⟩
  · exact ⟨h.ge, by omega, .inl h⟩

/-- the objective function raises when it is first called; a Bayesian optimisation then has made one call and recorded nothing -/
example : let r := boSample failingOnce sampleEnv (freshBO (0, 0) 0) 4
    r.2 = some .user ∧ r.1.calls = 1 ∧ r.1.ys = [] := by decide +kernel

end PyPDP
