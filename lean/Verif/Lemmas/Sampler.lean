/-
Facts about the sampler state machines.
-/
import Verif.Model.Bayes
import Verif.Spec.Sampler
import Verif.Lemmas.Py
import Mathlib.Tactic.Linarith

namespace PyPDP
open Spec
variable {C K X S G M : Type}

theorem useCache_eq (n : Nat) (s : SamplerState C K X) :
    useCache n s = ({ s with configs := s.configs ++ (s.cache.take n).map Prod.fst,
                             ys := s.ys ++ (s.cache.take n).map Prod.snd,
                             cache := s.cache.drop n }, min n s.cache.length) := by
  induction n generalizing s with
  | zero => simp [useCache]
  | succ n ih =>
    unfold useCache
    split
    · next h => cases s; simp_all
    · next c v rest h =>
      rw [ih]
      cases s
      simp_all [SamplerState.record, Nat.succ_min_succ]

/-- what the base class guarantees about a call, in terms of what the subclass guarantees (`P` for the part done by
`_sample`, from the state after the cache has been used). -/
theorem sampleWith_cases (inner : SamplerState C K X → Int → SamplerState C K X × Option PyErr) (s : SamplerState C K X)
    (n : Int) :
    ∃ s1 : SamplerState C K X, ∃ new : List (C × K), Extends s s1 new ∧ s1.calls = s.calls ∧ s1.extra = s.extra ∧
      (∀ p ∈ new, p ∈ s.cache) ∧ (∀ p ∈ s1.cache, p ∈ s.cache) ∧
      ((sampleWith inner s n = (s1, none) ∧ new.length = n.toNat) ∨
       ((new.length : Int) < n ∧ s1.cache = [] ∧ sampleWith inner s n = inner s1 (n - new.length))) := by
  by_cases h : (s.configs.length : Int) + n > s.cache.length
  · have e : sampleWith inner s n = if ((0 : Nat) : Int) < n then inner s.clearCache (n - (0 : Nat)) else (s.clearCache, none) := by
      unfold sampleWith
      simp only [if_pos h, useCache_eq]
      simp [SamplerState.clearCache]
    refine ⟨s.clearCache, [], ⟨by simp [SamplerState.clearCache], by simp [SamplerState.clearCache]⟩, rfl, rfl, by simp,
      by simp [SamplerState.clearCache], ?_⟩
    rw [e]
    by_cases h' : ((0 : Nat) : Int) < n
    · right; exact ⟨by simpa using h', rfl, by rw [if_pos h']; simp⟩
    · left; exact ⟨by rw [if_neg h'], by simp at h' ⊢; omega⟩
  · have h1 : n.toNat ≤ s.cache.length := by omega
    have h2 : ¬ ((min n.toNat s.cache.length : Nat) : Int) < n := by rw [Nat.min_eq_left h1]; omega
    refine ⟨(useCache n.toNat s).1, s.cache.take n.toNat, ?_, ?_, ?_, fun p hp => List.mem_of_mem_take hp, ?_, ?_⟩
    · rw [useCache_eq]; exact ⟨rfl, rfl⟩
    · rw [useCache_eq]
    · rw [useCache_eq]
    · rw [useCache_eq]; exact fun p hp => List.mem_of_mem_drop hp
    · left
      refine ⟨?_, by simp [h1]⟩
      unfold sampleWith
      simp only [if_neg h, useCache_eq, if_neg h2]

theorem Objective.eval_ok {o : Objective C K} {t : Nat} {c : C} {v : K} (h : o.eval t c = .ok v) : v = o.value c := by
  unfold Objective.eval at h
  split at h
  · cases h
  · exact (Except.ok.inj h).symm

/-! ### RandomSampler -/

/-- the loop records `k` evaluated points or stops early with an exception; always only appends evaluated points -/
theorem randomLoop_spec (o : Objective C K) (samples : Draws C) (i k : Nat) (s : SamplerState C K S) :
    ∃ cs : List C, Extends s (randomLoop o samples i k s).1 (cs.map fun c => (c, o.value c)) ∧
      (randomLoop o samples i k s).1.cache = s.cache ∧ (randomLoop o samples i k s).1.extra = s.extra ∧
      cs.length ≤ k ∧ (∀ j c, cs[j]? = some c → samples.get (i + j) = .ok c) ∧
      ((randomLoop o samples i k s).2 = none → cs.length = k) := by
  induction k generalizing i s with
  | zero => exact ⟨[], by simp [randomLoop, Extends], rfl, rfl, by simp, by simp, by simp⟩
  | succ k ih =>
    unfold randomLoop
    split
    · exact ⟨[], by simp [Extends], rfl, rfl, by simp, by simp, by simp⟩
    · next c hc =>
      split
      · exact ⟨[], by simp [Extends, SamplerState.tick], rfl, rfl, by simp, by simp, by simp⟩
      · next v hv =>
        obtain rfl := Objective.eval_ok hv
        obtain ⟨cs, ⟨h1, h2⟩, h3, h4, h5, h6, h7⟩ := ih (i + 1) (s.tick.record c (o.value c))
        refine ⟨c :: cs, ⟨?_, ?_⟩, h3, h4, by simpa using h5, ?_, fun h => by simp [h7 h]⟩
        · rw [h1]; simp [SamplerState.tick, SamplerState.record]
        · rw [h2]; simp [SamplerState.tick, SamplerState.record]
        · intro j c' hj
          cases j with
          | zero => simp at hj; subst hj; simpa using hc
          | succ j => rw [← h6 j c' (by simpa using hj)]; congr 1; omega

theorem randomSample_spec (o : Objective C K) (d : Drawer C S) (s : SamplerState C K S) (n : Int) :
    ∃ cs : List C, Extends s (randomSample o d s n).1 (cs.map fun c => (c, o.value c)) ∧
      (randomSample o d s n).1.cache = s.cache ∧ ((randomSample o d s n).2 = none → cs.length = n.toNat) := by
  unfold randomSample
  obtain ⟨cs, ⟨h1, h2⟩, h3, _, _, _, h7⟩ := randomLoop_spec o (d.sampleConfiguration s.extra n).1 0 n.toNat
    { s with extra := (d.sampleConfiguration s.extra n).2 }
  exact ⟨cs, ⟨h1, h2⟩, h3, h7⟩

/-! ### GridSampler -/

theorem gridLoop_spec [DecidableEq C] (o : Objective C K) (target : Nat) (grid : List C)
    (s : SamplerState C K (GridExtra C G)) :
    ∃ cs : List C, cs.Sublist grid ∧ (∀ c ∈ cs, c ∉ s.configs) ∧ cs.Nodup ∧
      (gridLoop o target grid s).1.cache = s.cache ∧
      (((gridLoop o target grid s).2 = none ∧ Extends s (gridLoop o target grid s).1 (cs.map fun c => (c, o.value c)) ∧
          s.configs.length + cs.length = max target s.configs.length) ∨
       ((gridLoop o target grid s).2 = some .index ∧ Extends s (gridLoop o target grid s).1 (cs.map fun c => (c, o.value c)) ∧
          (∀ c ∈ grid, c ∈ s.configs ∨ c ∈ cs) ∧ s.configs.length + cs.length < target) ∨
       (∃ e c, (gridLoop o target grid s).2 = some e ∧ c ∉ s.configs ∧ c ∉ cs ∧
          (gridLoop o target grid s).1.configs = s.configs ++ cs ++ [c] ∧
          (gridLoop o target grid s).1.ys = s.ys ++ cs.map o.value ∧ s.configs.length + cs.length < target)) := by
  induction grid generalizing s with
  | nil =>
    refine ⟨[], by simp, by simp, by simp, ?_⟩
    unfold gridLoop
    split
    · next h => exact ⟨rfl, .inr (.inl ⟨rfl, by simp [Extends], by simp, by simpa using h⟩)⟩
    · next h => exact ⟨rfl, .inl ⟨rfl, by simp [Extends], by simp; omega⟩⟩
  | cons c rest ih =>
    unfold gridLoop
    by_cases ht : s.configs.length < target
    · rw [if_pos ht]
      dsimp only
      by_cases hc : c ∈ s.configs
      · rw [if_pos hc]
        obtain ⟨cs, h1, h2, h3, h4, h5⟩ := ih { s with extra := { s.extra with grid := some rest } }
        refine ⟨cs, h1.cons _, h2, h3, h4, ?_⟩
        rcases h5 with h5 | ⟨h5, h6, h7, h8⟩ | h5
        · exact .inl h5
        · refine .inr (.inl ⟨h5, h6, ?_, h8⟩)
          intro c' hc'
          rcases List.mem_cons.1 hc' with rfl | hc'
          · exact .inl hc
          · exact h7 c' hc'
        · exact .inr (.inr h5)
      · rw [if_neg hc]
        cases hv : o.eval s.calls c with
        | error e =>
          refine ⟨[], by simp, by simp, by simp, rfl, .inr (.inr ⟨e, c, rfl, hc, by simp, ?_, ?_, by simpa using ht⟩)⟩
          · simp [SamplerState.tick]
          · simp [SamplerState.tick]
        | ok v =>
          obtain rfl := Objective.eval_ok hv
          dsimp only
          obtain ⟨cs, h1, h2, h3, h4, h5⟩ :=
            ih (({ s with extra := { s.extra with grid := some rest } }.record c (o.value c)).tick)
          simp only [SamplerState.tick, SamplerState.record] at h1 h2 h3 h4 h5 ⊢
          have hnc : c ∉ cs := fun h => h2 c h (by simp)
          refine ⟨c :: cs, h1.cons_cons _, ?_, List.nodup_cons.2 ⟨hnc, h3⟩, h4, ?_⟩
          · intro c' hc'
            rcases List.mem_cons.1 hc' with rfl | hc'
            · exact hc
            · intro h; exact h2 c' hc' (List.mem_append_left _ h)
          · rcases h5 with ⟨h5, ⟨h6, h6'⟩, h7⟩ | ⟨h5, ⟨h6, h6'⟩, h7, h8⟩ | ⟨e, c', h5, h6, h7, h8, h9, h10⟩
            · refine .inl ⟨h5, ⟨?_, ?_⟩, ?_⟩
              · rw [h6]; simp
              · rw [h6']; simp
              · simp only [List.length_append, List.length_cons, List.length_nil] at h7 ⊢; omega
            · refine .inr (.inl ⟨h5, ⟨?_, ?_⟩, ?_, ?_⟩)
              · rw [h6]; simp
              · rw [h6']; simp
              · intro c' hc'
                rcases List.mem_cons.1 hc' with rfl | hc'
                · right; simp
                · rcases h7 c' hc' with h | h
                  · rcases List.mem_append.1 h with h | h
                    · exact .inl h
                    · right; rw [List.mem_singleton] at h; simp [h]
                  · right; simp [h]
              · simp only [List.length_append, List.length_cons, List.length_nil] at h8 ⊢; omega
            · refine .inr (.inr ⟨e, c', h5, fun h => h6 (List.mem_append_left _ h), ?_, ?_, ?_, ?_⟩)
              · simp only [List.mem_cons, not_or]
                exact ⟨fun h => h6 (by simp [h]), h7⟩
              · rw [h8]; simp
              · rw [h9]; simp
              · simp only [List.length_append, List.length_cons, List.length_nil] at h10 ⊢; omega
    · rw [if_neg ht]
      exact ⟨[], by simp, by simp, by simp, rfl, .inl ⟨rfl, by simp [Extends], by simp; omega⟩⟩

theorem gridPrepare_spec (env : GridEnv C G) (s : SamplerState C K (GridExtra C G)) (expected : Nat) :
    (∃ g s1, gridPrepare env s expected = .ok (g, s1) ∧ s1.configs = s.configs ∧ s1.ys = s.ys ∧ s1.cache = s.cache ∧
      s1.calls = s.calls ∧ s1.extra.grid = some g ∧
      ((s.extra.grid = some g ∧ expected ≤ s.configs.length + g.length) ∨
        ∃ r, g = (env.shuffle r (env.generate (env.perAxis expected))).1)) ∨
    (gridPrepare env s expected = .error .zeroDivision ∧ env.nDims = 0) := by
  unfold gridPrepare
  by_cases hd : env.nDims = 0
  · simp only [if_pos hd]
    split
    · right; exact ⟨rfl, hd⟩
    · next g hg =>
      split
      · right; exact ⟨rfl, hd⟩
      · left; exact ⟨g, s, rfl, rfl, rfl, rfl, rfl, hg, .inl ⟨hg, by omega⟩⟩
  · simp only [if_neg hd]
    left
    split
    · exact ⟨_, _, rfl, rfl, rfl, rfl, rfl, rfl, .inr ⟨_, rfl⟩⟩
    · next g hg =>
      split
      · exact ⟨_, _, rfl, rfl, rfl, rfl, rfl, rfl, .inr ⟨_, rfl⟩⟩
      · exact ⟨g, s, rfl, rfl, rfl, rfl, rfl, hg, .inl ⟨hg, by omega⟩⟩

/-! ### BayesianOptimizationSampler -/

theorem fitSurrogate_fst (env : BOEnv C K M S) (force : Bool) (s : BOState C K M S) :
    (fitSurrogate env force s).1.configs = s.configs ∧ (fitSurrogate env force s).1.ys = s.ys ∧
    (fitSurrogate env force s).1.cache = s.cache ∧ (fitSurrogate env force s).1.calls = s.calls := by
  unfold fitSurrogate
  dsimp only
  split
  · split <;> exact ⟨rfl, rfl, rfl, rfl⟩
  · exact ⟨rfl, rfl, rfl, rfl⟩

theorem evalAll_ok {o : Objective C K} {t : Nat} {cs : List C} {vs : List K} (h : (evalAll o t cs).2 = .ok vs) :
    vs = cs.map o.value := by
  induction cs generalizing t vs with
  | nil => simp [evalAll] at h; simp [h]
  | cons c cs ih =>
    unfold evalAll at h
    split at h
    · cases h
    · next v hv =>
      obtain rfl := Objective.eval_ok hv
      split at h
      · cases h
      · next t' vs' hvs =>
        have := ih (t := t + 1) (vs := vs') (by rw [hvs])
        rw [← Except.ok.inj h, this]; rfl

theorem sampleConfiguration_toList (d : Drawer C S) (s : S) (n : Int) :
    (d.sampleConfiguration s n).1.toList = (d.draw s n.toNat).1 ∨ (n < 1 ∧ (d.sampleConfiguration s n).1.toList = []) := by
  unfold Drawer.sampleConfiguration
  split
  · next h => exact .inr ⟨h, rfl⟩
  · next h =>
    left
    dsimp only
    split
    · next h1 =>
      subst h1
      have := d.draw_length s 1
      obtain ⟨c, hc⟩ := List.length_eq_one_iff.1 this
      have e : (d.draw s (1 : Int).toNat).1 = [c] := hc
      rw [e]; rfl
    · rfl

theorem sampleConfiguration_length (d : Drawer C S) (s : S) (n : Int) :
    (d.sampleConfiguration s n).1.toList.length = n.toNat := by
  rcases sampleConfiguration_toList d s n with h | ⟨h1, h⟩
  · rw [h, d.draw_length]
  · rw [h]; simp; omega

theorem boInitial_spec (o : Objective C K) (env : BOEnv C K M S) (s : BOState C K M S) (n : Int) :
    ∃ cs : List C, Extends s (boInitial o env s n).1 (cs.map fun c => (c, o.value c)) ∧
      (boInitial o env s n).1.cache = s.cache ∧
      ((boInitial o env s n).2 = none → cs = (env.drawer.sampleConfiguration s.extra.rng (min env.initialPoints n)).1.toList) := by
  unfold boInitial
  dsimp only
  split
  · exact ⟨[], by simp [Extends], rfl, by simp⟩
  · next t vs h =>
    have hvs := evalAll_ok (by rw [h])
    set configs := (env.drawer.sampleConfiguration s.extra.rng (min env.initialPoints n)).1.toList
    obtain ⟨h1, h2, h3, _⟩ := fitSurrogate_fst env true
      ({ s with calls := t, ys := s.ys ++ vs, configs := s.configs ++ configs,
                extra := { s.extra with rng := (env.drawer.sampleConfiguration s.extra.rng (min env.initialPoints n)).2 } } :
        BOState C K M S)
    refine ⟨configs, ⟨?_, ?_⟩, h3, fun _ => rfl⟩
    · rw [h1]; simp [Function.comp_def]
    · rw [h2, hvs]; simp [Function.comp_def]

theorem boStep_spec [LinearOrder K] (o : Objective C K) (env : BOEnv C K M S) (s : BOState C K M S) :
    ∃ cs : List C, Extends s (boStep o env s).1 (cs.map fun c => (c, o.value c)) ∧ (boStep o env s).1.cache = s.cache ∧
      ((boStep o env s).2 = none → cs.length = 1) := by
  unfold boStep
  split
  · exact ⟨[], by simp [Extends], rfl, by simp⟩
  · split
    · exact ⟨[], by simp [Extends], rfl, by simp⟩
    · exact ⟨[], by simp [Extends], rfl, by simp⟩
    · next r c _ =>
      dsimp only
      split
      · exact ⟨[], by simp [Extends, SamplerState.tick], rfl, by simp⟩
      · next y hy =>
        obtain rfl := Objective.eval_ok hy
        obtain ⟨h1, h2, h3, _⟩ := fitSurrogate_fst env false (SamplerState.record (SamplerState.tick
          { s with extra := { s.extra with eta := _, rng := r } }) c (o.value c))
        exact ⟨[c], ⟨by rw [h1]; simp [SamplerState.record, SamplerState.tick],
          by rw [h2]; simp [SamplerState.record, SamplerState.tick]⟩, h3, by simp⟩

theorem Spec.Extends.trans {s s' s'' : SamplerState C K X} {l l' : List (C × K)} (h : Extends s s' l) (h' : Extends s' s'' l') :
    Extends s s'' (l ++ l') := by
  obtain ⟨h1, h2⟩ := h
  obtain ⟨h3, h4⟩ := h'
  exact ⟨by rw [h3, h1]; simp, by rw [h4, h2]; simp⟩

theorem boLoop_spec [LinearOrder K] (o : Objective C K) (env : BOEnv C K M S) (k : Nat) (s : BOState C K M S) :
    ∃ cs : List C, Extends s (boLoop o env k s).1 (cs.map fun c => (c, o.value c)) ∧ (boLoop o env k s).1.cache = s.cache ∧
      ((boLoop o env k s).2 = none → cs.length = k) := by
  induction k generalizing s with
  | zero => exact ⟨[], by simp [boLoop, Extends], rfl, by simp⟩
  | succ k ih =>
    obtain ⟨cs, h1, h2, h3⟩ := boStep_spec o env s
    unfold boLoop
    split
    · next s' e h =>
      rw [h] at h1 h2
      exact ⟨cs, h1, h2, by simp⟩
    · next s' h =>
      rw [h] at h1 h2 h3
      obtain ⟨cs', h4, h5, h6⟩ := ih s'
      refine ⟨cs ++ cs', ?_, h5.trans h2, fun hn => ?_⟩
      · rw [List.map_append]; exact h1.trans h4
      · rw [List.length_append, h3 rfl, h6 hn]; omega

theorem boAcquire_spec [LinearOrder K] (o : Objective C K) (env : BOEnv C K M S) (k : Nat) (s : BOState C K M S) :
    ∃ cs : List C, Extends s (boAcquire o env s k).1 (cs.map fun c => (c, o.value c)) ∧ (boAcquire o env s k).1.cache = s.cache ∧
      ((boAcquire o env s k).2 = none → cs.length = k) := by
  unfold boAcquire
  obtain ⟨h1, h2, h3, _⟩ := fitSurrogate_fst env false s
  split
  · next s' e h =>
    rw [h] at h1 h2 h3
    exact ⟨[], ⟨by simpa using h1, by simpa using h2⟩, h3, by simp⟩
  · next s' h =>
    rw [h] at h1 h2 h3
    obtain ⟨cs, h4, h5, h6⟩ := boLoop_spec o env k s'
    exact ⟨cs, ⟨by rw [h4.1, h1], by rw [h4.2, h2]⟩, h5.trans h3, h6⟩

theorem boInner_spec [LinearOrder K] (o : Objective C K) (env : BOEnv C K M S) (s : BOState C K M S) (n : Int) (hn : 0 < n) :
    ∃ cs : List C, Extends s (boInner o env s n).1 (cs.map fun c => (c, o.value c)) ∧ (boInner o env s n).1.cache = s.cache ∧
      ((boInner o env s n).2 = none → cs.length = n.toNat) := by
  unfold boInner
  split
  · next hlt =>
    obtain ⟨cs, h1, h2, h3⟩ := boInitial_spec o env s n
    split
    · next s1 e h =>
      rw [h] at h1 h2
      exact ⟨cs, h1, h2, by simp⟩
    · next s1 h =>
      rw [h] at h1 h2 h3
      have hlen : cs.length = (min env.initialPoints n).toNat := by
        rw [h3 rfl]; exact sampleConfiguration_length _ _ _
      obtain ⟨cs', h4, h5, h6⟩ := boAcquire_spec o env (n - ((s1.configs.length : Int) - s.configs.length)).toNat s1
      refine ⟨cs ++ cs', ?_, h5.trans h2, fun hnone => ?_⟩
      · rw [List.map_append]; exact h1.trans h4
      · have h7 := h6 hnone
        have h8 : s1.configs.length = s.configs.length + cs.length := by rw [h1.1]; simp
        rw [List.length_append, h7, h8]
        have : (0 : Int) ≤ s.configs.length := by omega
        omega
  · exact boAcquire_spec o env n.toNat s

end PyPDP
