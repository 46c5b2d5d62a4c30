/-
C29-C32: BayesianOptimizationSampler.
-/
import Verif.Props.RandomGrid
import Verif.Spec.Bayes

namespace PyPDP
open Spec
variable {C K M S : Type}

/-! ### helper lemmas -/

/-- hash objects stored so far are older than the next one -/
def HashOld (s : BOState C K M S) : Prop := ∀ i, s.extra.fittedHash = some i → i < s.extra.nextObj

theorem fitSurrogate_hash (env : BOEnv C K M S) (force : Bool) (s : BOState C K M S) (h : HashOld s) :
    HashOld (fitSurrogate env force s).1 := by
  unfold fitSurrogate
  dsimp only
  split
  · split
    · intro i hi; have := h i hi; simp only; omega
    · intro i hi; simp only [Option.some.injEq] at hi; simp only; omega
  · intro i hi; simp only [Option.some.injEq] at hi; simp only; omega

theorem fitSurrogate_ok {env : BOEnv C K M S} {force : Bool} {s s' : BOState C K M S} (h : HashOld s)
    (hf : fitSurrogate env force s = (s', none)) :
    s'.configs = s.configs ∧ s'.ys = s.ys ∧ s'.extra.lastFit = some (s.configs, s.ys) ∧
    env.fit s.extra.model s.configs s.ys = .ok s'.extra.model ∧ s'.extra.fits = s.extra.fits + 1 := by
  have hne : s.extra.fittedHash ≠ some s.extra.nextObj := fun he => absurd (h _ he) (lt_irrefl _)
  unfold fitSurrogate at hf
  dsimp only at hf
  rw [if_pos (Or.inr hne)] at hf
  split at hf
  · cases hf
  · next m hm =>
    cases hf
    exact ⟨rfl, rfl, rfl, hm, rfl⟩

/-- the surrogate is fitted on exactly the recorded data -/
def Fitted (env : BOEnv C K M S) (s : BOState C K M S) : Prop :=
  s.extra.lastFit = some (s.configs, s.ys) ∧ ∃ m0, env.fit m0 s.configs s.ys = .ok s.extra.model

theorem fitSurrogate_fitted {env : BOEnv C K M S} {force : Bool} {s s' : BOState C K M S} (h : HashOld s)
    (hf : fitSurrogate env force s = (s', none)) : Fitted env s' ∧ HashOld s' := by
  obtain ⟨h1, h2, h3, h4, _⟩ := fitSurrogate_ok h hf
  have := fitSurrogate_hash env force s h
  rw [hf] at this
  exact ⟨⟨by rw [h3, h1, h2], ⟨_, by rw [h1, h2]; exact h4⟩⟩, this⟩

theorem pyMaxBy_first [LinearOrder K] {α : Type} {key : α → K} {l : List α} {a : α} (h : pyMaxBy key l = .ok a) :
    FirstMax key l a := by
  cases l with
  | nil => cases h
  | cons x xs =>
    have gen : ∀ (xs pre : List α) (b : α), FirstMax key pre b →
        FirstMax key (pre ++ xs) (xs.foldl (fun best x => if key best < key x then x else best) b) := by
      intro xs
      induction xs with
      | nil => intro pre b h; simpa using h
      | cons y ys ih =>
        rintro pre b ⟨i, h1, h2, h3⟩
        have hi : i < pre.length := (List.getElem?_eq_some_iff.1 h1).1
        rw [List.foldl_cons, List.append_cons]
        apply ih
        by_cases hlt : key b < key y
        · rw [if_pos hlt]
          refine ⟨pre.length, by simp, ?_, ?_⟩
          · intro d hd
            rcases List.mem_append.1 hd with hd | hd
            · have := h2 d hd; rw [not_lt] at this ⊢; exact this.trans hlt.le
            · rw [List.mem_singleton] at hd; rw [hd]; exact lt_irrefl _
          · intro j hj d hd
            rw [List.getElem?_append_left hj] at hd
            have := h2 d (List.mem_of_getElem? hd)
            rw [not_lt] at this
            exact this.trans_lt hlt
        · rw [if_neg hlt]
          refine ⟨i, by rw [List.getElem?_append_left hi]; exact h1, ?_, ?_⟩
          · intro d hd
            rcases List.mem_append.1 hd with hd | hd
            · exact h2 d hd
            · rw [List.mem_singleton] at hd; rw [hd]; exact hlt
          · intro j hj d hd
            rw [List.getElem?_append_left (by omega)] at hd
            exact h3 j hj d hd
    have := gen xs [x] x ⟨0, rfl, by simp, by omega⟩
    rw [← Except.ok.inj h]
    exact this

theorem pickMax_config [LinearOrder K] {names : List String} {value : C → K} {l : List C} {c : C} {v : K}
    (h : pickMax names value (.many l) = .ok (.config c, v)) : FirstMax value l c ∧ v = value c := by
  obtain ⟨i, h1, h2, h3⟩ := pyMaxBy_first h
  rw [List.getElem?_map] at h1
  obtain ⟨d, hd, he⟩ := Option.map_eq_some_iff.1 h1
  simp only [Prod.mk.injEq, Picked.config.injEq] at he
  obtain ⟨rfl, rfl⟩ := he
  refine ⟨⟨i, hd, ?_, ?_⟩, rfl⟩
  · intro d' hd'
    exact h2 (.config d', value d') (List.mem_map.2 ⟨d', hd', rfl⟩)
  · intro j hj d' hd'
    exact h3 j hj (.config d', value d') (by rw [List.getElem?_map, hd']; rfl)

theorem getOptimum_config [LinearOrder K] {names : List String} {d : Drawer C S} {n : Int} {value : C → K} {rng r : S} {c : C}
    (h : getOptimum names d n value rng = (r, .ok (.config c))) : FirstMax value (d.draw rng n.toNat).1 c := by
  unfold getOptimum at h
  dsimp only at h
  have h := (Prod.mk.inj h).2
  obtain ⟨⟨p, v⟩, hp, hpc⟩ := Py.map_eq_ok.1 h
  simp only at hpc
  subst hpc
  unfold Drawer.sampleConfiguration at hp
  dsimp only at hp
  split at hp
  · cases hp
  · split at hp
    · next h1 =>
      subst h1
      obtain ⟨a, ha⟩ := List.length_eq_one_iff.1 (d.draw_length rng 1)
      have e : (d.draw rng (1 : Int).toNat).1 = [a] := ha
      rw [e] at hp
      simp only [pickMax] at hp
      obtain ⟨i, hi, _⟩ := pyMaxBy_first hp
      rw [List.getElem?_map] at hi
      obtain ⟨q, _, hq⟩ := Option.map_eq_some_iff.1 hi
      cases hq
    · exact (pickMax_config hp).1

theorem incumbent_isIncumbentValue [LinearOrder K] {X : Type} {minimize : Bool} {s : SamplerState C K X}
    (hlen : s.configs.length = s.ys.length) {c : Option C} {v : Option K} (h : incumbent minimize s = .ok (c, v)) :
    IsIncumbentValue minimize s.ys v := by
  by_cases hne : s.ys = []
  · rw [incumbent, if_pos (by simp [hne])] at h
    cases h
    exact hne
  · obtain ⟨_, h2⟩ := C21_incumbent minimize s hlen
    obtain ⟨i, c', v', h3, h4, h5, h6, _⟩ := h2 hne
    rw [h3] at h
    cases h
    refine ⟨List.mem_of_getElem? h5, fun y hy => ?_⟩
    have := h6 y hy
    cases minimize
    · simpa [Better] using this
    · simpa [Better] using this

theorem fitSurrogate_keeps (env : BOEnv C K M S) (force : Bool) (s : BOState C K M S) :
    (fitSurrogate env force s).1.extra.rng = s.extra.rng := by
  unfold fitSurrogate
  dsimp only
  split
  · split <;> rfl
  · rfl

theorem boStep_acquired [LinearOrder K] (o : Objective C K) (env : BOEnv C K M S) (s : BOState C K M S) (hh : HashOld s)
    (hf : Fitted env s) (hlen : s.configs.length = s.ys.length) :
    HashOld (boStep o env s).1 ∧ (boStep o env s).1.cache = s.cache ∧
    (((boStep o env s).2 ≠ none ∧ (boStep o env s).1.configs = s.configs ∧ (boStep o env s).1.ys = s.ys) ∨
     ∃ c, IsAcquired env s.configs s.ys c ∧ (boStep o env s).1.configs = s.configs ++ [c] ∧
      (boStep o env s).1.ys = s.ys ++ [o.value c] ∧ ((boStep o env s).2 = none → Fitted env (boStep o env s).1)) := by
  unfold boStep
  split
  · next e he => exact ⟨hh, rfl, .inl ⟨by simp, rfl, rfl⟩⟩
  · next ic v hv =>
    split
    · exact ⟨hh, rfl, .inl ⟨by simp, rfl, rfl⟩⟩
    · exact ⟨hh, rfl, .inl ⟨by simp, rfl, rfl⟩⟩
    · next r c hc =>
      dsimp only
      split
      · exact ⟨hh, rfl, .inl ⟨by simp, rfl, rfl⟩⟩
      · next y hy =>
        obtain rfl := Objective.eval_ok hy
        obtain ⟨t, ht⟩ : ∃ t, t = SamplerState.record (SamplerState.tick
          { s with extra := { s.extra with eta := v, rng := r } }) c (o.value c) := ⟨_, rfl⟩
        have hho : HashOld t := by rw [ht]; exact hh
        have e1 : t.configs = s.configs ++ [c] := by rw [ht]; rfl
        have e2 : t.ys = s.ys ++ [o.value c] := by rw [ht]; rfl
        have e3 : t.cache = s.cache := by rw [ht]; rfl
        rw [← ht]
        obtain ⟨h1, h2, h3, _⟩ := fitSurrogate_fst env false t
        obtain ⟨hf1, m0, hf2⟩ := hf
        refine ⟨fitSurrogate_hash _ _ _ hho, h3.trans e3, .inr ⟨c, ?_, h1.trans e1, h2.trans e2, fun hnone => ?_⟩⟩
        · exact ⟨m0, s.extra.model, v, s.extra.rng, hf2, incumbent_isIncumbentValue hlen hv, getOptimum_config hc⟩
        · exact (fitSurrogate_fitted hho (Prod.ext rfl hnone)).1

theorem boLoop_acquired [LinearOrder K] (o : Objective C K) (env : BOEnv C K M S) (k : Nat) (s : BOState C K M S)
    (hh : HashOld s) (hf : Fitted env s) (hlen : s.configs.length = s.ys.length) :
    HashOld (boLoop o env k s).1 ∧ (boLoop o env k s).1.cache = s.cache ∧
    ∃ acq : List C, AcquiredSeq o.value env s.configs s.ys acq ∧ (boLoop o env k s).1.configs = s.configs ++ acq ∧
      (boLoop o env k s).1.ys = s.ys ++ acq.map o.value ∧ acq.length ≤ k ∧
      ((boLoop o env k s).2 = none → acq.length = k ∧ Fitted env (boLoop o env k s).1) := by
  induction k generalizing s with
  | zero => exact ⟨hh, rfl, [], trivial, by simp [boLoop], by simp [boLoop], by simp, fun _ => ⟨rfl, hf⟩⟩
  | succ k ih =>
    obtain ⟨h1, h2, h3⟩ := boStep_acquired o env s hh hf hlen
    unfold boLoop
    split
    · next s' e h =>
      rw [h] at h1 h2 h3
      refine ⟨h1, h2, ?_⟩
      rcases h3 with ⟨_, h3, h4⟩ | ⟨c, h3, h4, h5, _⟩
      · exact ⟨[], trivial, by simpa using h3, by simpa using h4, by simp, by simp⟩
      · exact ⟨[c], ⟨h3, trivial⟩, h4, h5, by simp, by simp⟩
    · next s' h =>
      rw [h] at h1 h2 h3
      rcases h3 with ⟨h3, _⟩ | ⟨c, h3, h4, h5, h6⟩
      · exact absurd rfl h3
      · simp only at h1 h2 h4 h5
        obtain ⟨g1, g2, acq, g3, g4, g5, g6, g7⟩ := ih s' h1 (h6 rfl) (by rw [h4, h5]; simp [hlen])
        refine ⟨g1, g2.trans h2, c :: acq, ⟨h3, ?_⟩, ?_, ?_, by simpa using g6, fun hn => ⟨by simp [(g7 hn).1], (g7 hn).2⟩⟩
        · rw [← h4, ← h5]; exact g3
        · rw [g4, h4]; simp
        · rw [g5, h5]; simp

theorem boAcquire_acquired [LinearOrder K] (o : Objective C K) (env : BOEnv C K M S) (k : Nat) (s : BOState C K M S)
    (hh : HashOld s) (hlen : s.configs.length = s.ys.length) :
    HashOld (boAcquire o env s k).1 ∧ (boAcquire o env s k).1.cache = s.cache ∧
    ∃ acq : List C, AcquiredSeq o.value env s.configs s.ys acq ∧ (boAcquire o env s k).1.configs = s.configs ++ acq ∧
      (boAcquire o env s k).1.ys = s.ys ++ acq.map o.value ∧ acq.length ≤ k ∧
      ((boAcquire o env s k).2 = none → acq.length = k ∧ Fitted env (boAcquire o env s k).1) := by
  unfold boAcquire
  obtain ⟨h1, h2, h3, _⟩ := fitSurrogate_fst env false s
  have h4 := fitSurrogate_hash env false s hh
  split
  · next s' e h =>
    rw [h] at h1 h2 h3 h4
    exact ⟨h4, h3, [], trivial, by simpa using h1, by simpa using h2, by simp, by simp⟩
  · next s' h =>
    rw [h] at h1 h2 h3 h4
    simp only at h1 h2 h3 h4
    have hf := (fitSurrogate_fitted hh h).1
    obtain ⟨g1, g2, acq, g3, g4, g5, g6, g7⟩ := boLoop_acquired o env k s' h4 hf (by rw [h1, h2, hlen])
    exact ⟨g1, g2.trans h3, acq, by rw [← h1, ← h2]; exact g3, by rw [g4, h1], by rw [g5, h2], g6, g7⟩

/-- the initial design a call of size `n` draws -/
def initialDesign (env : BOEnv C K M S) (len : Nat) (r : S) (n : Int) : List C :=
  if (len : Int) < env.initialPoints then (env.drawer.draw r (min env.initialPoints n).toNat).1 else []

theorem boInitial_hash (o : Objective C K) (env : BOEnv C K M S) (s : BOState C K M S) (n : Int) (hh : HashOld s) :
    HashOld (boInitial o env s n).1 := by
  unfold boInitial
  dsimp only
  split
  · exact hh
  · exact fitSurrogate_hash _ _ _ hh

theorem boInner_acquired [LinearOrder K] (o : Objective C K) (env : BOEnv C K M S) (s : BOState C K M S) (n : Int) (hn : 0 < n)
    (hh : HashOld s) (hlen : s.configs.length = s.ys.length) :
    HashOld (boInner o env s n).1 ∧ (boInner o env s n).1.cache = s.cache ∧
    ((∃ e, (boInner o env s n).2 = some e) ∧ (boInner o env s n).1.configs = s.configs ∧ (boInner o env s n).1.ys = s.ys ∨
      ∃ acq : List C,
        AcquiredSeq o.value env (s.configs ++ initialDesign env s.configs.length s.extra.rng n)
          (s.ys ++ (initialDesign env s.configs.length s.extra.rng n).map o.value) acq ∧
        (boInner o env s n).1.configs = s.configs ++ initialDesign env s.configs.length s.extra.rng n ++ acq ∧
        (boInner o env s n).1.ys = s.ys ++ (initialDesign env s.configs.length s.extra.rng n ++ acq).map o.value ∧
        (initialDesign env s.configs.length s.extra.rng n).length + acq.length ≤ n.toNat ∧
        ((boInner o env s n).2 = none →
          (initialDesign env s.configs.length s.extra.rng n).length + acq.length = n.toNat ∧ Fitted env (boInner o env s n).1)) := by
  unfold boInner initialDesign
  split
  · next hlt =>
    obtain ⟨cs, h1, h2, h3⟩ := boInitial_spec o env s n
    have h4 := boInitial_hash o env s n hh
    have hdraw : (env.drawer.sampleConfiguration s.extra.rng (min env.initialPoints n)).1.toList =
        (env.drawer.draw s.extra.rng (min env.initialPoints n).toNat).1 := by
      rcases sampleConfiguration_toList env.drawer s.extra.rng (min env.initialPoints n) with h | ⟨h, _⟩
      · exact h
      · exfalso; omega
    have hdl := env.drawer.draw_length s.extra.rng (min env.initialPoints n).toNat
    split
    · next s1 e h =>
      have hkey : (s1.configs = s.configs ∧ s1.ys = s.ys) ∨ (s1.configs = s.configs ++ (env.drawer.draw s.extra.rng (min env.initialPoints n).toNat).1 ∧
          s1.ys = s.ys ++ (env.drawer.draw s.extra.rng (min env.initialPoints n).toNat).1.map o.value) := by
        unfold boInitial at h
        dsimp only at h
        split at h
        · cases h; exact .inl ⟨rfl, rfl⟩
        · next t vs hev =>
          right
          have hvs := evalAll_ok (by rw [hev])
          obtain ⟨k1, k2, _⟩ := fitSurrogate_fst env true
            ({ s with calls := t, ys := s.ys ++ vs,
                      configs := s.configs ++ (env.drawer.sampleConfiguration s.extra.rng (min env.initialPoints n)).1.toList,
                      extra := { s.extra with rng := (env.drawer.sampleConfiguration s.extra.rng (min env.initialPoints n)).2 } } :
              BOState C K M S)
          rw [h] at k1 k2
          rw [hvs] at k2
          rw [hdraw] at k1 k2
          exact ⟨k1, k2⟩
      rw [h] at h2 h4
      refine ⟨h4, h2, ?_⟩
      rcases hkey with ⟨k1, k2⟩ | ⟨k1, k2⟩
      · exact .inl ⟨⟨e, rfl⟩, k1, k2⟩
      · exact .inr ⟨[], trivial, by simpa using k1, by simpa using k2, by simp only [hdl, List.length_nil]; omega, by simp⟩
    · next s1 h =>
      rw [h] at h1 h2 h3 h4
      simp only at h1 h2 h4
      have hcs := (h3 rfl).trans hdraw
      subst hcs
      have e1 : s1.configs = s.configs ++ (env.drawer.draw s.extra.rng (min env.initialPoints n).toNat).1 := by
        rw [h1.1]; simp [Function.comp_def]
      have e2 : s1.ys = s.ys ++ (env.drawer.draw s.extra.rng (min env.initialPoints n).toNat).1.map o.value := by
        rw [h1.2]; simp [Function.comp_def]
      obtain ⟨g1, g2, acq, g3, g4, g5, g6, g7⟩ := boAcquire_acquired o env
        (n - ((s1.configs.length : Int) - s.configs.length)).toNat s1 h4 (by rw [e1, e2]; simp [hlen])
      have hl : s1.configs.length = s.configs.length + (min env.initialPoints n).toNat := by rw [e1]; simp [hdl]
      refine ⟨g1, g2.trans h2, .inr ⟨acq, by rw [← e1, ← e2]; exact g3, by rw [g4, e1], by rw [g5, e2]; simp, ?_, fun hnone => ?_⟩⟩
      · rw [hdl]; omega
      · obtain ⟨k1, k2⟩ := g7 hnone
        exact ⟨by rw [hdl, k1]; omega, k2⟩
  · obtain ⟨g1, g2, acq, g3, g4, g5, g6, g7⟩ := boAcquire_acquired o env n.toNat s hh hlen
    exact ⟨g1, g2, .inr ⟨acq, by simpa using g3, by simpa using g4, by simpa using g5, by simpa using g6,
      fun h => ⟨by simpa using (g7 h).1, (g7 h).2⟩⟩⟩

/-- the invariant of all reachable states -/
structure BOInv (s : BOState C K M S) : Prop where
  hash : HashOld s
  len : s.configs.length = s.ys.length

theorem boSample_inv [LinearOrder K] (o : Objective C K) (env : BOEnv C K M S) (s : BOState C K M S) (n : Int) (hi : BOInv s) :
    BOInv (boSample o env s n).1 ∧ (s.cache = [] → (boSample o env s n).1.cache = []) ∧
      ((boSample o env s n).2 = none → Fitted env (boSample o env s n).1) := by
  have h1 : BOInv (sampleWith (boInner o env) s n).1 ∧ (s.cache = [] → (sampleWith (boInner o env) s n).1.cache = []) := by
    obtain ⟨s1, new, he, _, hx, _, hc, h6⟩ := sampleWith_cases (boInner o env) s n
    have hi1 : BOInv s1 := ⟨by unfold HashOld; rw [hx]; exact hi.hash, by rw [he.1, he.2]; simp [hi.len]⟩
    rcases h6 with ⟨h6, _⟩ | ⟨h6, h7, h8⟩
    · rw [h6]
      refine ⟨hi1, fun h => List.eq_nil_iff_forall_not_mem.2 fun p hp => ?_⟩
      have := hc p hp; rw [h] at this; cases this
    · rw [h8]
      obtain ⟨g1, g2, g3⟩ := boInner_acquired o env s1 (n - new.length) (by omega) hi1.hash hi1.len
      refine ⟨⟨g1, ?_⟩, fun _ => g2.trans h7⟩
      rcases g3 with ⟨_, g3, g4⟩ | ⟨acq, _, g3, g4, _⟩
      · rw [g3, g4]; exact hi1.len
      · rw [g3, g4]; simp [hi1.len]
  unfold boSample
  split
  · next s1 e h => rw [h] at h1; exact ⟨h1.1, h1.2, by simp⟩
  · next s1 h =>
    rw [h] at h1
    obtain ⟨f1, f2, f3, _⟩ := fitSurrogate_fst env false s1
    refine ⟨⟨fitSurrogate_hash _ _ _ h1.1.hash, by rw [f1, f2]; exact h1.1.len⟩, fun hc => f3.trans (h1.2 hc), fun hn => ?_⟩
    exact (fitSurrogate_fitted h1.1.hash (Prod.ext rfl hn)).1

theorem boRun_inv [LinearOrder K] (o : Objective C K) (env : BOEnv C K M S) (ops : List SOp) (s : BOState C K M S) (hi : BOInv s) :
    BOInv (srun (boSample o env) s ops).1 ∧ (s.cache = [] → (srun (boSample o env) s ops).1.cache = []) := by
  induction ops generalizing s with
  | nil => exact ⟨hi, fun h => h⟩
  | cons op ops ih =>
    simp only [srun]
    cases op with
    | sample n =>
      obtain ⟨h1, h2, _⟩ := boSample_inv o env s n hi
      obtain ⟨h3, h4⟩ := ih _ h1
      exact ⟨h3, fun h => h4 (h2 h)⟩
    | reset => exact ih s.reset ⟨hi.hash, rfl⟩
    | clearCache => exact ⟨(ih s.clearCache ⟨hi.hash, hi.len⟩).1, fun _ => (ih s.clearCache ⟨hi.hash, hi.len⟩).2 rfl⟩
    | saveCache => exact ih s hi

theorem freshBO_inv (r : S) (m : M) (cache : List (C × K)) : BOInv { (freshBO r m : BOState C K M S) with cache } :=
  ⟨by simp [HashOld, freshBO], rfl⟩

theorem boSample_points [LinearOrder K] (o : Objective C K) (env : BOEnv C K M S) (s : BOState C K M S) (hi : BOInv s)
    (hcache : s.cache = []) (n : Int) :
    ∃ init acq : List C,
      (boSample o env s n).1.configs = s.configs ++ init ++ acq ∧
      (boSample o env s n).1.ys = s.ys ++ (init ++ acq).map o.value ∧
      AcquiredSeq o.value env (s.configs ++ init) (s.ys ++ init.map o.value) acq ∧
      (init = [] ∨ init = initialDesign env s.configs.length s.extra.rng n) ∧
      ((boSample o env s n).2 = none → 0 < n →
        init = initialDesign env s.configs.length s.extra.rng n ∧ init.length + acq.length = n.toNat) := by
  have hw := sampleWith_nocache (boInner o env) s hcache n
  by_cases hn : 0 < n
  · rw [if_pos hn] at hw
    obtain ⟨_, _, g3⟩ := boInner_acquired o env s n hn hi.hash hi.len
    unfold boSample
    rw [hw]
    split
    · next s1 e h =>
      rw [h] at g3
      rcases g3 with ⟨_, g3, g4⟩ | ⟨acq, g2, g3, g4, _⟩
      · exact ⟨[], [], by simpa using g3, by simpa using g4, trivial, .inl rfl, by simp⟩
      · exact ⟨_, acq, g3, g4, g2, .inr rfl, by simp⟩
    · next s1 h =>
      rw [h] at g3
      obtain ⟨f1, f2, _⟩ := fitSurrogate_fst env false s1
      rcases g3 with ⟨⟨e, he⟩, _⟩ | ⟨acq, g2, g3, g4, _, g6⟩
      · cases he
      · exact ⟨_, acq, f1.trans g3, f2.trans g4, g2, .inr rfl, fun _ _ => ⟨rfl, (g6 rfl).1⟩⟩
  · rw [if_neg hn] at hw
    unfold boSample
    rw [hw]
    obtain ⟨f1, f2, _⟩ := fitSurrogate_fst env false s
    exact ⟨[], [], by simpa using f1, by simpa using f2, trivial, .inl rfl, fun _ h => absurd h hn⟩

/-! ### C29 -/

/-- **C29** from an empty sampler without cache, `sample(n)` first evaluates `min(n, initial_points)` configurations drawn from the
config space; the remaining `n - initial_points` ones are chosen by the acquisition function, one after the other. -/
theorem C29_initial_then_acquired [LinearOrder K] (o : Objective C K) (env : BOEnv C K M S) (hip : 0 ≤ env.initialPoints)
    (r : S) (m : M) (n : Nat) {s' : BOState C K M S} (h : boSample o env (freshBO r m) n = (s', none)) :
    ∃ acq : List C, s'.configs = (env.drawer.draw r (min n env.initialPoints.toNat)).1 ++ acq ∧
      s'.ys = s'.configs.map o.value ∧ acq.length = n - env.initialPoints.toNat ∧
      AcquiredSeq o.value env (env.drawer.draw r (min n env.initialPoints.toNat)).1
        ((env.drawer.draw r (min n env.initialPoints.toNat)).1.map o.value) acq := by
  have hdraw0 : ∀ k, (env.drawer.draw r k).1.length = k := env.drawer.draw_length r
  by_cases hn : 0 < n
  · obtain ⟨init, acq, h1, h2, h3, _, h5⟩ := boSample_points o env (freshBO r m : BOState C K M S)
      (freshBO_inv r m []) rfl n
    rw [h] at h1 h2 h5
    obtain ⟨h6, h7⟩ := h5 rfl (by omega)
    have e : init = (env.drawer.draw r (min n env.initialPoints.toNat)).1 := by
      rw [h6, initialDesign]
      split
      · have : (min env.initialPoints (n : Int)).toNat = min n env.initialPoints.toNat := by omega
        rw [this]; rfl
      · next hlt =>
        have : min n env.initialPoints.toNat = 0 := by simp [freshBO] at hlt; omega
        rw [this]
        exact (List.length_eq_zero_iff.1 (hdraw0 0)).symm
    subst e
    simp only [freshBO, List.nil_append] at h1 h2 h3
    refine ⟨acq, h1, by rw [h2, h1], ?_, h3⟩
    rw [hdraw0] at h7
    omega
  · have hn0 : n = 0 := by omega
    subst hn0
    obtain ⟨init, acq, h1, h2, h3, h4, _⟩ := boSample_points o env (freshBO r m : BOState C K M S)
      (freshBO_inv r m []) rfl 0
    have hz : (env.drawer.draw r (min 0 env.initialPoints.toNat)).1 = [] := by
      rw [Nat.zero_min]; exact List.length_eq_zero_iff.1 (hdraw0 0)
    have hw := sampleWith_nocache (boInner o env) (freshBO r m : BOState C K M S) rfl 0
    rw [if_neg (by omega)] at hw
    have h' := h
    unfold boSample at h'
    rw [Nat.cast_zero, hw] at h'
    dsimp only at h'
    obtain ⟨f1, f2, _⟩ := fitSurrogate_fst env false (freshBO r m : BOState C K M S)
    rw [h'] at f1 f2
    rw [hz]
    exact ⟨[], by simpa [freshBO] using f1, by rw [f1, f2]; rfl, by simp, trivial⟩

/-- **C29** once at least `initial_points` points exist (after any history without cache), every further point is chosen by the
acquisition function. -/
theorem C29_only_acquired [LinearOrder K] (o : Objective C K) (env : BOEnv C K M S) (r : S) (m : M) (ops : List SOp) (n : Nat)
    {s s' : BOState C K M S} (hs : s = (srun (boSample o env) (freshBO r m) ops).1)
    (hip : env.initialPoints ≤ s.configs.length) (h : boSample o env s n = (s', none)) :
    ∃ acq : List C, s'.configs = s.configs ++ acq ∧ acq.length = n ∧ AcquiredSeq o.value env s.configs s.ys acq := by
  obtain ⟨hinv, hc⟩ := boRun_inv o env ops (freshBO r m : BOState C K M S) (freshBO_inv r m [])
  rw [← hs] at hinv hc
  have hid : initialDesign env s.configs.length s.extra.rng (n : Int) = [] := by rw [initialDesign, if_neg (by omega)]
  obtain ⟨init, acq, h1, h2, h3, h4, h5⟩ := boSample_points o env s hinv (hc rfl) n
  rw [h] at h1 h2 h5
  have hi : init = [] := by rcases h4 with h4 | h4; exacts [h4, h4.trans hid]
  subst hi
  refine ⟨acq, by simpa using h1, ?_, by simpa using h3⟩
  by_cases hn : 0 < n
  · simpa using (h5 rfl (by omega)).2
  · have hn0 : n = 0 := by omega
    subst hn0
    have hw := sampleWith_nocache (boInner o env) s (hc rfl) 0
    rw [if_neg (by omega)] at hw
    unfold boSample at h
    rw [Nat.cast_zero, hw] at h
    dsimp only at h
    obtain ⟨f1, _⟩ := fitSurrogate_fst env false s
    rw [h] at f1
    rw [f1] at h1
    simpa using h1

/-! ### C30 -/

/-- **C30** whenever `sample` returns - after any history, with any cache, including earlier calls that raised - the surrogate was
last fitted on exactly the recorded configurations and values. (That the acquisition function is only asked with a surrogate fitted
on the data of that moment is part of `IsAcquired`, see `C32_acquired`.) -/
theorem C30_fitted [LinearOrder K] (o : Objective C K) (env : BOEnv C K M S) (r : S) (m : M) (cache : List (C × K)) (ops : List SOp)
    (n : Int) {s s' : BOState C K M S} (hs : s = (srun (boSample o env) { freshBO r m with cache } ops).1)
    (h : boSample o env s n = (s', none)) :
    s'.extra.lastFit = some (s'.configs, s'.ys) ∧ ∃ m0, env.fit m0 s'.configs s'.ys = .ok s'.extra.model := by
  obtain ⟨hinv, _⟩ := boRun_inv o env ops _ (freshBO_inv r m cache)
  rw [← hs] at hinv
  obtain ⟨_, _, h3⟩ := boSample_inv o env s n hinv
  rw [h] at h3
  exact h3 rfl

/-! ### C31 -/

/-- **C31** fails in every reachable state: `fit_surrogate(force=False)` always calls `fit` (hash objects are compared by identity),
also right after a fit on the same data. -/
theorem C31_counterexample [LinearOrder K] (o : Objective C K) (env : BOEnv C K M S) (r : S) (m : M) (cache : List (C × K))
    (ops : List SOp) {s : BOState C K M S} (hs : s = (srun (boSample o env) { freshBO r m with cache } ops).1) :
    (fitSurrogate env false s).1.extra.fits = s.extra.fits + 1 ∧
    ((fitSurrogate env false s).2 = none →
      (fitSurrogate env false (fitSurrogate env false s).1).1.extra.fits = s.extra.fits + 2) := by
  obtain ⟨hinv, _⟩ := boRun_inv o env ops _ (freshBO_inv r m cache)
  rw [← hs] at hinv
  have key : ∀ t : BOState C K M S, HashOld t → (fitSurrogate env false t).1.extra.fits = t.extra.fits + 1 := by
    intro t ht
    have hne : t.extra.fittedHash ≠ some t.extra.nextObj := fun he => absurd (ht _ he) (lt_irrefl _)
    unfold fitSurrogate
    dsimp only
    rw [if_pos (Or.inr hne)]
    split <;> rfl
  refine ⟨key s hinv.hash, fun _ => ?_⟩
  rw [key _ (fitSurrogate_hash env false s hinv.hash), key s hinv.hash]

/-- **C31**, partial: the redundant refit has no visible effect if the surrogate's fit starts from scratch: after a successful fit,
another `fit_surrogate` succeeds and leaves configurations, values and the fitted model as they are. Missing (false): that `fit` is
not called. -/
theorem C31_refit_harmless_partial [LinearOrder K] (o : Objective C K) (env : BOEnv C K M S)
    (hscratch : ∀ m m' cs ys, env.fit m cs ys = env.fit m' cs ys) (r : S) (m : M) (cache : List (C × K)) (ops : List SOp)
    {s s' : BOState C K M S} (hs : s = (srun (boSample o env) { freshBO r m with cache } ops).1) (force force' : Bool)
    (h : fitSurrogate env force s = (s', none)) :
    (fitSurrogate env force' s').2 = none ∧ (fitSurrogate env force' s').1.extra.model = s'.extra.model ∧
    (fitSurrogate env force' s').1.configs = s.configs ∧ (fitSurrogate env force' s').1.ys = s.ys := by
  have hh : HashOld s := by
    rw [hs]; exact (boRun_inv o env ops _ (freshBO_inv r m cache)).1.hash
  obtain ⟨h1, h2, _, h4, _⟩ := fitSurrogate_ok hh h
  have hh' := fitSurrogate_hash env force s hh
  rw [h] at hh'
  have hne : s'.extra.fittedHash ≠ some s'.extra.nextObj := fun he => absurd (hh' _ he) (lt_irrefl _)
  have hfit : env.fit s'.extra.model s'.configs s'.ys = .ok s'.extra.model := by
    rw [h1, h2, hscratch _ s.extra.model]; exact h4
  have e : fitSurrogate env force' s' = ({ s' with extra := { s'.extra with
      nextObj := s'.extra.nextObj + 1, fittedHash := some s'.extra.nextObj, lastFit := some (s'.configs, s'.ys),
      fits := s'.extra.fits + 1 } }, none) := by
    unfold fitSurrogate
    dsimp only
    rw [if_pos (Or.inr hne), hfit]
  rw [e]
  exact ⟨rfl, rfl, h1, h2⟩

/-! ### C32 -/

/-- **C32** (and the second half of C30) in every call after every history without cache - also in a call that raises half-way -
the new points are the initial design (or nothing) followed by points each of which is the first maximiser of the acquisition
function among the drawn candidates, where the acquisition function used the incumbent value of the points recorded so far and a
surrogate fitted on exactly the points recorded so far. -/
theorem C32_acquired [LinearOrder K] (o : Objective C K) (env : BOEnv C K M S) (r : S) (m : M) (ops : List SOp) (n : Int)
    {s : BOState C K M S} (hs : s = (srun (boSample o env) (freshBO r m) ops).1) :
    ∃ init acq : List C,
      (boSample o env s n).1.configs = s.configs ++ init ++ acq ∧
      (boSample o env s n).1.ys = s.ys ++ (init ++ acq).map o.value ∧
      (init = [] ∨ (s.configs.length : Int) < env.initialPoints ∧
        init = (env.drawer.draw s.extra.rng (min env.initialPoints n).toNat).1) ∧
      AcquiredSeq o.value env (s.configs ++ init) (s.ys ++ init.map o.value) acq := by
  obtain ⟨hinv, hc⟩ := boRun_inv o env ops (freshBO r m : BOState C K M S) (freshBO_inv r m [])
  rw [← hs] at hinv hc
  obtain ⟨init, acq, h1, h2, h3, h4, _⟩ := boSample_points o env s hinv (hc rfl) n
  refine ⟨init, acq, h1, h2, ?_, h3⟩
  rcases h4 with h4 | h4
  · exact .inl h4
  · unfold initialDesign at h4
    split at h4
    · next hlt => exact .inr ⟨hlt, h4⟩
    · exact .inl h4

/-! ### C77 -/

/-- a small environment: random design 0, 1, 2, ...; candidates 100, 101, ... in steps of two; the acquisition function likes large
numbers; `fit` stores the number of points and refuses empty data -/
def sampleEnv : BOEnv Nat Int Nat (Nat × Nat) where
  initialPoints := 5
  minimize := true
  names := ["x"]
  drawer := ⟨fun s n => (List.range' s.1 n, (s.1 + n, s.2)), by simp⟩
  acqDrawer := ⟨fun s n => (List.range' (100 + s.2) n, (s.1, s.2 + n)), by simp⟩
  nCandidates := 2
  fit := fun _ cs _ => if cs.length = 0 then .error .value else .ok cs.length
  acq := fun _ _ c => c

/-- **C77** fails: `sample(7)` evaluates 5 random points and 2 acquired ones, but `sample(3); sample(4)` evaluates 7 random points
and none chosen by the acquisition function. -/
theorem C77_split_counterexample :
    (srun (boSample plainObjective sampleEnv) (freshBO (0, 0) 0) [.sample 7]).1.configs = [0, 1, 2, 3, 4, 101, 103] ∧
    (srun (boSample plainObjective sampleEnv) (freshBO (0, 0) 0) [.sample 3, .sample 4]).1.configs = [0, 1, 2, 3, 4, 5, 6] := by
  decide +kernel

/-- **C77**, partial: splitting is harmless once the first call already takes the whole initial design: then every later point is
acquired. Missing (false): first calls smaller than `initial_points`. -/
theorem C77_split_partial [LinearOrder K] (o : Objective C K) (env : BOEnv C K M S) (hip : 0 ≤ env.initialPoints)
    (r : S) (m : M) (n k : Nat) (hn : env.initialPoints ≤ n) {s1 s2 : BOState C K M S}
    (h1 : boSample o env (freshBO r m) n = (s1, none)) (h2 : boSample o env s1 k = (s2, none)) :
    ∃ acq : List C, s2.configs = (env.drawer.draw r env.initialPoints.toNat).1 ++ acq ∧
      acq.length = n + k - env.initialPoints.toNat ∧
      AcquiredSeq o.value env (env.drawer.draw r env.initialPoints.toNat).1
        ((env.drawer.draw r env.initialPoints.toNat).1.map o.value) acq := by
  obtain ⟨acq1, e1, e2, e3, e4⟩ := C29_initial_then_acquired o env hip r m n h1
  have hmin : min n env.initialPoints.toNat = env.initialPoints.toNat := by omega
  rw [hmin] at e1 e4
  have hs : s1 = (srun (boSample o env) (freshBO r m) [.sample n]).1 := by simp [srun, sstep, h1]
  have hl : s1.configs.length = n := by
    rw [e1, List.length_append, env.drawer.draw_length, e3]; omega
  obtain ⟨acq2, f1, f2, f3⟩ := C29_only_acquired o env r m _ k hs (by rw [hl]; exact_mod_cast hn) h2
  have happ : ∀ (a b : List C) (cs : List C) (ys : List K), AcquiredSeq o.value env cs ys a →
      AcquiredSeq o.value env (cs ++ a) (ys ++ a.map o.value) b → AcquiredSeq o.value env cs ys (a ++ b) := by
    intro a
    induction a with
    | nil => intro b cs ys _ h; simpa using h
    | cons c a ih =>
      rintro b cs ys ⟨h1, h2⟩ h3
      exact ⟨h1, ih b _ _ h2 (by simpa using h3)⟩
  refine ⟨acq1 ++ acq2, by rw [f1, e1]; simp, by rw [List.length_append, e3, f2]; omega, happ _ _ _ _ e4 ?_⟩
  rw [← e1]
  have : s1.ys = (env.drawer.draw r env.initialPoints.toNat).1.map o.value ++ acq1.map o.value := by rw [e2, e1]; simp
  rw [← this]
  exact f3

/-! ### non-vacuity -/

example : (srun (boSample plainObjective sampleEnv) (freshBO (0, 0) 0) [.sample 7, .sample 2]).2 = [none, none] ∧
    (srun (boSample plainObjective sampleEnv) (freshBO (0, 0) 0) [.sample 7, .sample 2]).1.configs
      = [0, 1, 2, 3, 4, 101, 103, 105, 107] := by decide +kernel
/-- a history with a failing call followed by a successful one -/
example : (srun (boSample failingOnce sampleEnv) (freshBO (0, 0) 0) [.sample 2, .sample 3]).2 = [some .user, none] := by
  decide +kernel

end PyPDP
