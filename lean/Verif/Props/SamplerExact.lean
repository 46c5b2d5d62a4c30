/-
C20 and C22 in every case: what a GridSampler records when its objective function raises, and what samplers of all classes do with a cache.
-/
import Verif.Props.CacheExact
import Verif.Props.Bayes

namespace PyPDP
open Spec
variable {C K X : Type}

/-! ### C20 -/

theorem gridLoop_outcome [DecidableEq C] {G : Type} (o : Objective C K) (target : Nat) (grid : List C) (s : SamplerState C K (GridExtra C G)) :
    ∃ cs : List C, (gridLoop o target grid s).1.cache = s.cache ∧
      ((((gridLoop o target grid s).2 = none ∨ (gridLoop o target grid s).2 = some .index) ∧
          Extends s (gridLoop o target grid s).1 (cs.map fun c => (c, o.value c))) ∨
       ∃ t c e, o.raises t c = some e ∧ (gridLoop o target grid s).2 = some e ∧
          (gridLoop o target grid s).1.configs = s.configs ++ cs ++ [c] ∧ (gridLoop o target grid s).1.ys = s.ys ++ cs.map o.value) := by
  induction grid generalizing s with
  | nil =>
    refine ⟨[], ?_⟩
    unfold gridLoop
    split <;> exact ⟨rfl, .inl ⟨by simp, by simp [Extends]⟩⟩
  | cons c rest ih =>
    unfold gridLoop
    by_cases ht : s.configs.length < target
    · rw [if_pos ht]
      dsimp only
      by_cases hc : c ∈ s.configs
      · rw [if_pos hc]
        exact ih _
      · rw [if_neg hc]
        cases hr : o.raises s.calls c with
        | some e =>
          simp only [Objective.eval, hr]
          exact ⟨[], rfl, .inr ⟨s.calls, c, e, hr, rfl, by simp [SamplerState.tick], by simp [SamplerState.tick]⟩⟩
        | none =>
          simp only [Objective.eval, hr]
          obtain ⟨cs, h1, h2⟩ := ih (({ s with extra := { s.extra with grid := some rest } }.record c (o.value c)).tick)
          refine ⟨c :: cs, h1, ?_⟩
          rcases h2 with ⟨h2, h3, h4⟩ | ⟨t, d, e, h2, h3, h4, h5⟩
          · exact .inl ⟨h2, by rw [h3]; simp [SamplerState.tick, SamplerState.record],
              by rw [h4]; simp [SamplerState.tick, SamplerState.record]⟩
          · exact .inr ⟨t, d, e, h2, h3, by rw [h4]; simp [SamplerState.tick, SamplerState.record],
              by rw [h5]; simp [SamplerState.tick, SamplerState.record]⟩
    · rw [if_neg ht]
      exact ⟨[], rfl, .inl ⟨.inl rfl, by simp [Extends]⟩⟩

/-- **C20** in every case, GridSampler: after every history without `reset` (after which the sampler is empty again) whose cache held objective
values, the recorded configurations are those evaluated and those whose evaluation raised (`false`), in the order in which they were
visited; the recorded values are those of the former alone, in the same order; and every call left by an exception of the objective
function has added one of the latter. So every value stands as many places before its configuration as calls have been left by an
exception of the objective function before. (The objective function raising neither IndexError nor ZeroDivisionError, which the
sampler raises itself if the grid has too few points or no dimension.) -/
theorem C20_grid_exact [DecidableEq C] {G : Type} (o : Objective C K) (env : GridEnv C G)
    (hraise : ∀ t c e, o.raises t c = some e → e ≠ .index ∧ e ≠ .zeroDivision)
    (s : SamplerState C K (GridExtra C G)) (ha : Aligned o.value s) (hc : CacheTrue o.value s) (ops : List SOp) (hr : SOp.reset ∉ ops) :
    ∃ visited : List (C × Bool), (srun (gridSampler o env) s ops).1.configs = visited.map Prod.fst ∧
      (srun (gridSampler o env) s ops).1.ys = (visited.filter fun p => p.2).map (fun p => o.value p.1) ∧
      (visited.filter fun p => !p.2).length =
        ((srun (gridSampler o env) s ops).2.filter fun e => decide (e ≠ none ∧ e ≠ some .index ∧ e ≠ some .zeroDivision)).length := by
  have step : ∀ (s : SamplerState C K (GridExtra C G)) (n : Int) (t : SamplerState C K (GridExtra C G)) (e : Option PyErr), CacheTrue o.value s →
      gridSampler o env s n = (t, e) → ∃ new : List (C × Bool), CacheTrue o.value t ∧ t.configs = s.configs ++ new.map Prod.fst ∧
      t.ys = s.ys ++ (new.filter fun p => p.2).map (fun p => o.value p.1) ∧
      (new.filter fun p => !p.2).length = if e ≠ none ∧ e ≠ some .index ∧ e ≠ some .zeroDivision then 1 else 0 := by
    intro s n t e hc hrun
    obtain ⟨s1, new, h1, _, _, h4, h5, h6⟩ := sampleWith_cases (gridSample o env) s n
    have hc1 : CacheTrue o.value s1 := fun p hp => hc p (h5 p hp)
    have hy : new.map Prod.snd = new.map (fun p => o.value p.1) := List.map_congr_left fun p hp => hc p (h4 p hp)
    unfold gridSampler at hrun
    rcases h6 with ⟨h6, _⟩ | ⟨h6, h7, h8⟩
    · rw [h6] at hrun
      cases hrun
      refine ⟨new.map fun p => (p.1, true), hc1, ?_, ?_, ?_⟩
      · rw [h1.1]; simp [Function.comp_def]
      · rw [h1.2, hy]; simp [List.filter_map, Function.comp_def]
      · simp [List.filter_map, Function.comp_def]
    · rw [h8] at hrun
      unfold gridSample at hrun
      dsimp only at hrun
      rcases gridPrepare_spec env s1 ((s1.configs.length : Int) + (n - new.length)).toNat with ⟨g, s2, hp, g1, g2, g3, _⟩ | ⟨hp, _⟩
      · rw [hp] at hrun
        dsimp only at hrun
        obtain ⟨cs, k1, k2⟩ := gridLoop_outcome o ((s1.configs.length : Int) + (n - new.length)).toNat g s2
        rw [hrun] at k1 k2
        dsimp only at k1 k2
        have hct : CacheTrue o.value t := by unfold CacheTrue; rw [k1, g3]; exact hc1
        rcases k2 with ⟨k2, k3, k4⟩ | ⟨t', c, e', k2, k3, k4, k5⟩
        · refine ⟨(new.map fun p => (p.1, true)) ++ cs.map fun c => (c, true), hct, ?_, ?_, ?_⟩
          · rw [k3, g1, h1.1]; simp [Function.comp_def]
          · rw [k4, g2, h1.2, hy]; simp [List.filter_map, Function.comp_def]
          · rw [if_neg (by rcases k2 with k2 | k2 <;> simp [k2])]
            simp [List.filter_map, Function.comp_def]
        · refine ⟨(new.map fun p => (p.1, true)) ++ (cs.map fun c => (c, true)) ++ [(c, false)], hct, ?_, ?_, ?_⟩
          · rw [k4, g1, h1.1]; simp [Function.comp_def]
          · rw [k5, g2, h1.2, hy]; simp [List.filter_map, Function.comp_def]
          · rw [if_pos (by rw [k3]; simpa using hraise t' c e' k2)]
            simp [List.filter_map, Function.comp_def]
      · rw [hp] at hrun
        cases hrun
        refine ⟨new.map fun p => (p.1, true), hc1, ?_, ?_, ?_⟩
        · rw [h1.1]; simp [Function.comp_def]
        · rw [h1.2, hy]; simp [List.filter_map, Function.comp_def]
        · simp [List.filter_map, Function.comp_def]
  have gen : ∀ (ops : List SOp) (s : SamplerState C K (GridExtra C G)) (visited : List (C × Bool)), SOp.reset ∉ ops → CacheTrue o.value s →
      s.configs = visited.map Prod.fst → s.ys = (visited.filter fun p => p.2).map (fun p => o.value p.1) →
      ∃ visited' : List (C × Bool), (srun (gridSampler o env) s ops).1.configs = visited'.map Prod.fst ∧
        (srun (gridSampler o env) s ops).1.ys = (visited'.filter fun p => p.2).map (fun p => o.value p.1) ∧
        (visited'.filter fun p => !p.2).length = (visited.filter fun p => !p.2).length +
          ((srun (gridSampler o env) s ops).2.filter fun e => decide (e ≠ none ∧ e ≠ some .index ∧ e ≠ some .zeroDivision)).length := by
    intro ops
    induction ops with
    | nil => intro s visited _ _ h1 h2; exact ⟨visited, h1, h2, by simp [srun]⟩
    | cons op ops ih =>
      intro s visited hr hc h1 h2
      have hr' : SOp.reset ∉ ops := fun h => hr (List.mem_cons_of_mem _ h)
      cases op with
      | sample n =>
        simp only [srun, sstep]
        obtain ⟨⟨t, e⟩, hte⟩ : ∃ p, gridSampler o env s n = p := ⟨_, rfl⟩
        rw [hte]
        dsimp only
        obtain ⟨new, n1, n2, n3, n4⟩ := step s n t e hc hte
        obtain ⟨v', k1, k2, k3⟩ := ih t (visited ++ new) hr' n1 (by rw [n2, h1]; simp) (by rw [n3, h2]; simp)
        refine ⟨v', k1, k2, ?_⟩
        rw [k3, List.filter_append, List.length_append, n4, List.filter_cons]
        by_cases he : e ≠ none ∧ e ≠ some .index ∧ e ≠ some .zeroDivision
        · rw [if_pos he, if_pos (decide_eq_true he), List.length_cons]; omega
        · rw [if_neg he, if_neg (by simpa using he)]; omega
      | reset => exact absurd List.mem_cons_self hr
      | clearCache =>
        obtain ⟨v', k1, k2, k3⟩ := ih s.clearCache visited hr' (by simp [CacheTrue, SamplerState.clearCache]) h1 h2
        exact ⟨v', k1, k2, by simpa [srun, sstep] using k3⟩
      | saveCache =>
        obtain ⟨v', k1, k2, k3⟩ := ih s visited hr' hc h1 h2
        exact ⟨v', k1, k2, by simpa [srun, sstep] using k3⟩
  obtain ⟨v', k1, k2, k3⟩ := gen ops s (s.configs.map fun c => (c, true)) hr hc (by simp [Function.comp_def])
    (by rw [ha]; simp [List.filter_map, Function.comp_def])
  refine ⟨v', k1, k2, ?_⟩
  rw [k3]
  simp [List.filter_map, Function.comp_def]

/-- the run of `C20_grid_counterexample`: configuration 0 was not evaluated -/
example : (srun (gridSampler failingOnce natGrid) gridStart [.sample 2, .sample 2]).1.configs = [(0, false), (1, true), (2, true)].map Prod.fst ∧
    (srun (gridSampler failingOnce natGrid) gridStart [.sample 2, .sample 2]).1.ys =
      ([(0, false), (1, true), (2, true)].filter fun p => p.2).map (fun p => failingOnce.value p.1) := by decide +kernel

/-! ### C22 -/

/-- **C22** in every case, for samplers of all three classes and all sequences of sample calls, whether or not calls raise: a first part of the
calls fits (each asks for at most `size - 2 × points already taken` points). They replay the cached points in order without evaluating
anything. From the first call on that does not fit, the rest of the cache is thrown away: the sampler goes on as one that has recorded the
replayed points and has no cache. -/
theorem C22_exact [DecidableEq C] [LinearOrder K] {o : Objective C K}
    {sample : SamplerState C K X → Int → SamplerState C K X × Option PyErr} (hs : IsSampler o X sample)
    (s : SamplerState C K X) (hfresh : s.configs = [] ∧ s.ys = []) (ns : List Nat) :
    ∃ a b t es, ns = a ++ b ∧ ReplayFits s.cache.length 0 a ∧ (∀ m b', b = m :: b' → s.cache.length < 2 * a.sum + m) ∧
      srun sample s (a.map fun n : Nat => .sample n) = (t, es) ∧
      t.configs = (s.cache.take a.sum).map Prod.fst ∧ t.ys = (s.cache.take a.sum).map Prod.snd ∧ t.cache = s.cache.drop a.sum ∧ t.calls = s.calls ∧
      (b = [] → srun sample s (ns.map fun n : Nat => .sample n) = (t, es)) ∧
      (b ≠ [] → srun sample s (ns.map fun n : Nat => .sample n) =
        ((srun sample { t with cache := [] } (b.map fun n : Nat => .sample n)).1,
          es ++ (srun sample { t with cache := [] } (b.map fun n : Nat => .sample n)).2)) := by
  have hcalls : ∀ (s : SamplerState C K X) (n : Nat), s.configs.length + n ≤ s.cache.length → (sample s n).1.calls = s.calls := by
    intro s n h
    have hn : (0 : Int) ≤ n := by omega
    have h' : (s.configs.length : Int) + n ≤ s.cache.length := by omega
    cases hs with
    | random d => rw [randomSampler, sampleWith_hit _ hn h']; rfl
    | grid env => rw [gridSampler, sampleWith_hit _ hn h']; rfl
    | bo env =>
      rw [boSample, sampleWith_hit _ hn h']
      exact (fitSurrogate_fst env false (afterHit s n : BOState C K _ _)).2.2.2
  have key : ∀ (ns : List Nat) (L : List (C × K)) (done : Nat) (u : SamplerState C K X), done ≤ L.length →
      u.configs = (L.take done).map Prod.fst → u.ys = (L.take done).map Prod.snd → u.cache = L.drop done →
      ∃ a b t es, ns = a ++ b ∧ ReplayFits L.length done a ∧ (∀ m b', b = m :: b' → L.length < 2 * (done + a.sum) + m) ∧
      srun sample u (a.map fun n : Nat => .sample n) = (t, es) ∧
      t.configs = (L.take (done + a.sum)).map Prod.fst ∧ t.ys = (L.take (done + a.sum)).map Prod.snd ∧ t.cache = L.drop (done + a.sum) ∧
      t.calls = u.calls ∧
      (b = [] → srun sample u (ns.map fun n : Nat => .sample n) = (t, es)) ∧
      (b ≠ [] → srun sample u (ns.map fun n : Nat => .sample n) =
        ((srun sample { t with cache := [] } (b.map fun n : Nat => .sample n)).1,
          es ++ (srun sample { t with cache := [] } (b.map fun n : Nat => .sample n)).2)) := by
    intro ns
    induction ns with
    | nil =>
      intro L done u hd h1 h2 h3
      exact ⟨[], [], u, [], rfl, trivial, by simp, rfl, by simpa using h1, by simpa using h2, by simpa using h3, rfl, fun _ => rfl, by simp⟩
    | cons n ns ih =>
      intro L done u hd h1 h2 h3
      have hlen : u.configs.length = done := by rw [h1]; simp [Nat.min_eq_left hd]
      have hcl : u.cache.length = L.length - done := by rw [h3]; simp
      by_cases hfit : 2 * done + n ≤ L.length
      · obtain ⟨g1, g2, g3⟩ := sampler_hit hs (s := u) (n := n) (by omega) (by omega)
        have g4 := hcalls u n (by omega)
        obtain ⟨a, b, t, es, k1, k2, k3, k4, k5, k6, k7, k8, k9, k10⟩ := ih L (done + n) (sample u n).1 (by omega)
          (by rw [g1, h1, h3, Int.toNat_natCast, ← List.map_append, List.take_add])
          (by rw [g2, h2, h3, Int.toNat_natCast, ← List.map_append, List.take_add])
          (by rw [g3, h3, Int.toNat_natCast, List.drop_drop])
        refine ⟨n :: a, b, t, (sample u n).2 :: es, by rw [k1]; rfl, ⟨hfit, k2⟩, ?_, ?_, ?_, ?_, ?_, ?_, ?_, ?_⟩
        · intro m b' hb
          have := k3 m b' hb
          rw [List.sum_cons]
          omega
        · simp only [List.map_cons, srun, sstep, k4]
        · rw [k5, List.sum_cons, Nat.add_assoc]
        · rw [k6, List.sum_cons, Nat.add_assoc]
        · rw [k7, List.sum_cons, Nat.add_assoc]
        · rw [k8, g4]
        · intro hb
          simp only [List.map_cons, srun, sstep, k9 hb]
        · intro hb
          simp only [List.map_cons, srun, sstep, k10 hb, List.cons_append]
      · have hmiss := sampler_miss hs (s := u) (n := n) (by omega)
        refine ⟨[], n :: ns, u, [], rfl, trivial, ?_, rfl, by simpa using h1, by simpa using h2, by simpa using h3, rfl, by simp, fun _ => ?_⟩
        · intro m b' hb
          cases hb
          simp only [List.sum_nil]
          omega
        · have hrun : srun sample u ((n :: ns).map fun n : Nat => .sample n) = srun sample u.clearCache ((n :: ns).map fun n : Nat => .sample n) := by
            simp only [List.map_cons, srun, sstep, hmiss]
          rw [hrun]
          rfl
  have h := key ns s.cache 0 s (by omega) (by simp [hfresh.1]) (by simp [hfresh.2]) (by simp)
  simpa using h

/-- **C22** in every case, the calls that replay the cache: a RandomSampler and a GridSampler take nothing from their random state and return
normally; a BayesianOptimizationSampler takes nothing from its random state either, and after each call that returns normally its surrogate
model is fitted to exactly the replayed points. -/
theorem C22_exact_replay [DecidableEq C] [LinearOrder K] {M S G : Type} (o : Objective C K) (n : Nat) :
    (∀ (d : Drawer C S) (s : SamplerState C K S), s.configs.length + n ≤ s.cache.length →
      ∃ t, randomSampler o d s n = (t, none) ∧ t.extra = s.extra) ∧
    (∀ (env : GridEnv C G) (s : SamplerState C K (GridExtra C G)), s.configs.length + n ≤ s.cache.length →
      ∃ t, gridSampler o env s n = (t, none) ∧ t.extra = s.extra) ∧
    ∀ (env : BOEnv C K M S) (s : BOState C K M S), s.configs.length + n ≤ s.cache.length → (∀ i, s.extra.fittedHash = some i → i < s.extra.nextObj) →
      (boSample o env s n).1.extra.rng = s.extra.rng ∧ ((boSample o env s n).2 = none →
        env.fit s.extra.model (s.configs ++ (s.cache.take n).map Prod.fst) (s.ys ++ (s.cache.take n).map Prod.snd) =
          .ok (boSample o env s n).1.extra.model) := by
  have hn : (0 : Int) ≤ n := by omega
  refine ⟨fun d s h => ⟨_, sampleWith_hit _ hn (by omega), rfl⟩,
    fun env s h => ⟨_, sampleWith_hit _ hn (by omega), rfl⟩, fun env s h hh => ?_⟩
  rw [boSample, sampleWith_hit _ hn (by omega)]
  have hh' : HashOld (afterHit s n : BOState C K M S) := hh
  constructor
  · dsimp only
    unfold fitSurrogate
    dsimp only
    split
    · split <;> rfl
    · rfl
  · dsimp only
    intro h0
    have := (fitSurrogate_ok hh' (Prod.ext rfl h0)).2.2.2.1
    simpa [afterHit] using this

/-- **C30**, the second half, for histories with a cache: in every call after every history - also in a call that raises half-way - either
the call only replays points of the cache, or the new points are the initial design (or nothing) followed by points each of which is the first
maximiser of the acquisition function among the drawn candidates, where the acquisition function used the incumbent value of the points
recorded so far, replayed ones included, and a surrogate fitted on exactly these points. -/
theorem C30_asked [LinearOrder K] {M S : Type} (o : Objective C K) (env : BOEnv C K M S) (r : S) (m : M) (cache : List (C × K)) (ops : List SOp)
    (n : Int) {s : BOState C K M S} (hs : s = (srun (boSample o env) { freshBO r m with cache } ops).1) :
    ((s.configs.length : Int) + n ≤ s.cache.length ∧
      (boSample o env s n).1.configs = s.configs ++ (s.cache.take n.toNat).map Prod.fst ∧
      (boSample o env s n).1.ys = s.ys ++ (s.cache.take n.toNat).map Prod.snd) ∨
    ((s.cache.length : Int) < s.configs.length + n ∧ ∃ init acq : List C,
      (boSample o env s n).1.configs = s.configs ++ init ++ acq ∧
      (boSample o env s n).1.ys = s.ys ++ (init ++ acq).map o.value ∧
      (init = [] ∨ (s.configs.length : Int) < env.initialPoints ∧
        init = (env.drawer.draw s.extra.rng (min env.initialPoints n).toNat).1) ∧
      AcquiredSeq o.value env (s.configs ++ init) (s.ys ++ init.map o.value) acq) := by
  have hinv := (boRun_inv o env ops _ (freshBO_inv r m cache)).1
  rw [← hs] at hinv
  by_cases h : (s.configs.length : Int) + n ≤ s.cache.length
  · refine .inl ⟨h, ?_⟩
    have key : ∃ s1, sampleWith (boInner o env) s n = (s1, none) ∧ s1.configs = s.configs ++ (s.cache.take n.toNat).map Prod.fst ∧
        s1.ys = s.ys ++ (s.cache.take n.toNat).map Prod.snd := by
      by_cases hn : 0 ≤ n
      · exact ⟨_, sampleWith_hit _ hn h, rfl, rfl⟩
      · have h0 : n.toNat = 0 := by omega
        refine ⟨s, ?_, by simp [h0], by simp [h0]⟩
        unfold sampleWith
        simp only [if_neg (not_lt.2 h), h0, useCache]
        rw [if_neg (by omega)]
    obtain ⟨s1, e1, e2, e3⟩ := key
    unfold boSample
    rw [e1]
    obtain ⟨f1, f2, _⟩ := fitSurrogate_fst env false s1
    exact ⟨f1.trans e2, f2.trans e3⟩
  · refine .inr ⟨by omega, ?_⟩
    have e : boSample o env s n = boSample o env s.clearCache n := by
      unfold boSample
      rw [sampleWith_miss _ (by omega)]
    have hi' : BOInv s.clearCache := ⟨hinv.hash, hinv.len⟩
    obtain ⟨init, acq, h1, h2, h3, h4, _⟩ := boSample_points o env s.clearCache hi' rfl n
    rw [e]
    refine ⟨init, acq, h1, h2, ?_, h3⟩
    rcases h4 with h4 | h4
    · exact .inl h4
    · unfold initialDesign at h4
      split at h4
      · next hlt => exact .inr ⟨hlt, h4⟩
      · exact .inl h4

end PyPDP
