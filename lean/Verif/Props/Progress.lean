/-
C121: the progress bar of `sample`.
-/
import Verif.Spec.Progress
import Verif.Props.Bayes
import Mathlib.Data.List.Range

namespace PyPDP
open Spec
variable {C K X S G M : Type}

/-! ### the bar does not change the samplers -/

theorem useCacheBar_erase (n : Nat) : ∀ (s : SamplerState C K X) (b : Pbar),
    ((useCacheBar n s b).1, (useCacheBar n s b).2.2) = useCache n s := by
  induction n with
  | zero => intro s b; rfl
  | succ n ih =>
    intro s b
    unfold useCacheBar useCache
    match hc : s.cache with
    | [] => rfl
    | (c, v) :: rest => dsimp only; rw [← ih _ (b.update ({ s with cache := rest }.record c v) 1)]

theorem randomLoopBar_erase (o : Objective C K) (samples : Draws C) : ∀ (k i : Nat) (s : SamplerState C K S) (b : Pbar),
    ((randomLoopBar o samples i k s b).1, (randomLoopBar o samples i k s b).2.2) = randomLoop o samples i k s
  | 0, _, _, _ => rfl
  | k + 1, i, s, b => by
    simp only [randomLoopBar, randomLoop]
    match samples.get i with
    | .error e => rfl
    | .ok c =>
      dsimp only
      match o.eval s.calls c with
      | .error e => rfl
      | .ok v => exact randomLoopBar_erase o samples k _ _ _

theorem gridLoopBar_erase [DecidableEq C] (o : Objective C K) (target : Nat) : ∀ (g : List C) (s : SamplerState C K (GridExtra C G)) (b : Pbar),
    ((gridLoopBar o target g s b).1, (gridLoopBar o target g s b).2.2) = gridLoop o target g s
  | [], s, b => by simp only [gridLoopBar, gridLoop]; split <;> rfl
  | c :: rest, s, b => by
    simp only [gridLoopBar, gridLoop]
    by_cases h1 : s.configs.length < target
    · simp only [if_pos h1]
      by_cases h2 : c ∈ s.configs
      · simp only [if_pos h2]; exact gridLoopBar_erase o target rest _ _
      · simp only [if_neg h2]
        match o.eval s.calls c with
        | .error e => rfl
        | .ok v => exact gridLoopBar_erase o target rest _ _
    · simp only [if_neg h1]

theorem gridSampleBar_erase [DecidableEq C] (o : Objective C K) (env : GridEnv C G) (s : SamplerState C K (GridExtra C G)) (b : Pbar) (n : Int) :
    ((gridSampleBar o env s b n).1, (gridSampleBar o env s b n).2.2) = gridSample o env s n := by
  simp only [gridSampleBar, gridSample]
  match gridPrepare env s ((s.configs.length : Int) + n).toNat with
  | .error e => rfl
  | .ok (g, s1) => exact gridLoopBar_erase o _ _ _ _

theorem boLoopBar_erase [LinearOrder K] (o : Objective C K) (env : BOEnv C K M S) : ∀ (k : Nat) (s : BOState C K M S) (b : Pbar),
    ((boLoopBar o env k s b).1, (boLoopBar o env k s b).2.2) = boLoop o env k s
  | 0, _, _ => rfl
  | k + 1, s, b => by
    simp only [boLoopBar, boLoop]
    match boStep o env s with
    | (s', some e) => rfl
    | (s', none) => exact boLoopBar_erase o env k _ _

theorem boAcquireBar_erase [LinearOrder K] (o : Objective C K) (env : BOEnv C K M S) (s : BOState C K M S) (b : Pbar) (k : Nat) :
    ((boAcquireBar o env s b k).1, (boAcquireBar o env s b k).2.2) = boAcquire o env s k := by
  simp only [boAcquireBar, boAcquire]
  match fitSurrogate env false s with
  | (s', some e) => rfl
  | (s', none) => exact boLoopBar_erase o env k _ _

theorem boInnerBar_erase [LinearOrder K] (o : Objective C K) (env : BOEnv C K M S) (s : BOState C K M S) (b : Pbar) (n : Int) :
    ((boInnerBar o env s b n).1, (boInnerBar o env s b n).2.2) = boInner o env s n := by
  simp only [boInnerBar, boInner]
  split
  · match boInitial o env s n with
    | (s1, some e) => rfl
    | (s1, none) => exact boAcquireBar_erase o env _ _ _
  · exact boAcquireBar_erase o env _ _ _

theorem sampleBar_erase {cls : String} {obj : Option String} {barred : SamplerState C K X → Pbar → Int → BarRun C K X}
    {inner : SamplerState C K X → Int → SamplerState C K X × Option PyErr}
    (hi : ∀ s b n, ((barred s b n).1, (barred s b n).2.2) = inner s n) {showProgress : Bool} {s : SamplerState C K X} {n : Int} {b : Pbar}
    (hb : openBar showProgress cls obj n = .ok b) :
    ((sampleBar cls obj barred showProgress s n).1, (sampleBar cls obj barred showProgress s n).2.2) = sampleWith inner s n := by
  unfold sampleBar sampleWith
  rw [hb]
  obtain ⟨s1, hs1⟩ : ∃ s1, s1 = if (s.configs.length : Int) + n > s.cache.length then s.clearCache else s := ⟨_, rfl⟩
  simp only [← hs1, ← useCacheBar_erase _ _ b]
  by_cases hk : (((useCacheBar n.toNat s1 b).2.2 : Nat) : Int) < n
  · simp only [if_pos hk, ← hi _ (useCacheBar n.toNat s1 b).2.1]
    match barred (useCacheBar n.toNat s1 b).1 (useCacheBar n.toNat s1 b).2.1 (n - (useCacheBar n.toNat s1 b).2.2) with
    | (s3, b3, some e) => rfl
    | (s3, b3, none) => rfl
  · simp only [if_neg hk]

theorem boSampleBar_erase [LinearOrder K] {obj : Option String} (o : Objective C K) (env : BOEnv C K M S) {showProgress : Bool}
    {s : BOState C K M S} {n : Int} {b : Pbar} (hb : openBar showProgress "BayesianOptimizationSampler" obj n = .ok b) :
    ((boSampleBar obj o env showProgress s n).1, (boSampleBar obj o env showProgress s n).2.2) = boSample o env s n := by
  unfold boSampleBar boSample
  rw [← sampleBar_erase (cls := "BayesianOptimizationSampler") (obj := obj) (boInnerBar_erase o env) (s := s) (n := n) hb]
  split
  · next h => rw [h]
  · next h => rw [h]

/-- **C121** showing the progress changes neither what is sampled nor the outcome, if the objective function has a name. -/
theorem C121_same [DecidableEq C] [LinearOrder K] {o : Objective C K} {obj : Option String} {cls : String}
    {plain : SamplerState C K X → Int → SamplerState C K X × Option PyErr} {barred : Bool → SamplerState C K X → Int → BarRun C K X}
    (hs : ShowsProgress o obj cls X plain barred) (showProgress : Bool) (hn : obj = none → showProgress = false) (s : SamplerState C K X)
    (n : Int) : ((barred showProgress s n).1, (barred showProgress s n).2.2) = plain s n := by
  obtain ⟨b, hb⟩ : ∃ b, openBar showProgress cls obj n = .ok b := by
    unfold openBar
    cases showProgress with
    | false => exact ⟨_, rfl⟩
    | true =>
      cases obj with
      | none => cases hn rfl
      | some name => exact ⟨_, rfl⟩
  cases hs with
  | random d => exact sampleBar_erase (fun s b n => randomLoopBar_erase o _ _ _ _ _) hb
  | grid env => exact sampleBar_erase (gridSampleBar_erase o env) hb
  | bo env => exact boSampleBar_erase o env hb

/-- **C121** with an objective function without a name (a `functools.partial`, say), a call that shows its progress raises an
AttributeError before anything is sampled. -/
theorem C121_nameless [DecidableEq C] [LinearOrder K] {o : Objective C K} {cls : String}
    {plain : SamplerState C K X → Int → SamplerState C K X × Option PyErr} {barred : Bool → SamplerState C K X → Int → BarRun C K X}
    (hs : ShowsProgress o none cls X plain barred) (s : SamplerState C K X) (n : Int) : barred true s n = (s, none, some .attribute) := by
  cases hs <;> rfl

/-! ### what the bar shows -/

/-- the bar after `k` updates by one, one after each point recorded from `s` on -/
def pointwise (s : SamplerState C K X) (b : Bar) (k : Nat) : Bar :=
  { b with
    shown := b.shown + k
    moments := b.moments ++ (List.range k).map fun i => ⟨s.configs.length + (i + 1), s.ys.length + (i + 1), b.shown + (i + 1 : Nat)⟩ }

theorem pointwise_zero (s : SamplerState C K X) (b : Bar) : pointwise s b 0 = b := by simp [pointwise]

theorem pointwise_succ {s s1 : SamplerState C K X} (hc : s1.configs.length = s.configs.length + 1) (hy : s1.ys.length = s.ys.length + 1)
    (b b1 : Bar) (hb : Pbar.update (some b) s1 1 = some b1) (k : Nat) : pointwise s1 b1 k = pointwise s b (k + 1) := by
  simp only [Pbar.update, Option.map_some, Option.some.injEq] at hb
  subst hb
  simp only [pointwise, hc, hy, Bar.mk.injEq, true_and, and_true]
  refine ⟨by push_cast; ring_nf, ?_⟩
  rw [List.append_assoc]
  congr 1
  rw [List.range_succ_eq_map, List.map_cons, List.map_map]
  simp only [List.singleton_append, List.cons.injEq]
  refine ⟨by simp, List.map_congr_left fun i _ => ?_⟩
  simp only [Function.comp, Moment.mk.injEq]
  refine ⟨by omega, by omega, by push_cast; ring_nf⟩

/-- what the bar of a part of the code that updates it after every point looks like: `slack` = 1 if the last recorded point may be missing -/
def Pointwise (slack : Nat) (s : SamplerState C K X) (b : Bar) (r : BarRun C K X) : Prop :=
  ∃ k, r.2.1 = some (pointwise s b k) ∧ s.ys.length + k ≤ r.1.ys.length ∧ r.1.ys.length ≤ s.ys.length + k + slack ∧
    (r.2.2 = none → r.1.ys.length = s.ys.length + k ∧ r.1.configs.length = s.configs.length + k)

theorem Pointwise.step {slack : Nat} {s s1 : SamplerState C K X} (hc : s1.configs.length = s.configs.length + 1)
    (hy : s1.ys.length = s.ys.length + 1) {b : Bar} {r : BarRun C K X}
    (h : ∀ b1, Pbar.update (some b) s1 1 = some b1 → Pointwise slack s1 b1 r) : Pointwise slack s b r := by
  obtain ⟨b1, hb⟩ : ∃ b1, Pbar.update (some b) s1 1 = some b1 := ⟨_, rfl⟩
  obtain ⟨k, h1, h2, h3, h4⟩ := h b1 hb
  refine ⟨k + 1, ?_, by omega, by omega, fun e => ⟨by have := (h4 e).1; omega, by have := (h4 e).2; omega⟩⟩
  rw [h1, pointwise_succ hc hy b b1 hb]

theorem Pointwise.stop {slack : Nat} {s s' : SamplerState C K X} {b : Bar} {e : Option PyErr} (hy : s.ys.length ≤ s'.ys.length)
    (hy' : s'.ys.length ≤ s.ys.length + slack) (he : e = none → s'.ys.length = s.ys.length ∧ s'.configs.length = s.configs.length) :
    Pointwise slack s b (s', some b, e) :=
  ⟨0, by rw [pointwise_zero], by simpa using hy, by simpa using hy', fun h => by simpa using he h⟩

theorem useCacheBar_pointwise (n : Nat) : ∀ (s : SamplerState C K X) (b : Bar),
    (useCacheBar n s (some b)).2.1 = some (pointwise s b (min n s.cache.length)) := by
  induction n with
  | zero => intro s b; simp [useCacheBar, pointwise_zero]
  | succ n ih =>
    intro s b
    unfold useCacheBar
    split
    · next h => simp [h, pointwise_zero]
    · next c v rest h =>
      obtain ⟨b1, hb⟩ : ∃ b1, Pbar.update (some b) ({ s with cache := rest }.record c v) 1 = some b1 := ⟨_, rfl⟩
      dsimp only
      rw [hb, ih, pointwise_succ (s := s) (by simp [SamplerState.record]) (by simp [SamplerState.record]) b b1 hb]
      simp [SamplerState.record, h, Nat.succ_min_succ]

theorem randomLoopBar_pointwise (o : Objective C K) (samples : Draws C) : ∀ (k i : Nat) (s : SamplerState C K S) (b : Bar),
    Pointwise 0 s b (randomLoopBar o samples i k s (some b))
  | 0, _, _, _ => .stop le_rfl le_rfl (by simp)
  | k + 1, i, s, b => by
    simp only [randomLoopBar]
    split
    · exact .stop le_rfl le_rfl (by simp)
    · split
      · exact .stop le_rfl le_rfl (by simp)
      · next c _ _ v _ =>
        refine Pointwise.step (s1 := s.tick.record c v) (by simp [SamplerState.tick, SamplerState.record])
          (by simp [SamplerState.tick, SamplerState.record]) fun b1 hb => ?_
        rw [hb]
        exact randomLoopBar_pointwise o samples k _ _ _

theorem gridLoopBar_pointwise [DecidableEq C] (o : Objective C K) (target : Nat) : ∀ (g : List C) (s : SamplerState C K (GridExtra C G)) (b : Bar),
    Pointwise 0 s b (gridLoopBar o target g s (some b))
  | [], s, b => by simp only [gridLoopBar]; split <;> exact .stop le_rfl le_rfl (by simp)
  | c :: rest, s, b => by
    simp only [gridLoopBar]
    split
    · split
      · exact gridLoopBar_pointwise o target rest { s with extra := { s.extra with grid := some rest } } b
      · split
        · exact .stop le_rfl le_rfl (by simp)
        · next v _ =>
          refine Pointwise.step (s1 := (SamplerState.record { s with extra := { s.extra with grid := some rest } } c v).tick)
            (by simp [SamplerState.tick, SamplerState.record]) (by simp [SamplerState.tick, SamplerState.record]) fun b1 hb => ?_
          rw [hb]
          exact gridLoopBar_pointwise o target rest _ _
    · exact .stop le_rfl le_rfl (by simp)

theorem fitSurrogate_lengths (env : BOEnv C K M S) {force : Bool} {s s' : BOState C K M S} {e : Option PyErr} (h : fitSurrogate env force s = (s', e)) :
    s'.configs.length = s.configs.length ∧ s'.ys.length = s.ys.length := by
  obtain ⟨h1, h2, _⟩ := fitSurrogate_fst env force s
  rw [h] at h1 h2
  exact ⟨congrArg _ h1, congrArg _ h2⟩

theorem boLoopBar_pointwise [LinearOrder K] (o : Objective C K) (env : BOEnv C K M S) : ∀ (k : Nat) (s : BOState C K M S) (b : Bar),
    Pointwise 1 s b (boLoopBar o env k s (some b))
  | 0, _, _ => .stop le_rfl (by omega) (by simp)
  | k + 1, s, b => by
    simp only [boLoopBar]
    split
    · next s' e h =>
      obtain ⟨h1, h2⟩ : s.ys.length ≤ s'.ys.length ∧ s'.ys.length ≤ s.ys.length + 1 := by
        simp only [boStep] at h
        split at h
        · cases h; simp
        · split at h
          · cases h; simp
          · cases h; simp
          · split at h
            · cases h; simp [SamplerState.tick]
            · have := (fitSurrogate_lengths env h).2
              simp [SamplerState.tick, SamplerState.record] at this
              omega
      exact .stop h1 h2 (by simp)
    · next s' h =>
      obtain ⟨h1, h2⟩ : s'.configs.length = s.configs.length + 1 ∧ s'.ys.length = s.ys.length + 1 := by
        simp only [boStep] at h
        split at h
        · cases h
        · split at h
          · cases h
          · cases h
          · split at h
            · cases h
            · have := fitSurrogate_lengths env h
              simpa [SamplerState.tick, SamplerState.record] using this
      refine Pointwise.step h1 h2 fun b1 hb => ?_
      rw [hb]
      exact boLoopBar_pointwise o env k s' b1

theorem boAcquireBar_pointwise [LinearOrder K] (o : Objective C K) (env : BOEnv C K M S) (k : Nat) (s : BOState C K M S) (b : Bar) :
    Pointwise 1 s b (boAcquireBar o env s (some b) k) := by
  simp only [boAcquireBar]
  split
  · next s' e h =>
    obtain ⟨f1, f2⟩ := fitSurrogate_lengths env h
    exact .stop (by omega) (by omega) (by simp)
  · next s' h =>
    obtain ⟨f1, f2⟩ := fitSurrogate_lengths env h
    obtain ⟨j, h1, h2, h3, h4⟩ := boLoopBar_pointwise o env k s' b
    refine ⟨j, ?_, by omega, by omega, by rw [← f1, ← f2]; exact h4⟩
    rw [h1]
    simp only [pointwise, f1, f2]

/-- the two ways a call with a bar goes: the cache serves it, or the subclass is asked for everything -/
theorem sampleBar_cases {cls name : String} (inner : SamplerState C K X → Pbar → Int → BarRun C K X) (s : SamplerState C K X) (n : Int) :
    ((s.configs.length : Int) + n ≤ s.cache.length ∧
      sampleBar cls (some name) inner true s n = ((useCache n.toNat s).1,
        Pbar.close (some (pointwise s ⟨cls ++ "(" ++ name ++ ")", n, 0, [], 0⟩ n.toNat)), none)) ∨
    ((s.cache.length : Int) < s.configs.length + n ∧ n ≤ 0 ∧
      sampleBar cls (some name) inner true s n = (s.clearCache, Pbar.close (some ⟨cls ++ "(" ++ name ++ ")", n, 0, [], 0⟩), none)) ∨
    ((s.cache.length : Int) < s.configs.length + n ∧ 0 < n ∧
      sampleBar cls (some name) inner true s n =
        match inner s.clearCache (some ⟨cls ++ "(" ++ name ++ ")", n, 0, [], 0⟩) n with
        | (s3, b3, some e) => (s3, b3, some e)
        | (s3, b3, none) => (s3, b3.close, none)) := by
  have hb : openBar true cls (some name) n = .ok (some ⟨cls ++ "(" ++ name ++ ")", n, 0, [], 0⟩) := rfl
  obtain ⟨b0, hb0⟩ : ∃ b0 : Bar, b0 = ⟨cls ++ "(" ++ name ++ ")", n, 0, [], 0⟩ := ⟨_, rfl⟩
  rw [← hb0] at hb ⊢
  unfold sampleBar
  rw [hb]
  dsimp only
  rcases le_or_gt ((s.configs.length : Int) + n) s.cache.length with hle | hlt
  · left
    refine ⟨hle, ?_⟩
    rw [if_neg (show ¬ (s.configs.length : Int) + n > s.cache.length by omega), useCacheBar_pointwise]
    have h1 := useCacheBar_erase n.toNat s (some b0)
    have h2 := useCache_eq n.toNat s
    have h3 : min n.toNat s.cache.length = n.toNat := by omega
    rw [h3] at h2
    rw [h2] at h1
    rw [h3, (Prod.mk.inj h1).1, (Prod.mk.inj h1).2, h2, if_neg (by omega)]
  · right
    have hu : useCacheBar n.toNat s.clearCache (some b0) = (s.clearCache, some b0, 0) := by
      cases n.toNat <;> rfl
    rw [if_pos (show (s.configs.length : Int) + n > s.cache.length by omega), hu]
    rcases le_or_gt n 0 with h0 | h0
    · left
      exact ⟨hlt, h0, by rw [if_neg (by simpa using h0)]⟩
    · right
      refine ⟨hlt, h0, ?_⟩
      rw [if_pos (by simpa using h0)]
      simp only [Nat.cast_zero, sub_zero]
      match inner s.clearCache (some b0) n with
      | (s3, b3, some e) => rfl
      | (s3, b3, none) => rfl

theorem pointwise_facts {cls name : String} {n : Int} {s s' : SamplerState C K X} {k : Nat} (hk : s.ys.length + k ≤ s'.ys.length) :
    BarFacts cls name n s s' 1 (pointwise s ⟨cls ++ "(" ++ name ++ ")", n, 0, [], 0⟩ k) where
  desc := rfl
  total := rfl
  counts := by
    refine ⟨k, by simp [pointwise], ?_⟩
    simp only [pointwise, List.nil_append, List.map_map, countsFrom, Nat.add_sub_cancel, List.range'_eq_map_range]
    refine List.map_congr_left fun i _ => ?_
    simp [Function.comp, add_comm]
  truthful := by
    intro m hm
    simp only [pointwise, List.nil_append, List.mem_map] at hm
    obtain ⟨i, -, rfl⟩ := hm
    simp
  recorded := by simp only [pointwise]; omega

theorem Spec.BarFacts.close {cls name : String} {n : Int} {s s' : SamplerState C K X} {first : Nat} {bar : Bar}
    (h : BarFacts cls name n s s' first bar) : BarFacts cls name n s s' first { bar with closed := bar.closed + 1 } :=
  ⟨h.1, h.2, h.3, h.4, h.5⟩

theorem pointwise_call {cls name : String} {inner : SamplerState C K X → Pbar → Int → BarRun C K X}
    (hi : ∀ s b n, Pointwise 0 s b (inner s (some b) n))
    (hn : ∀ s b n s' b', 0 < n → inner s b n = (s', b', none) → s'.ys.length = s.ys.length + n.toNat) {s s' : SamplerState C K X} {n : Int}
    {b : Pbar} {e : Option PyErr} (h : sampleBar cls (some name) inner true s n = (s', b, e)) :
    ∃ bar, b = some bar ∧ BarFacts cls name n s s' 1 bar ∧ bar.shown + s.ys.length = s'.ys.length ∧
      (e = none → bar.shown = max n 0 ∧ bar.closed = 1) ∧ (e ≠ none → bar.closed = 0) := by
  rcases sampleBar_cases (cls := cls) (name := name) inner s n with ⟨h1, h2⟩ | ⟨h1, h2, h3⟩ | ⟨h1, h2, h3⟩
  · rw [h2] at h
    cases h
    refine ⟨_, rfl, (pointwise_facts ?_).close, ?_, fun _ => ⟨?_, rfl⟩, fun h => absurd rfl h⟩
    · rw [useCache_eq]; simp only [List.length_append, List.length_map, List.length_take]; omega
    · rw [useCache_eq]; simp only [pointwise, List.length_append, List.length_map, List.length_take]; omega
    · simp only [pointwise]; omega
  · rw [h3] at h
    cases h
    refine ⟨_, rfl, ?_, ?_, fun _ => ⟨?_, rfl⟩, fun h => absurd rfl h⟩
    · have := pointwise_facts (cls := cls) (name := name) (n := n) (s := s) (s' := s.clearCache) (k := 0) (by simp [SamplerState.clearCache])
      rw [pointwise_zero] at this
      exact this.close
    · simp [SamplerState.clearCache]
    · simp only; omega
  · rw [h3] at h
    obtain ⟨k, p1, p2, p3, p4⟩ := hi s.clearCache ⟨cls ++ "(" ++ name ++ ")", n, 0, [], 0⟩ n
    obtain ⟨r, hr⟩ : ∃ r, r = inner s.clearCache (some ⟨cls ++ "(" ++ name ++ ")", n, 0, [], 0⟩) n := ⟨_, rfl⟩
    rw [← hr] at h p1 p2 p3 p4
    obtain ⟨s3, b3, e3⟩ := r
    dsimp only at p1 p2 p3 p4
    subst p1
    have hf : BarFacts cls name n s s3 1 (pointwise s ⟨cls ++ "(" ++ name ++ ")", n, 0, [], 0⟩ k) :=
      pointwise_facts (by simpa [SamplerState.clearCache] using p2)
    have hrec : (k : Int) + s.ys.length = s3.ys.length := by
      simp only [SamplerState.clearCache] at p2 p3; omega
    cases e3 with
    | some e' =>
      cases h
      exact ⟨_, rfl, hf, by simpa [pointwise] using hrec, ⟨fun h => (by cases h), fun _ => rfl⟩⟩
    | none =>
      cases h
      refine ⟨_, rfl, hf.close, by simpa [pointwise] using hrec, fun _ => ⟨?_, rfl⟩, fun h => absurd rfl h⟩
      have := hn _ _ _ _ _ h2 hr.symm
      simp only [SamplerState.clearCache] at this
      simp only [pointwise]; omega

/-- **C121** the bar of a RandomSampler or GridSampler counts, whatever the outcome, from 1 on, once after every point the call records, and ends
at the number of points (with values) the call recorded. It is closed exactly if the call returns normally, and then shows `n` (0 for
negative `n`). -/
theorem C121_random_grid [DecidableEq C] [LinearOrder K] {o : Objective C K} {cls name : String}
    {plain : SamplerState C K X → Int → SamplerState C K X × Option PyErr} {barred : Bool → SamplerState C K X → Int → BarRun C K X}
    (hs : ShowsProgress o (some name) cls X plain barred) (hc : cls ≠ "BayesianOptimizationSampler") {s s' : SamplerState C K X} {n : Int}
    {b : Pbar} {e : Option PyErr} (h : barred true s n = (s', b, e)) :
    ∃ bar, b = some bar ∧ BarFacts cls name n s s' 1 bar ∧ bar.shown + s.ys.length = s'.ys.length ∧
      (e = none → bar.shown = max n 0 ∧ bar.closed = 1) ∧ (e ≠ none → bar.closed = 0) := by
  cases hs with
  | random d =>
    refine pointwise_call (fun s b n => ?_) (fun s b n s' b' _ h => ?_) h
    · exact randomLoopBar_pointwise o _ _ _ { s with extra := (d.sampleConfiguration s.extra n).2 } b
    · obtain ⟨cs, h1, -, h3⟩ := randomSample_spec o d s n
      have he := randomLoopBar_erase o (d.sampleConfiguration s.extra n).1 n.toNat 0 { s with extra := (d.sampleConfiguration s.extra n).2 } b
      have hr : randomSample o d s n = (s', none) := by
        rw [show randomSample o d s n = _ from he.symm]
        simp only [randomSampleBar] at h
        rw [h]
      rw [hr] at h1 h3
      rw [h1.2]
      simp [h3 rfl]
  | grid env =>
    refine pointwise_call (fun s b n => ?_) (fun s b n s' b' _ h => ?_) h
    · simp only [gridSampleBar]
      rcases gridPrepare_spec env s ((s.configs.length : Int) + n).toNat with ⟨g, s1, hp, h1, h2, -⟩ | ⟨hp, -⟩
      · rw [hp]
        obtain ⟨k, p1, p2, p3, p4⟩ := gridLoopBar_pointwise o ((s.configs.length : Int) + n).toNat g s1 b
        rw [h2] at p2 p3 p4
        rw [h1] at p4
        refine ⟨k, ?_, p2, p3, p4⟩
        rw [p1]
        simp only [pointwise, h1, h2]
      · rw [hp]
        exact .stop le_rfl le_rfl (by simp)
    · obtain ⟨-, -, h3⟩ := gridSample_spec o env s n
      have he := gridSampleBar_erase o env s b n
      rw [h] at he
      rw [← he] at h3
      obtain ⟨cs, h4, h5⟩ := h3 rfl
      rw [h4.2]
      simp [h5]
  | bo env => exact absurd rfl hc

theorem boInitial_lengths (o : Objective C K) (env : BOEnv C K M S) {s s' : BOState C K M S} {n : Int} {e : Option PyErr}
    (h : boInitial o env s n = (s', e)) :
    (s'.ys.length = s.ys.length ∧ e ≠ none) ∨
    (s'.ys.length = s.ys.length + (min env.initialPoints n).toNat ∧ s'.configs.length = s.configs.length + (min env.initialPoints n).toNat) := by
  simp only [boInitial] at h
  split at h
  · cases h; exact .inl ⟨rfl, by simp⟩
  · next t vs h1 =>
    right
    obtain ⟨f1, f2⟩ := fitSurrogate_lengths env h
    have hl := sampleConfiguration_length env.drawer s.extra.rng (min env.initialPoints n)
    have hv := evalAll_ok (by rw [h1])
    rw [f1, f2, hv]
    simp [hl]

/-- a bar that jumps to `j` and then counts single points -/
theorem jump_facts {cls name : String} {n : Int} {s s1 s' : SamplerState C K X} {j k : Nat} (hc : s1.configs.length = s.configs.length + j)
    (hy : s1.ys.length = s.ys.length + j) (hk : s1.ys.length + k ≤ s'.ys.length) {b1 : Bar}
    (hb : Pbar.update (some ⟨cls ++ "(" ++ name ++ ")", n, 0, [], 0⟩) s1 (j : Int) = some b1) :
    BarFacts cls name n s s' j (pointwise s1 b1 k) := by
  simp only [Pbar.update, Option.map_some, Option.some.injEq] at hb
  subst hb
  refine ⟨rfl, rfl, ⟨j + k, by simp [pointwise], ?_⟩, ?_, ?_⟩
  · simp only [pointwise, countsFrom, List.nil_append, List.map_append, List.map_cons, List.map_nil, List.map_map, zero_add]
    rw [show j + k + 1 - j = k + 1 by omega, List.range'_eq_map_range, List.range_succ_eq_map]
    simp only [List.map_cons, List.map_map, List.singleton_append, List.cons.injEq]
    refine ⟨by simp, List.map_congr_left fun i _ => ?_⟩
    simp [Function.comp]
  · intro m hm
    simp only [pointwise, List.nil_append, List.singleton_append, List.mem_cons, List.mem_map] at hm
    rcases hm with rfl | ⟨i, -, rfl⟩
    · simp [hc, hy]
    · simp only [hc, hy]; push_cast; constructor <;> ring
  · simp only [pointwise]; omega

/-- **C121** the bar of a BayesianOptimizationSampler: the first update of a call that samples initial points counts all of them, every other update counts one
point. A call that returns normally leaves the bar closed and showing `n` (0 for negative `n`). A call that raises leaves it open (unless it is the last fit of the
surrogate, after the bar is complete and closed, that raises); then the bar shows all points the call recorded, or all but the last one, or none of the initial
points. -/
theorem C121_bayesian [LinearOrder K] {o : Objective C K} {name : String} (env : BOEnv C K M S) {s s' : BOState C K M S} {n : Int} {b : Pbar}
    {e : Option PyErr} (h : boSampleBar (some name) o env true s n = (s', b, e)) :
    ∃ bar, b = some bar ∧
      BarFacts "BayesianOptimizationSampler" name n s s'
        (if (s.configs.length : Int) + n ≤ s.cache.length ∨ n ≤ 0 ∨ env.initialPoints ≤ s.configs.length then 1 else (min env.initialPoints n).toNat) bar ∧
      (e = none → bar.shown = max n 0 ∧ bar.closed = 1) ∧
      (bar.closed = 0 ∨ bar.closed = 1 ∧ bar.shown = max n 0) ∧
      ((s'.ys.length : Int) ≤ s.ys.length + bar.shown + 1 ∨
        bar.shown = 0 ∧ bar.closed = 0 ∧ s'.ys.length = s.ys.length + (min env.initialPoints n).toNat) := by
  unfold boSampleBar at h
  -- the fit at the end changes neither the bar nor the recorded points
  have last : ∀ {s1 s2 : BOState C K M S} {first : Nat} {bar : Bar} {e1 : Option PyErr}, fitSurrogate env false s1 = (s2, e1) →
      BarFacts "BayesianOptimizationSampler" name n s s1 first bar → BarFacts "BayesianOptimizationSampler" name n s s2 first bar := by
    intro s1 s2 first bar e1 hf hb
    exact ⟨hb.1, hb.2, hb.3, hb.4, by rw [(fitSurrogate_lengths env hf).2]; exact hb.5⟩
  rcases sampleBar_cases (cls := "BayesianOptimizationSampler") (name := name) (boInnerBar o env) s n with ⟨h1, h2⟩ | ⟨h1, h2, h3⟩ | ⟨h1, h2, h3⟩
  · rw [h2] at h
    dsimp only at h
    obtain ⟨r, hr⟩ : ∃ r, r = fitSurrogate env false (useCache n.toNat s).1 := ⟨_, rfl⟩
    rw [← hr] at h
    obtain ⟨s2, e2⟩ := r
    cases h
    have hy := (fitSurrogate_lengths env hr.symm).2
    rw [useCache_eq] at hy
    simp only [List.length_append, List.length_map, List.length_take] at hy
    refine ⟨_, rfl, ?_, fun _ => ⟨?_, rfl⟩, .inr ⟨rfl, ?_⟩, .inl ?_⟩
    · rw [if_pos (.inl h1)]
      exact (pointwise_facts (by dsimp only; omega)).close
    · simp only [pointwise]; omega
    · simp only [pointwise]; omega
    · simp only [pointwise]; omega
  · rw [h3] at h
    dsimp only at h
    obtain ⟨r, hr⟩ : ∃ r, r = fitSurrogate env false s.clearCache := ⟨_, rfl⟩
    rw [← hr] at h
    obtain ⟨s2, e2⟩ := r
    cases h
    have hy := (fitSurrogate_lengths env hr.symm).2
    simp only [SamplerState.clearCache] at hy
    refine ⟨_, rfl, ?_, fun _ => ⟨?_, rfl⟩, .inr ⟨rfl, ?_⟩, .inl ?_⟩
    · rw [if_pos (.inr (.inl h2))]
      have := pointwise_facts (cls := "BayesianOptimizationSampler") (name := name) (n := n) (s := s) (s' := s2) (k := 0) (by omega)
      rw [pointwise_zero] at this
      exact this.close
    · simp only; omega
    · simp only; omega
    · simp only; omega
  · obtain ⟨b0, hb0⟩ : ∃ b0 : Bar, b0 = ⟨"BayesianOptimizationSampler" ++ "(" ++ name ++ ")", n, 0, [], 0⟩ := ⟨_, rfl⟩
    rw [h3, ← hb0] at h
    -- what the subclass does
    have key : ∀ s3 b3 e3, boInnerBar o env s.clearCache (some b0) n = (s3, b3, e3) → ∃ bar, b3 = some bar ∧ bar.closed = 0 ∧
        BarFacts "BayesianOptimizationSampler" name n s s3
          (if (s.configs.length : Int) + n ≤ s.cache.length ∨ n ≤ 0 ∨ env.initialPoints ≤ s.configs.length then 1 else (min env.initialPoints n).toNat) bar ∧
        (e3 = none → bar.shown = n ∧ (s3.ys.length : Int) = s.ys.length + bar.shown) ∧
        ((s3.ys.length : Int) ≤ s.ys.length + bar.shown + 1 ∨
          bar.shown = 0 ∧ s3.ys.length = s.ys.length + (min env.initialPoints n).toNat) := by
      intro s3 b3 e3 hi
      have hsp : e3 = none → s3.ys.length = s.ys.length + n.toNat := by
        intro he
        obtain ⟨cs, g1, -, g3⟩ := boInner_spec o env s.clearCache n h2
        have ge := boInnerBar_erase o env s.clearCache (some b0) n
        rw [hi] at ge
        rw [← ge] at g1 g3
        rw [g1.2]
        simp [g3 he, SamplerState.clearCache]
      simp only [boInnerBar] at hi
      split at hi
      · next hlt =>
        simp only [SamplerState.clearCache] at hlt
        rw [if_neg (by omega)]
        split at hi
        · next s1 e1 hi1 =>
          cases hi
          refine ⟨_, rfl, by rw [hb0], ?_, fun h => (by cases h), ?_⟩
          · have hle : s.ys.length ≤ s3.ys.length := by
              rcases boInitial_lengths o env hi1 with ⟨g, -⟩ | ⟨g, -⟩ <;> simp only [SamplerState.clearCache] at g <;> omega
            subst hb0
            refine ⟨rfl, rfl, ⟨0, rfl, ?_⟩, by simp, by simpa using hle⟩
            simp only [countsFrom, List.map_nil]
            rw [show 0 + 1 - (min env.initialPoints n).toNat = 0 by omega]
            rfl
          · rcases boInitial_lengths o env hi1 with ⟨g, -⟩ | ⟨g, -⟩
            · left; subst hb0; simp only [SamplerState.clearCache] at g; simp only; omega
            · right; subst hb0; exact ⟨rfl, by simpa [SamplerState.clearCache] using g⟩
        · next s1 hi1 =>
          rcases boInitial_lengths o env hi1 with ⟨-, g⟩ | ⟨g1, g2⟩
          · exact absurd rfl g
          · simp only [SamplerState.clearCache] at g1 g2
            have hj : (s1.configs.length : Int) - s.clearCache.configs.length = ((min env.initialPoints n).toNat : Int) := by
              simp only [SamplerState.clearCache]; omega
            rw [hj] at hi
            obtain ⟨b1, hb1⟩ : ∃ b1, Pbar.update (some b0) s1 ((min env.initialPoints n).toNat : Int) = some b1 := ⟨_, rfl⟩
            rw [hb1] at hi
            obtain ⟨k, p1, p2, p3, p4⟩ := boAcquireBar_pointwise o env (n - ((min env.initialPoints n).toNat : Int)).toNat s1 b1
            rw [hi] at p1 p2 p3 p4
            dsimp only at p1 p2 p3 p4
            have hshown : (pointwise s1 b1 k).shown = (min env.initialPoints n).toNat + k := by
              simp only [Pbar.update, Option.map_some, Option.some.injEq] at hb1
              rw [← hb1, hb0]
              simp [pointwise]
            refine ⟨_, p1, ?_, ?_, fun he => ?_, .inl ?_⟩
            · simp only [Pbar.update, Option.map_some, Option.some.injEq] at hb1
              rw [← hb1, hb0]
              rfl
            · rw [hb0] at hb1
              exact jump_facts g2 g1 p2 hb1
            · have a1 := hsp he
              have a2 := (p4 he).1
              rw [hshown]
              omega
            · rw [hshown]; omega
      · next hlt =>
        simp only [SamplerState.clearCache] at hlt
        rw [if_pos (.inr (.inr (by omega)))]
        obtain ⟨k, p1, p2, p3, p4⟩ := boAcquireBar_pointwise o env n.toNat s.clearCache b0
        rw [hi] at p1 p2 p3 p4
        dsimp only at p1 p2 p3 p4
        have hshown : (pointwise s.clearCache b0 k).shown = k := by
          rw [hb0]; simp [pointwise]
        simp only [SamplerState.clearCache] at p2 p3 p4
        refine ⟨_, p1, by rw [hb0]; rfl, ?_, fun he => ?_, .inl ?_⟩
        · rw [hb0]; exact pointwise_facts (by omega)
        · have a1 := hsp he
          have a2 := (p4 he).1
          rw [hshown]
          omega
        · rw [hshown]; omega
    obtain ⟨r, hr⟩ : ∃ r, r = boInnerBar o env s.clearCache (some b0) n := ⟨_, rfl⟩
    rw [← hr] at h
    obtain ⟨s3, b3, e3⟩ := r
    obtain ⟨bar, k1, k2, k3, k4, k5⟩ := key s3 b3 e3 hr.symm
    cases e3 with
    | some e' =>
      cases h
      exact ⟨bar, k1, k3, fun h => (by cases h), .inl k2, k5.imp id fun h => ⟨h.1, k2, h.2⟩⟩
    | none =>
      dsimp only at h
      obtain ⟨r, hf⟩ : ∃ r, r = fitSurrogate env false s3 := ⟨_, rfl⟩
      rw [← hf] at h
      obtain ⟨s4, e4⟩ := r
      cases h
      have hl := (fitSurrogate_lengths env hf.symm).2
      obtain ⟨k6, k7⟩ := k4 rfl
      subst k1
      refine ⟨_, rfl, last hf.symm k3.close, fun _ => ⟨?_, ?_⟩, .inr ⟨?_, ?_⟩, .inl ?_⟩
      · simp only; omega
      · simp only [k2]
      · simp only [k2]
      · simp only; omega
      · simp only; omega

/-! ### concrete calls -/

/-- three points of a RandomSampler -/
example : (randomSamplerBar (some "f") plainObjective countingDrawer true randomStart 3).2 =
    (some ⟨"RandomSampler(f)", 3, 3, [⟨1, 1, 1⟩, ⟨2, 2, 2⟩, ⟨3, 3, 3⟩], 1⟩, none) := by decide +kernel

/-- raises at the third call -/
def failsThird : Objective Nat Int := ⟨fun c => 10 * c, fun t _ => if t = 2 then some .user else none⟩

/-- an objective that raises at the third call: the bar stays open at 2; a GridSampler has three configurations then -/
example :
    (randomSamplerBar (some "f") failsThird countingDrawer true randomStart 3).2 =
      (some ⟨"RandomSampler(f)", 3, 2, [⟨1, 1, 1⟩, ⟨2, 2, 2⟩], 0⟩, some .user) ∧
    (gridSamplerBar (some "f") failsThird natGrid true gridStart 3).2 =
      (some ⟨"GridSampler(f)", 3, 2, [⟨1, 1, 1⟩, ⟨2, 2, 2⟩], 0⟩, some .user) ∧
    (gridSamplerBar (some "f") failsThird natGrid true gridStart 3).1.configs.length = 3 := by
  decide +kernel

/-- seven points of a BayesianOptimizationSampler with five initial points: the first update counts five points. An objective that raises at the third initial point
leaves the bar at 0; one without a name makes the call raise only if the progress is shown. -/
example :
    (boSampleBar (some "f") plainObjective sampleEnv true (freshBO (0, 0) 0) 7).2 =
      (some ⟨"BayesianOptimizationSampler(f)", 7, 7, [⟨5, 5, 5⟩, ⟨6, 6, 6⟩, ⟨7, 7, 7⟩], 1⟩, none) ∧
    (boSampleBar (some "f") failsThird sampleEnv true (freshBO (0, 0) 0) 7).2 =
      (some ⟨"BayesianOptimizationSampler(f)", 7, 0, [], 0⟩, some .user) ∧
    (boSampleBar none plainObjective sampleEnv true (freshBO (0, 0) 0) 7).2 = (none, some .attribute) ∧
    (boSampleBar none plainObjective sampleEnv false (freshBO (0, 0) 0) 7).2 = (none, none) := by
  decide +kernel

end PyPDP
