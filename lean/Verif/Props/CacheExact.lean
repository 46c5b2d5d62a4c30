/-
C22, C24, C25, exact forms: what happens to every sequence of sample calls on a cached sampler, how many points a save
leaves on disk, and when two cache keys coincide.
-/
import Verif.Props.Cache
import Verif.Props.RandomGrid

namespace PyPDP
open Spec
variable {C K X S V : Type}

/-! ### helper lemmas -/

/-- the state with `a`, `b` put in front of its recorded configurations and values -/
def SamplerState.behind (s : SamplerState C K X) (a : List C) (b : List K) : SamplerState C K X :=
  ⟨a ++ s.configs, b ++ s.ys, s.cache, s.calls, s.extra⟩

theorem randomLoop_behind (o : Objective C K) (samples : Draws C) (a : List C) (b : List K) (k i : Nat)
    (s : SamplerState C K S) :
    randomLoop o samples i k (s.behind a b) =
      ((randomLoop o samples i k s).1.behind a b, (randomLoop o samples i k s).2) := by
  induction k generalizing i s with
  | zero => rfl
  | succ k ih =>
    unfold randomLoop
    cases samples.get i with
    | error e => rfl
    | ok c =>
      dsimp only
      have hc : (s.behind a b).calls = s.calls := rfl
      rw [hc]
      cases o.eval s.calls c with
      | error e => rfl
      | ok v =>
        dsimp only
        have : ((s.behind a b).tick).record c v = ((s.tick).record c v).behind a b := by
          simp [SamplerState.behind, SamplerState.tick, SamplerState.record, List.append_assoc]
        rw [this, ih]

theorem randomLoop_cache (o : Objective C K) (samples : Draws C) (k i : Nat) (s : SamplerState C K S) :
    (randomLoop o samples i k s).1.cache = s.cache := by
  induction k generalizing i s with
  | zero => rfl
  | succ k ih =>
    unfold randomLoop
    cases samples.get i with
    | error e => rfl
    | ok c =>
      dsimp only
      cases o.eval s.calls c with
      | error e => rfl
      | ok v => dsimp only; rw [ih]; rfl

theorem randomSampler_behind (o : Objective C K) (d : Drawer C S) (a : List C) (b : List K) (s : SamplerState C K S)
    (hc : s.cache = []) (n : Int) :
    randomSampler o d (s.behind a b) n = ((randomSampler o d s n).1.behind a b, (randomSampler o d s n).2) ∧
      (randomSampler o d s n).1.cache = [] := by
  rw [randomSampler, sampleWith_nocache _ (s.behind a b) hc, sampleWith_nocache _ s hc]
  by_cases h : 0 < n
  · rw [if_pos h, if_pos h]
    unfold randomSample
    have he : (s.behind a b).extra = s.extra := rfl
    rw [he]
    obtain ⟨p, hp⟩ : ∃ p, p = d.sampleConfiguration s.extra n := ⟨_, rfl⟩
    rw [← hp]
    obtain ⟨samples, r⟩ := p
    dsimp only
    refine ⟨?_, ?_⟩
    · exact randomLoop_behind o samples a b n.toNat 0 { s with extra := r }
    · rw [randomLoop_cache]; exact hc
  · rw [if_neg h, if_neg h]; exact ⟨rfl, hc⟩

theorem srun_behind (o : Objective C K) (d : Drawer C S) (a : List C) (b : List K) (ns : List Nat) (s : SamplerState C K S)
    (hc : s.cache = []) :
    srun (randomSampler o d) (s.behind a b) (ns.map fun n : Nat => .sample n) =
      ((srun (randomSampler o d) s (ns.map fun n : Nat => .sample n)).1.behind a b,
        (srun (randomSampler o d) s (ns.map fun n : Nat => .sample n)).2) := by
  induction ns generalizing s with
  | nil => rfl
  | cons n ns ih =>
    obtain ⟨h1, h2⟩ := randomSampler_behind o d a b s hc n
    simp only [List.map_cons, srun, sstep]
    rw [h1]
    dsimp only
    rw [ih _ h2]

/-! ### C22 -/

/-- **C22**, what every sequence of sample calls on a RandomSampler with a cache does, whether or not calls raise: a first part
of the calls fits (each asks for at most `size - 2 × points already taken` points) and replays the cached points in order;
from the first call on that does not fit, the sampler behaves like one **without** cache **starting from scratch**, with its
results written behind the replayed ones. -/
theorem C22_random_exact (o : Objective C K) (d : Drawer C S) (s : SamplerState C K S)
    (hfresh : s.configs = [] ∧ s.ys = []) (ns : List Nat) :
    ∃ a b, ns = a ++ b ∧ ReplayFits s.cache.length 0 a ∧ (∀ m b', b = m :: b' → s.cache.length < 2 * a.sum + m) ∧
      (srun (randomSampler o d) s (ns.map fun n : Nat => .sample n)).1.configs = (s.cache.take a.sum).map Prod.fst ++
        (srun (randomSampler o d) { s with cache := [] } (b.map fun n : Nat => .sample n)).1.configs ∧
      (srun (randomSampler o d) s (ns.map fun n : Nat => .sample n)).1.ys = (s.cache.take a.sum).map Prod.snd ++
        (srun (randomSampler o d) { s with cache := [] } (b.map fun n : Nat => .sample n)).1.ys ∧
      (srun (randomSampler o d) s (ns.map fun n : Nat => .sample n)).2 = a.map (fun _ => none) ++
        (srun (randomSampler o d) { s with cache := [] } (b.map fun n : Nat => .sample n)).2 := by
  have key : ∀ (L : List (C × K)) (done : Nat), done ≤ L.length →
      ∃ a b, ns = a ++ b ∧ ReplayFits L.length done a ∧ (∀ m b', b = m :: b' → L.length < 2 * (done + a.sum) + m) ∧
      (srun (randomSampler o d) ⟨(L.take done).map Prod.fst, (L.take done).map Prod.snd, L.drop done, s.calls, s.extra⟩
        (ns.map fun n : Nat => .sample n)).1.configs = (L.take (done + a.sum)).map Prod.fst ++
        (srun (randomSampler o d) { s with cache := [] } (b.map fun n : Nat => .sample n)).1.configs ∧
      (srun (randomSampler o d) ⟨(L.take done).map Prod.fst, (L.take done).map Prod.snd, L.drop done, s.calls, s.extra⟩
        (ns.map fun n : Nat => .sample n)).1.ys = (L.take (done + a.sum)).map Prod.snd ++
        (srun (randomSampler o d) { s with cache := [] } (b.map fun n : Nat => .sample n)).1.ys ∧
      (srun (randomSampler o d) ⟨(L.take done).map Prod.fst, (L.take done).map Prod.snd, L.drop done, s.calls, s.extra⟩
        (ns.map fun n : Nat => .sample n)).2 = a.map (fun _ => none) ++
        (srun (randomSampler o d) { s with cache := [] } (b.map fun n : Nat => .sample n)).2 := by
    intro L
    induction ns with
    | nil =>
      intro done _
      refine ⟨[], [], rfl, trivial, by simp, ?_, ?_, rfl⟩
      · simp [srun, hfresh.1]
      · simp [srun, hfresh.2]
    | cons n ns ih =>
      intro done hd
      by_cases hfit : 2 * done + n ≤ L.length
      · obtain ⟨a, b, h1, h2, h3, h4, h5, h6⟩ := ih (done + n) (by omega)
        have hstep : randomSampler o d
            ⟨(L.take done).map Prod.fst, (L.take done).map Prod.snd, L.drop done, s.calls, s.extra⟩ n =
            (⟨(L.take (done + n)).map Prod.fst, (L.take (done + n)).map Prod.snd, L.drop (done + n), s.calls, s.extra⟩, none) := by
          rw [randomSampler, sampleWith_hit _ (by omega) (by simp [Nat.min_eq_left hd]; omega)]
          simp only [afterHit, Int.toNat_natCast, List.drop_drop, List.take_add, List.map_append]
        refine ⟨n :: a, b, by rw [h1]; rfl, ⟨hfit, h2⟩, ?_, ?_, ?_, ?_⟩
        · intro m b' hb
          have := h3 m b' hb
          rw [List.sum_cons]
          omega
        all_goals simp only [List.map_cons, srun, sstep, hstep, List.sum_cons, ← Nat.add_assoc]
        · exact h4
        · exact h5
        · rw [h6]; rfl
      · have hmiss : randomSampler o d
            ⟨(L.take done).map Prod.fst, (L.take done).map Prod.snd, L.drop done, s.calls, s.extra⟩ n =
            randomSampler o d (({ s with cache := [] } : SamplerState C K S).behind ((L.take done).map Prod.fst)
              ((L.take done).map Prod.snd)) n := by
          rw [randomSampler, sampleWith_miss _ (by simp [Nat.min_eq_left hd]; omega)]
          simp [SamplerState.clearCache, SamplerState.behind, hfresh.1, hfresh.2]
        have hrun : srun (randomSampler o d)
            ⟨(L.take done).map Prod.fst, (L.take done).map Prod.snd, L.drop done, s.calls, s.extra⟩
            ((n :: ns).map fun n : Nat => .sample n) = srun (randomSampler o d)
            (({ s with cache := [] } : SamplerState C K S).behind ((L.take done).map Prod.fst) ((L.take done).map Prod.snd))
            ((n :: ns).map fun n : Nat => .sample n) := by
          simp only [List.map_cons, srun, sstep, hmiss]
        refine ⟨[], n :: ns, rfl, trivial, ?_, ?_, ?_, ?_⟩
        · intro m b' hb
          cases hb
          simp only [List.sum_nil]
          omega
        all_goals rw [hrun, srun_behind _ _ _ _ _ _ rfl]
        · rfl
        · rfl
        · rfl
  have h := key s.cache 0 (by omega)
  have hs : (⟨(s.cache.take 0).map Prod.fst, (s.cache.take 0).map Prod.snd, s.cache.drop 0, s.calls, s.extra⟩ :
      SamplerState C K S) = s := by
    obtain ⟨c, y, ca, k, x⟩ := s
    simp only at hfresh
    simp [hfresh.1, hfresh.2]
  rw [hs] at h
  simpa using h

/-- the calls 4, 4, 4 on ten cached points: only the first fits -/
example : ReplayFits 10 0 [4] ∧ ¬ ReplayFits 10 0 [4, 4] ∧
    (srun (randomSampler plainObjective countingDrawer) (samplerInit natVec tenPoints 0)
      [.sample 4, .sample 4, .sample 4]).1.configs = [0, 1, 2, 3] ++ [0, 1, 2, 3, 4, 5, 6, 7] := by
  refine ⟨by simp [ReplayFits], by simp [ReplayFits], by decide +kernel⟩

/-! ### C24 -/

theorem sampler_miss_cache [DecidableEq C] [LinearOrder K] {o : Objective C K}
    {sample : SamplerState C K X → Int → SamplerState C K X × Option PyErr} (hs : IsSampler o X sample)
    {s : SamplerState C K X} (hc : s.cache = []) (ns : List Nat)
    (hok : ∀ e ∈ (srun sample s (ns.map fun n : Nat => .sample n)).2, e = none) :
    (srun sample s (ns.map fun n : Nat => .sample n)).1.cache = [] ∧
      (srun sample s (ns.map fun n : Nat => .sample n)).1.configs.length = s.configs.length + ns.sum := by
  induction ns generalizing s with
  | nil => exact ⟨hc, rfl⟩
  | cons n ns ih =>
    simp only [List.map_cons, srun, sstep] at hok ⊢
    obtain ⟨p, hp⟩ : ∃ p, p = sample s n := ⟨_, rfl⟩
    rw [← hp] at hok ⊢
    obtain ⟨s', e⟩ := p
    dsimp only at hok ⊢
    obtain rfl := hok e List.mem_cons_self
    obtain ⟨new, h1, ⟨h2, _⟩, _, h5⟩ := sampler_ok hs hp.symm
    have hc' : s'.cache = [] := List.eq_nil_iff_forall_not_mem.2 fun p hp => by
      have := h5 p hp
      rw [hc] at this
      cases this
    obtain ⟨g1, g2⟩ := ih hc' fun e he => hok e (List.mem_cons_of_mem _ he)
    refine ⟨g1, ?_⟩
    rw [g2, h2, List.length_append, List.length_map, h1, List.sum_cons, Int.toNat_natCast, Nat.add_assoc]

/-- **C24**, exactly when a save shrinks the file: after any sequence of successful sample calls on a sampler (of any of the
three classes) that loaded all points of its file, `save_cache` leaves the file's number of points if every call fitted (asked
for at most `size - 2 × points already taken` points), and otherwise exactly as many points as were sampled. -/
theorem C24_exact [DecidableEq C] [LinearOrder K] {o : Objective C K}
    {sample : SamplerState C K X → Int → SamplerState C K X × Option PyErr} (hs : IsSampler o X sample)
    {toVec : C → V} {ofVec : V → Py C} (x : X) (xs : List V) (ys : List K)
    (hvalid : (samplerInit ofVec (.data xs ys) x : SamplerState C K X).cache.length = xs.length) (ns : List Nat)
    (hok : ∀ e ∈ (srun sample (samplerInit ofVec (.data xs ys) x) (ns.map fun n : Nat => .sample n)).2, e = none) :
    (ReplayFits xs.length 0 ns →
      CacheFile.size (saveCache toVec (srun sample (samplerInit ofVec (.data xs ys) x) (ns.map fun n : Nat => .sample n)).1
        (.data xs ys)) = xs.length) ∧
    (¬ ReplayFits xs.length 0 ns →
      CacheFile.size (saveCache toVec (srun sample (samplerInit ofVec (.data xs ys) x) (ns.map fun n : Nat => .sample n)).1
        (.data xs ys)) = ns.sum) := by
  have key : ∀ (size done : Nat) (s : SamplerState C K X), s.configs.length = done → s.cache.length = size - done →
      done ≤ size → (∀ e ∈ (srun sample s (ns.map fun n : Nat => .sample n)).2, e = none) →
      (srun sample s (ns.map fun n : Nat => .sample n)).1.configs.length = done + ns.sum ∧
      (ReplayFits size done ns → (srun sample s (ns.map fun n : Nat => .sample n)).1.cache.length = size - (done + ns.sum) ∧
        done + ns.sum ≤ size) ∧
      (¬ ReplayFits size done ns → (srun sample s (ns.map fun n : Nat => .sample n)).1.cache = [] ∧ 0 < done + ns.sum) := by
    clear hok hvalid
    induction ns with
    | nil => intro size done s h1 h2 h3 _; exact ⟨h1, fun _ => ⟨h2, h3⟩, fun h => absurd trivial h⟩
    | cons n ns ih =>
      intro size done s h1 h2 h3 h4
      by_cases hfit : 2 * done + n ≤ size
      · obtain ⟨g1, _, g3⟩ := sampler_hit hs (s := s) (n := n) (by omega) (by omega)
        have hl : (s.cache.take n).length = n := by rw [List.length_take, h2]; omega
        have := ih size (done + n) (sample s n).1
          (by rw [g1, List.length_append, List.length_map, Int.toNat_natCast, hl, h1])
          (by rw [g3, List.length_drop, h2, Int.toNat_natCast]; omega) (by omega)
          (fun e he => h4 e (by simp only [List.map_cons, srun, sstep]; exact List.mem_cons_of_mem _ he))
        obtain ⟨k1, k2, k3⟩ := this
        simp only [List.map_cons, srun, sstep, List.sum_cons, ReplayFits, ← Nat.add_assoc]
        refine ⟨k1, fun h => k2 h.2, fun h => k3 fun h' => h ⟨hfit, h'⟩⟩
      · have hmiss := sampler_miss hs (s := s) (n := n) (by omega)
        have hrun : srun sample s ((n :: ns).map fun n : Nat => .sample n) =
            srun sample s.clearCache ((n :: ns).map fun n : Nat => .sample n) := by
          simp only [List.map_cons, srun, sstep, hmiss]
        rw [hrun] at h4 ⊢
        obtain ⟨k1, k2⟩ := sampler_miss_cache hs (s := s.clearCache) rfl (n :: ns) h4
        have hcl : s.clearCache.configs = s.configs := rfl
        rw [hcl, h1] at k2
        refine ⟨k2, fun h => absurd h.1 hfit, fun _ => ⟨k1, ?_⟩⟩
        rw [List.sum_cons]
        omega
  obtain ⟨h1, h2, h3⟩ := key xs.length 0 (samplerInit ofVec (.data xs ys) x) rfl (by simpa using hvalid) (by omega) hok
  obtain ⟨t, ht⟩ : ∃ t, t = (srun sample (samplerInit ofVec (.data xs ys) x) (ns.map fun n : Nat => .sample n)).1 := ⟨_, rfl⟩
  rw [← ht] at h1 h2 h3 ⊢
  refine ⟨fun h => ?_, fun h => ?_⟩
  · obtain ⟨g1, g2⟩ := h2 h
    unfold saveCache
    split
    · rfl
    · split
      · rfl
      · simp only [CacheFile.size, List.length_map]; omega
  · obtain ⟨g1, g2⟩ := h3 h
    unfold saveCache
    rw [if_neg (by simp [g1]), if_neg (by omega)]
    simp only [CacheFile.size, List.length_map]
    omega

/-- four points twice on a file of ten: eight are left; three then four: ten are left -/
example : ¬ ReplayFits 10 0 [4, 4] ∧ ReplayFits 10 0 [3, 4] ∧
    CacheFile.size (saveCache id (srun (randomSampler plainObjective countingDrawer) (samplerInit natVec tenPoints 0)
      [.sample 4, .sample 4]).1 tenPoints) = 8 ∧
    CacheFile.size (saveCache id (srun (randomSampler plainObjective countingDrawer) (samplerInit natVec tenPoints 0)
      [.sample 3, .sample 4]).1 tenPoints) = 10 := by
  refine ⟨by simp [ReplayFits], by simp [ReplayFits], by decide +kernel, by decide +kernel⟩

/-! ### C25 -/

/-- **C25**, exactly when two samplers share a cache file: with an injective digest, when the strings of class, config space,
seed, arguments and objective, written one after the other, are the same - whatever the minimisation directions are. -/
theorem C25_exact {md5 : String → String} (hmd5 : Function.Injective md5) (a b : SamplerSpec) :
    cacheKey md5 a.hashInput = cacheKey md5 b.hashInput ↔
      a.cls.toList ++ a.space.toList ++ a.seed.toList ++ a.boArgs.flatMap String.toList ++ a.obj.toList =
      b.cls.toList ++ b.space.toList ++ b.seed.toList ++ b.boArgs.flatMap String.toList ++ b.obj.toList := by
  have hj : ∀ l : List String, (String.join l).toList = l.flatMap String.toList := by
    intro l
    induction l with
    | nil => rfl
    | cons x l ih => rw [String.join_cons, String.toList_append, ih, List.flatMap_cons]
  have ht : ∀ s : SamplerSpec, s.hashInput.text.toList =
      s.cls.toList ++ s.space.toList ++ s.seed.toList ++ s.boArgs.flatMap String.toList ++ s.obj.toList := by
    intro s
    simp only [SamplerSpec.hashInput, HashInput.text, String.join_cons, String.toList_append, hj, List.append_assoc]
  rw [cacheKey, cacheKey, hmd5.eq_iff, ← String.toList_inj, ht, ht]

end PyPDP
