/-
C22-C25: the sampler cache.
-/
import Verif.Props.Sampler

namespace PyPDP
open Spec
variable {C K X V : Type}

/-! ### helper lemmas -/

/-- the state after `n` points were taken from the cache -/
def afterHit (s : SamplerState C K X) (n : Int) : SamplerState C K X :=
  ⟨s.configs ++ (s.cache.take n.toNat).map Prod.fst, s.ys ++ (s.cache.take n.toNat).map Prod.snd, s.cache.drop n.toNat, s.calls,
    s.extra⟩

theorem sampleWith_hit (inner : SamplerState C K X → Int → SamplerState C K X × Option PyErr) {s : SamplerState C K X} {n : Int}
    (hn : 0 ≤ n) (h : (s.configs.length : Int) + n ≤ s.cache.length) :
    sampleWith inner s n = (afterHit s n, none) := by
  have h1 : n.toNat ≤ s.cache.length := by omega
  have h2 : ¬ ((min n.toNat s.cache.length : Nat) : Int) < n := by rw [Nat.min_eq_left h1]; omega
  unfold sampleWith
  simp only [if_neg (not_lt.2 h), useCache_eq, if_neg h2]
  rfl

theorem sampleWith_miss (inner : SamplerState C K X → Int → SamplerState C K X × Option PyErr) {s : SamplerState C K X} {n : Int}
    (h : (s.configs.length : Int) + n > s.cache.length) : sampleWith inner s n = sampleWith inner s.clearCache n := by
  have e : (if (s.clearCache.configs.length : Int) + n > s.clearCache.cache.length then s.clearCache.clearCache else s.clearCache) =
      s.clearCache := by split <;> rfl
  unfold sampleWith
  simp only [if_pos h, e]

theorem sampler_hit [DecidableEq C] [LinearOrder K] {o : Objective C K}
    {sample : SamplerState C K X → Int → SamplerState C K X × Option PyErr} (hs : IsSampler o X sample)
    {s : SamplerState C K X} {n : Int} (hn : 0 ≤ n) (h : (s.configs.length : Int) + n ≤ s.cache.length) :
    (sample s n).1.configs = s.configs ++ (s.cache.take n.toNat).map Prod.fst ∧
    (sample s n).1.ys = s.ys ++ (s.cache.take n.toNat).map Prod.snd ∧
    (sample s n).1.cache = s.cache.drop n.toNat := by
  cases hs with
  | random d => rw [randomSampler, sampleWith_hit _ hn h]; exact ⟨rfl, rfl, rfl⟩
  | grid env => rw [gridSampler, sampleWith_hit _ hn h]; exact ⟨rfl, rfl, rfl⟩
  | bo env =>
    rw [boSample, sampleWith_hit _ hn h]
    obtain ⟨h1, h2, h3, _⟩ := fitSurrogate_fst env false (afterHit s n : BOState C K _ _)
    exact ⟨h1, h2, h3⟩

theorem sampler_miss [DecidableEq C] [LinearOrder K] {o : Objective C K}
    {sample : SamplerState C K X → Int → SamplerState C K X × Option PyErr} (hs : IsSampler o X sample)
    {s : SamplerState C K X} {n : Int} (h : (s.configs.length : Int) + n > s.cache.length) :
    sample s n = sample s.clearCache n := by
  cases hs with
  | random d => exact sampleWith_miss _ h
  | grid env => exact sampleWith_miss _ h
  | bo env => unfold boSample; rw [sampleWith_miss _ h]

theorem loadLoop_map {toVec : C → V} {ofVec : V → Py C} (hround : ∀ c, ofVec (toVec c) = .ok c) (cs : List C) (ys : List K) :
    loadLoop ofVec ((cs.map toVec).zip ys) = cs.zip ys := by
  induction cs generalizing ys with
  | nil => simp [loadLoop]
  | cons c cs ih =>
    cases ys with
    | nil => simp [loadLoop]
    | cons y ys => simp [loadLoop, hround, ih]

/-! ### C23 -/

/-- **C23** `save_cache` writes exactly the sampled configurations and values (when something was sampled and no unused cache
entries remain), and a new sampler reading that file starts with exactly these points in its cache, in order.
`hround` is ConfigSpace's contract that a configuration is determined by its vector. -/
theorem C23_save_load {toVec : C → V} {ofVec : V → Py C} (hround : ∀ c, ofVec (toVec c) = .ok c) (s : SamplerState C K X)
    (hlen : s.configs.length = s.ys.length) (hne : s.configs ≠ []) (hcache : s.cache = []) (file : CacheFile V K) (x : X) :
    saveCache toVec s file = .data (s.configs.map toVec) s.ys ∧
    (samplerInit ofVec (saveCache toVec s file) x).cache.map Prod.fst = s.configs ∧
    (samplerInit ofVec (saveCache toVec s file) x).cache.map Prod.snd = s.ys := by
  have h1 : saveCache toVec s file = .data (s.configs.map toVec) s.ys := by
    rw [saveCache, if_neg (by simp [hcache]), if_neg (by simpa using hne)]
  refine ⟨h1, ?_, ?_⟩
  · rw [h1, samplerInit, loadCache, loadLoop_map hround, List.map_fst_zip hlen.le]
  · rw [h1, samplerInit, loadCache, loadLoop_map hround, List.map_snd_zip hlen.ge]

/-- **C23** nothing is written when nothing was sampled, or while unused cache entries remain. -/
theorem C23_not_written (toVec : C → V) (s : SamplerState C K X) (file : CacheFile V K) (h : s.configs = [] ∨ s.cache ≠ []) :
    saveCache toVec s file = file := by
  unfold saveCache
  split
  · rfl
  · next h1 =>
    rw [if_pos]
    rcases h with h | h
    · simp [h]
    · exact absurd (List.length_pos_iff.2 h) h1

/-- **C23** whatever the file contains, construction succeeds: an unreadable file acts like a missing one, and a file with an
entry that is no configuration gives the (valid) entries before it. -/
theorem C23_corrupt_file (ofVec : V → Py C) (file : CacheFile V K) (x : X) :
    (samplerInit ofVec .corrupt x : SamplerState C K X) = samplerInit ofVec .absent x ∧
    (samplerInit ofVec file x).configs = [] ∧ (samplerInit ofVec file x).ys = [] ∧
    ∀ xs ys, file = .data xs ys → ∃ rest, List.Forall₂ (fun (e : C × K) (d : V × K) => ofVec d.1 = .ok e.1 ∧ e.2 = d.2)
        (samplerInit ofVec file x).cache ((xs.zip ys).take (samplerInit ofVec file x).cache.length) ∧
      xs.zip ys = (xs.zip ys).take (samplerInit ofVec file x).cache.length ++ rest ∧
      ∀ d, rest.head? = some d → ∃ e, ofVec d.1 = .error e := by
  refine ⟨rfl, rfl, rfl, ?_⟩
  rintro xs ys rfl
  have key : ∀ l : List (V × K), ∃ rest, List.Forall₂ (fun (e : C × K) (d : V × K) => ofVec d.1 = .ok e.1 ∧ e.2 = d.2)
        (loadLoop ofVec l) (l.take (loadLoop ofVec l).length) ∧
      l = l.take (loadLoop ofVec l).length ++ rest ∧ ∀ d, rest.head? = some d → ∃ e, ofVec d.1 = .error e := by
    intro l
    induction l with
    | nil => exact ⟨[], by simp [loadLoop], by simp, by simp⟩
    | cons d l ih =>
      obtain ⟨v, y⟩ := d
      unfold loadLoop
      split
      · next e he => exact ⟨(v, y) :: l, by simp, by simp, fun d hd => ⟨e, by cases hd; exact he⟩⟩
      · next c hc =>
        obtain ⟨rest, h1, h2, h3⟩ := ih
        refine ⟨rest, .cons ⟨hc, rfl⟩ h1, ?_, h3⟩
        simpa using h2
  exact key _

example : saveCache id (srun (randomSampler plainObjective countingDrawer) randomStart [.sample 3]).1 (.absent : CacheFile Nat Int)
    = .data [0, 1, 2] ([0, 1, 2].map plainObjective.value) := by decide +kernel
example : (samplerInit (fun v : Nat => if v = 7 then .error .value else .ok v) (.data [1, 2, 7, 3] [10, 20, 70, 30]) () :
    SamplerState Nat Nat Unit).cache = [(1, 10), (2, 20)] := by decide +kernel

/-! ### C22 -/

/-- The calls `ns` are all served by a cache that had `size` entries at the start, `done` of them already taken: each call asks for
at most `size - 2 * done` points. -/
def ReplayFits (size : Nat) : Nat → List Nat → Prop
  | _, [] => True
  | done, n :: ns => 2 * done + n ≤ size ∧ ReplayFits size (done + n) ns

/-- **C22**, partial: as long as every call asks for at most (cache size - 2 × points already taken) points, the calls replay the
recorded run: they return its first points, in order. Missing (false, see `C22_counterexample`): all other call sequences. -/
theorem C22_replay_partial [DecidableEq C] [LinearOrder K] {o : Objective C K}
    {sample : SamplerState C K X → Int → SamplerState C K X × Option PyErr} (hs : IsSampler o X sample)
    (s : SamplerState C K X) (hfresh : s.configs = [] ∧ s.ys = []) (ns : List Nat) (hfit : ReplayFits s.cache.length 0 ns) :
    (srun sample s (ns.map fun n : Nat => .sample n)).1.configs = (s.cache.take ns.sum).map Prod.fst ∧
    (srun sample s (ns.map fun n : Nat => .sample n)).1.ys = (s.cache.take ns.sum).map Prod.snd := by
  have key : ∀ (L : List (C × K)) (done : Nat) (t : SamplerState C K X), t.configs = (L.take done).map Prod.fst →
      t.ys = (L.take done).map Prod.snd → t.cache = L.drop done → done ≤ L.length → ReplayFits L.length done ns →
      (srun sample t (ns.map fun n : Nat => .sample n)).1.configs = (L.take (done + ns.sum)).map Prod.fst ∧
      (srun sample t (ns.map fun n : Nat => .sample n)).1.ys = (L.take (done + ns.sum)).map Prod.snd := by
    intro L
    clear hfit
    induction ns with
    | nil => intro done t h1 h2 _ _ _; exact ⟨by simpa [srun] using h1, by simpa [srun] using h2⟩
    | cons n ns ih =>
      intro done t h1 h2 h3 h4 h5
      obtain ⟨h5, h6⟩ := h5
      have hc : (t.configs.length : Int) + (n : Int) ≤ t.cache.length := by
        rw [h1, h3]; simp [Nat.min_eq_left h4]; omega
      obtain ⟨g1, g2, g3⟩ := sampler_hit hs (s := t) (n := n) (by omega) hc
      have e : L.take (done + n) = L.take done ++ (L.drop done).take n := by rw [List.take_add]
      rw [List.sum_cons, ← Nat.add_assoc]
      apply ih (done + n) (sample t n).1
      · rw [g1, h1, h3, e, List.map_append]; rfl
      · rw [g2, h2, h3, e, List.map_append]; rfl
      · rw [g3, h3, List.drop_drop]; rfl
      · omega
      · exact h6
  have := key s.cache 0 s (by simp [hfresh.1]) (by simp [hfresh.2]) (by simp) (by omega) hfit
  simpa using this

/-- **C22**, partial: a first call that asks for more points than the cache holds behaves exactly as without cache. -/
theorem C22_larger_first_call_partial [DecidableEq C] [LinearOrder K] {o : Objective C K}
    {sample : SamplerState C K X → Int → SamplerState C K X × Option PyErr} (hs : IsSampler o X sample)
    (s : SamplerState C K X) (hfresh : s.configs = []) (n : Int) (hn : s.cache.length < n) :
    sample s n = sample { s with cache := [] } n := sampler_miss hs (by rw [hfresh]; simpa using hn)

/-- **C22**, partial: repeating the single call of the earlier run gives the same configurations and values as that run. The first
sampler starts without file, samples `n ≥ 0` points and saves; the second one is built in the same way. -/
theorem C22_same_call_partial [DecidableEq C] [LinearOrder K] {o : Objective C K}
    {sample : SamplerState C K X → Int → SamplerState C K X × Option PyErr} (hs : IsSampler o X sample)
    {toVec : C → V} {ofVec : V → Py C} (hround : ∀ c, ofVec (toVec c) = .ok c) (x : X) (n : Int) (hn : 0 ≤ n)
    {s1 : SamplerState C K X} (hrun : sample (samplerInit ofVec (.absent : CacheFile V K) x) n = (s1, none)) :
    (sample (samplerInit ofVec (saveCache toVec s1 .absent) x) n).1.configs = s1.configs ∧
    (sample (samplerInit ofVec (saveCache toVec s1 .absent) x) n).1.ys = s1.ys := by
  obtain ⟨new, h1, ⟨h2, h3⟩, _, h5⟩ := sampler_ok hs hrun
  have hc : s1.cache = [] := by
    apply List.eq_nil_iff_forall_not_mem.2
    intro p hp
    have := h5 p hp
    simp [samplerInit, loadCache] at this
  simp only [samplerInit, List.nil_append] at h2 h3
  have hlen : s1.configs.length = s1.ys.length := by rw [h2, h3]; simp
  by_cases hne : s1.configs = []
  · have : saveCache toVec s1 (.absent : CacheFile V K) = .absent := C23_not_written _ _ _ (.inl hne)
    rw [this, hrun]; exact ⟨rfl, rfl⟩
  · obtain ⟨_, g2, g3⟩ := C23_save_load hround s1 hlen hne hc (.absent : CacheFile V K) x
    have hl : (samplerInit ofVec (saveCache toVec s1 (.absent : CacheFile V K)) x).cache.length = n.toNat := by
      rw [← h1, ← List.length_map (f := Prod.fst), g2, h2, List.length_map]
    obtain ⟨k1, k2, _⟩ := sampler_hit hs (s := samplerInit ofVec (saveCache toVec s1 (.absent : CacheFile V K)) x) (n := n) hn
      (by rw [hl]; simp [samplerInit, hn])
    rw [List.take_of_length_le (by omega)] at k1 k2
    exact ⟨by rw [k1, g2]; rfl, by rw [k2, g3]; rfl⟩

/-- vectors of the example configurations: the configuration itself -/
def natVec : Nat → Py Nat := .ok

/-- the cache file written by a RandomSampler that sampled ten points -/
def tenPoints : CacheFile Nat Int :=
  saveCache id (srun (randomSampler plainObjective countingDrawer) randomStart [.sample 10]).1 .absent

/-- **C22** fails: ten points are cached, an identical sampler is asked three times for four points. Without cache it would
evaluate 0, ..., 11; with the cache it evaluates 0, 1, 2, 3 twice. -/
theorem C22_counterexample :
    (srun (randomSampler plainObjective countingDrawer) (samplerInit natVec tenPoints 0) [.sample 4, .sample 4, .sample 4]).1.configs
      = [0, 1, 2, 3, 0, 1, 2, 3, 4, 5, 6, 7] ∧
    (srun (randomSampler plainObjective countingDrawer) (samplerInit natVec .absent 0) [.sample 4, .sample 4, .sample 4]).1.configs
      = [0, 1, 2, 3, 4, 5, 6, 7, 8, 9, 10, 11] := by
  decide +kernel

example : ReplayFits 10 0 [3, 4] := by simp [ReplayFits]
example : (srun (randomSampler plainObjective countingDrawer) (samplerInit natVec tenPoints 0) [.sample 3, .sample 4]).1.configs
    = [0, 1, 2, 3, 4, 5, 6] := by decide +kernel

/-! ### C24 -/

/-- number of points in a file -/
def CacheFile.size : CacheFile V K → Nat
  | .data xs _ => xs.length
  | _ => 0

/-- **C24** fails: with ten points cached, sampling four points twice and saving leaves eight points on disk. -/
theorem C24_counterexample :
    CacheFile.size tenPoints = 10 ∧
    CacheFile.size (saveCache id (srun (randomSampler plainObjective countingDrawer) (samplerInit natVec tenPoints 0)
      [.sample 4, .sample 4]).1 tenPoints) = 8 := by
  decide +kernel

/-- **C24**, partial: a sampler that makes one sample call before saving never shrinks the file it loaded. Missing (false, see
`C24_counterexample`): several calls. -/
theorem C24_one_call_partial [DecidableEq C] [LinearOrder K] {o : Objective C K}
    {sample : SamplerState C K X → Int → SamplerState C K X × Option PyErr} (hs : IsSampler o X sample)
    {toVec : C → V} {ofVec : V → Py C} (x : X) (n : Int) (xs : List V) (ys : List K)
    (hvalid : (samplerInit ofVec (.data xs ys) x : SamplerState C K X).cache.length = xs.length)
    {s1 : SamplerState C K X} (hrun : sample (samplerInit ofVec (.data xs ys) x) n = (s1, none)) :
    xs.length ≤ CacheFile.size (saveCache toVec s1 (.data xs ys)) := by
  by_cases h : s1.configs = [] ∨ s1.cache ≠ []
  · rw [C23_not_written _ _ _ h]; exact le_rfl
  · push Not at h
    obtain ⟨h1, h2⟩ := h
    rw [saveCache, if_neg (by simp [h2]), if_neg (by simpa using h1)]
    simp only [CacheFile.size, List.length_map]
    obtain ⟨new, g1, ⟨g2, _⟩, _⟩ := sampler_ok hs hrun
    have hl : s1.configs.length = n.toNat := by rw [g2]; simp [samplerInit, g1]
    have hpos : 0 < n.toNat := by rw [← hl]; exact List.length_pos_iff.2 h1
    by_cases hle : ((samplerInit ofVec (.data xs ys) x : SamplerState C K X).configs.length : Int) + n ≤
        (samplerInit ofVec (.data xs ys) x : SamplerState C K X).cache.length
    · obtain ⟨_, _, k3⟩ := sampler_hit hs (n := n) (by omega) hle
      rw [hrun] at k3
      have := congrArg List.length k3
      simp only [h2, List.length_nil, List.length_drop, hvalid] at this
      omega
    · rw [hvalid] at hle
      simp [samplerInit] at hle
      omega

example : (samplerInit natVec tenPoints 0 : SamplerState Nat Int Nat).cache.length = 10 ∧
    CacheFile.size (saveCache id (srun (randomSampler plainObjective countingDrawer) (samplerInit natVec tenPoints 0) [.sample 13]).1
      tenPoints) = 13 := by decide +kernel

/-- a second save of the same sampler never shrinks the file either -/
theorem C24_save_again (toVec : C → V) (s : SamplerState C K X) (file : CacheFile V K) :
    saveCache toVec s (saveCache toVec s file) = saveCache toVec s file := by
  unfold saveCache
  split
  · rfl
  · split <;> rfl

/-! ### C25 -/

theorem string_append_right_cancel {a b c : String} (h : a ++ c = b ++ c) : a = b := by
  have := congrArg String.toList h
  simp only [String.toList_append] at this
  exact String.ext (List.append_cancel_right this)

theorem string_append_left_cancel {a b c : String} (h : c ++ a = c ++ b) : a = b := by
  have := congrArg String.toList h
  simp only [String.toList_append] at this
  exact String.ext (List.append_cancel_left this)

/-- **C25**, partial: with an injective digest, two samplers that differ in exactly one of the digested parts - class, config space,
seed, one Bayesian-optimisation argument, objective - as strings have different cache keys. Missing: differences in several parts
at once (the parts are concatenated without separator), and false for the minimisation direction (`C25_counterexample`) and for
objectives with the same `str`. -/
theorem C25_one_part_partial {md5 : String → String} (hmd5 : Function.Injective md5) (a b : SamplerSpec) :
    (a.cls ≠ b.cls ∧ a.space = b.space ∧ a.seed = b.seed ∧ a.boArgs = b.boArgs ∧ a.obj = b.obj ∨
     a.cls = b.cls ∧ a.space ≠ b.space ∧ a.seed = b.seed ∧ a.boArgs = b.boArgs ∧ a.obj = b.obj ∨
     a.cls = b.cls ∧ a.space = b.space ∧ a.seed ≠ b.seed ∧ a.boArgs = b.boArgs ∧ a.obj = b.obj ∨
     a.cls = b.cls ∧ a.space = b.space ∧ a.seed = b.seed ∧
       (∃ pre x y post, x ≠ y ∧ a.boArgs = pre ++ x :: post ∧ b.boArgs = pre ++ y :: post) ∧ a.obj = b.obj ∨
     a.cls = b.cls ∧ a.space = b.space ∧ a.seed = b.seed ∧ a.boArgs = b.boArgs ∧ a.obj ≠ b.obj) →
    cacheKey md5 a.hashInput ≠ cacheKey md5 b.hashInput := by
  intro h heq
  have ht := hmd5 heq
  simp only [SamplerSpec.hashInput, HashInput.text, String.join_cons] at ht
  rcases h with ⟨h, h2, h3, h4, h5⟩ | ⟨h1, h, h3, h4, h5⟩ | ⟨h1, h2, h, h4, h5⟩ | ⟨h1, h2, h3, ⟨pre, x, y, post, hxy, ha, hb⟩, h5⟩ |
    ⟨h1, h2, h3, h4, h⟩
  · rw [h2, h3, h4, h5] at ht
    exact h (string_append_right_cancel (string_append_right_cancel (string_append_right_cancel ht)))
  · rw [h1, h3, h4, h5] at ht
    exact h (string_append_left_cancel (string_append_right_cancel (string_append_right_cancel ht)))
  · rw [h1, h2, h4, h5] at ht
    exact h (string_append_right_cancel (string_append_left_cancel (string_append_right_cancel ht)))
  · rw [h1, h2, h3, h5, ha, hb] at ht
    have := string_append_left_cancel (string_append_left_cancel (string_append_right_cancel ht))
    simp only [String.join_append, String.join_cons] at this
    exact hxy (string_append_right_cancel (string_append_left_cancel this))
  · rw [h1, h2, h3, h4] at ht
    exact h (string_append_left_cancel ht)

/-- **C25** fails: whatever the digest, two Bayesian-optimisation samplers that differ only in the minimisation direction share
their cache file. -/
theorem C25_counterexample (md5 : String → String) (s : SamplerSpec) :
    cacheKey md5 { s with minimize := true }.hashInput = cacheKey md5 { s with minimize := false }.hashInput := rfl

/-- **C25** fails: of the surrogate model only the class is in the key, so samplers with different kernels share their file (see C115). -/
theorem C25_surrogate_counterexample (md5 : String → String) (s : SamplerSpec) (a b : String) :
    cacheKey md5 { s with surrogate := a }.hashInput = cacheKey md5 { s with surrogate := b }.hashInput := rfl

/-- **C25** fails: the parts are concatenated without separators, so different pairs of seed and arguments can share the key. -/
theorem C25_concatenation_counterexample (md5 : String → String) :
    cacheKey md5 (SamplerSpec.hashInput ⟨"RandomSampler", "[x1]", "1", "2f", true, [], ""⟩) =
    cacheKey md5 (SamplerSpec.hashInput ⟨"RandomSampler", "[x1]", "12", "f", true, [], ""⟩) := by
  unfold cacheKey
  have : HashInput.text (SamplerSpec.hashInput ⟨"RandomSampler", "[x1]", "1", "2f", true, [], ""⟩) =
    HashInput.text (SamplerSpec.hashInput ⟨"RandomSampler", "[x1]", "12", "f", true, [], ""⟩) := by decide +kernel
  rw [this]

end PyPDP
