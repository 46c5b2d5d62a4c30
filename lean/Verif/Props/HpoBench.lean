/-
C108: the wrapper around HPOBench.
-/
import Verif.Model.HpoBench
import Verif.Props.Blackbox

namespace PyPDP
variable {K σ : Type}

/-- the contract of HPOBench: with an integer seed the benchmark's own random state does not count -/
def Benchmark.Seeded (b : Benchmark K σ) (outcome : Int → Config K → Py (List (String × K))) : Prop :=
  ∀ c z s, (b.objective c (some z) s).2 = outcome z c

/-- what a call returns if the benchmark's outcome is `o`: its entry `function_value`, a KeyError if there is none, or the benchmark's exception -/
def ReturnsEntry (o : Py (List (String × K))) (r : Py K) : Prop :=
  (∀ e, o = .error e → r = .error e) ∧
  (∀ d v, o = .ok d → (d.map Prod.fst).Nodup → ("function_value", v) ∈ d → r = .ok v) ∧
  (∀ d, o = .ok d → (∀ v, ("function_value", v) ∉ d) → r = .error .key)

theorem lookup_of_mem {d : List (String × K)} (hd : (d.map Prod.fst).Nodup) {n : String} {v : K} (h : (n, v) ∈ d) : d.lookup n = some v := by
  induction d with
  | nil => simp at h
  | cons p d ih =>
    obtain ⟨m, w⟩ := p
    simp only [List.map_cons, List.nodup_cons] at hd
    rcases List.mem_cons.1 h with he | he
    · simp only [Prod.mk.injEq] at he
      rw [he.1, he.2, List.lookup_cons_self]
    · have hne : n ≠ m := by
        rintro rfl
        exact hd.1 (List.mem_map_of_mem (f := Prod.fst) he)
      have hb : (n == m) = false := by simpa using hne
      rw [List.lookup_cons, hb]
      exact ih hd.2 he

theorem lookup_none {d : List (String × K)} {n : String} (h : ∀ v, (n, v) ∉ d) : d.lookup n = none := by
  rw [List.lookup_eq_none_iff]
  rintro ⟨m, w⟩ hm
  simp only [bne_iff_ne, ne_eq]
  rintro rfl
  exact h w hm

variable [Field K] [LinearOrder K] [FloorRing K]

theorem call_fn (inv : Hp K → Val K → K) (f : HpoBlackbox K σ) (kwargs : List (String × Val K)) (s : σ) :
    (f.call inv kwargs s).2 = (BlackboxFn.mk f.cs fun c => (f.valueFromConfig c s).2).call inv kwargs := by
  unfold HpoBlackbox.call BlackboxFn.call
  dsimp only
  cases mkConfiguration inv f.cs kwargs <;> rfl

omit [Field K] [LinearOrder K] [FloorRing K] in
theorem value_entry {f : HpoBlackbox K σ} {z : Int} (hz : f.seed = some z) {outcome : Int → Config K → Py (List (String × K))} (h : f.benchmark.Seeded outcome) (c : Config K) (s : σ) :
    ReturnsEntry (outcome z c) (f.valueFromConfig c s).2 := by
  have h1 := h c z s
  rcases hr : f.benchmark.objective c (some z) s with ⟨s', r⟩
  rw [hr] at h1
  dsimp only at h1
  subst h1
  unfold HpoBlackbox.valueFromConfig
  rw [hz, hr]
  refine ⟨fun e he => ?_, fun d v hd hn hv => ?_, fun d hd hv => ?_⟩
  · rw [he]
  · rw [hd]; dsimp only
    rw [lookup_of_mem hn hv]
  · rw [hd]; dsimp only
    rw [lookup_none hv]

/-- **C108** Every call of a program that wraps a benchmark with an integer seed and calls it any number of times: illegal arguments are a ValueError;
otherwise the result is the entry `function_value` of the benchmark's outcome for exactly the given values and that seed, whatever was called
before. -/
theorem C108_calls {b : Benchmark K σ} {outcome : Int → Config K → Py (List (String × K))} (hb : b.Seeded outcome) (z : Int) (inv : Hp K → Val K → K)
    (prog : List (List (String × Val K))) (s : σ) :
    ((hpoInit b (some z)).calls inv prog s).length = prog.length ∧
    ∀ (i : Nat) kwargs r, prog[i]? = some kwargs → ((hpoInit b (some z)).calls inv prog s)[i]? = some r →
      (¬ LegalKwargs (b.space (some z)) kwargs → r = .error .value) ∧
      ((kwargs.map Prod.fst).Nodup → LegalKwargs (b.space (some z)) kwargs → ∃ config : Config K, config.values.map Prod.fst = (b.space (some z)).map Hp.name ∧
        (∀ n v, (n, v) ∈ kwargs ↔ (n, v) ∈ config.values) ∧ ReturnsEntry (outcome z config) r) := by
  induction prog generalizing s with
  | nil => simp [HpoBlackbox.calls]
  | cons kw rest ih =>
    obtain ⟨h1, h2⟩ := ih ((hpoInit b (some z)).call inv kw s).1
    refine ⟨by simp [HpoBlackbox.calls, h1], fun i kwargs r hi hr => ?_⟩
    cases i with
    | succ i => exact h2 i kwargs r hi hr
    | zero =>
      obtain rfl : kw = kwargs := by simpa using hi
      have hr' : ((hpoInit b (some z)).call inv kw s).2 = r := by simpa [HpoBlackbox.calls] using hr
      rw [call_fn] at hr'
      refine ⟨fun hl => ?_, fun hn hl => ?_⟩
      · rw [← hr']
        exact C11_illegal inv _ hl
      · obtain ⟨config, c1, c2, c3⟩ := C11_legal inv (BlackboxFn.mk (hpoInit b (some z)).cs fun c => ((hpoInit b (some z)).valueFromConfig c s).2) hn hl
        refine ⟨config, c2, c3, ?_⟩
        rw [← hr', c1]
        exact value_entry (f := hpoInit b (some z)) rfl hb config s

/-- **C108** Illegal arguments never reach the benchmark, with or without a seed. -/
theorem C108_illegal (f : HpoBlackbox K σ) (inv : Hp K → Val K → K) {kwargs : List (String × Val K)} (h : ¬ LegalKwargs f.cs kwargs) (s : σ) :
    f.call inv kwargs s = (s, .error .value) := by
  have hm : mkConfiguration inv f.cs kwargs = .error .value := by
    have := C11_illegal inv (BlackboxFn.mk f.cs fun _ => .ok (0 : K)) h
    unfold BlackboxFn.call at this
    dsimp only at this
    cases hc : mkConfiguration inv f.cs kwargs with
    | ok c => rw [hc] at this; cases this
    | error e => rw [hc] at this; simpa using this
  unfold HpoBlackbox.call
  rw [hm]

/-- **C108** With an integer seed the results do not depend on the history nor on the benchmark's own random state: equal arguments give equal results. -/
theorem C108_repeatable {b : Benchmark K σ} {outcome : Int → Config K → Py (List (String × K))} (hb : b.Seeded outcome) (z : Int) (inv : Hp K → Val K → K)
    (kwargs : List (String × Val K)) (s t : σ) : ((hpoInit b (some z)).call inv kwargs s).2 = ((hpoInit b (some z)).call inv kwargs t).2 := by
  rw [call_fn, call_fn]
  congr 2
  funext c
  have h1 := hb c z s
  have h2 := hb c z t
  unfold HpoBlackbox.valueFromConfig hpoInit
  dsimp only
  rcases e1 : b.objective c (some z) s with ⟨s', r⟩
  rcases e2 : b.objective c (some z) t with ⟨t', r'⟩
  rw [e1] at h1
  rw [e2] at h2
  dsimp only at h1 h2 ⊢
  subst h1
  subst h2
  cases outcome z c with
  | error e => rfl
  | ok d => dsimp only; cases d.lookup "function_value" <;> rfl

omit [Field K] [LinearOrder K] [FloorRing K] in
/-- **C108** `get_...(seed)` hands out the space the function checks its arguments against, with the integer seed in use for every call. -/
theorem C108_get (build : Int → Benchmark K σ × σ) (seed : Int) : ∃ f s, getBenchmark build seed = (f.cs, f, s) ∧ f.cs = (build seed).1.space (some seed) ∧ f.seed = some seed :=
  ⟨_, _, rfl, rfl, rfl⟩

/-- a benchmark with one hyperparameter that returns the number of evaluations so far, except that a seed is returned itself -/
def countingBenchmark : Benchmark ℚ Nat where
  space _ := [⟨"a", .float 0 1 false⟩]
  objective _ rng n := match rng with
    | some z => (n, .ok [("cost", 1), ("function_value", z)])
    | none => (n + 1, .ok [("cost", 1), ("function_value", n)])

/-- **C108** Without a seed (the wrapper's default) equal arguments may give different results. -/
theorem C108_unseeded : ∃ (b : Benchmark ℚ Nat) (outcome : Int → Config ℚ → Py (List (String × ℚ))), b.Seeded outcome ∧
    (hpoInit b none).calls (fun _ _ => 0) [[("a", .num (1 / 2))], [("a", .num (1 / 2))]] 0 = [.ok 0, .ok 1] :=
  ⟨countingBenchmark, fun z _ => .ok [("cost", 1), ("function_value", z)], fun _ _ _ => rfl, by decide +kernel⟩

example : (hpoInit countingBenchmark (some 7)).calls (fun _ _ => 0) [[("a", .num (1 / 2))], [("a", .num 2)], [("b", .num 0)], [("a", .num (1 / 2))]] 0 =
    [.ok 7, .error .value, .error .value, .ok 7] := by decide +kernel

end PyPDP
