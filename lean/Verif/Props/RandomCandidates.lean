/-
C173: how good the optimum of an acquisition function, the incumbent of a surrogate and the incumbent of a Bayesian optimisation are.
-/
import Verif.Props.RandomSearch
import Verif.Props.Surrogate
import Verif.Props.Bayes
import Verif.Props.Acquisition

namespace PyPDP
open Spec MeasureTheory ProbabilityTheory Filter
variable {Ω C : Type} [MeasurableSpace Ω] [MeasurableSpace C]

/-- the configurations from number `k` on -/
theorem Spec.IsIid.shift {P : Measure Ω} {X : ℕ → Ω → C} (hX : IsIid P X) (k : Nat) : IsIid P fun i => X (k + i) :=
  ⟨fun i => hX.measurable _, hX.indep.precomp (add_right_injective k), fun i => by rw [hX.same (k + i), hX.same (k + 0)]⟩

/-- the best of `N` configurations from number `k` on -/
theorem Spec.IsIid.best {P : Measure Ω} [IsProbabilityMeasure P] {X : ℕ → Ω → C} (hX : IsIid P X) {f : C → ℝ} (hf : Measurable f) (minimize : Bool) (k N : Nat)
    {c : Ω → C} (hc : ∀ ω, ∃ i < N, X (k + i) ω = c ω) (hb : ∀ ω, ∀ i < N, ¬ Better minimize (f (X (k + i) ω)) (f (c ω))) (v : ℝ) :
    if minimize then
      P.real {ω | v ≤ f (c ω)} = P.real {ω | v ≤ f (X 0 ω)} ^ N ∧ P.real {ω | v < f (c ω)} = P.real {ω | v < f (X 0 ω)} ^ N
    else
      P.real {ω | f (c ω) ≤ v} = P.real {ω | f (X 0 ω) ≤ v} ^ N ∧ P.real {ω | f (c ω) < v} = P.real {ω | f (X 0 ω) < v} ^ N := by
  have key : ∀ strict, P.real {ω | ¬ reaches minimize strict (f (c ω)) v} = P.real {ω | ¬ reaches minimize strict (f (X 0 ω)) v} ^ N := by
    intro strict
    have e : {ω | ¬ reaches minimize strict (f (c ω)) v} = {ω | ∀ i < N, X (k + i) ω ∈ {c | reaches minimize strict (f c) v}ᶜ} := by
      ext ω
      simp only [Set.mem_ofPred_eq, Set.mem_compl_iff, reaches_best (x := fun i => X (k + i) ω) rfl (hc ω) (hb ω) strict v, not_not]
    have hA := (measurableSet_reaches hf minimize strict v).compl
    have e0 : P.real {ω | X (k + 0) ω ∈ {c | reaches minimize strict (f c) v}ᶜ} = P.real {ω | X 0 ω ∈ {c | reaches minimize strict (f c) v}ᶜ} := by
      have h1 := congrArg (fun μ : Measure C => μ {c | reaches minimize strict (f c) v}ᶜ) (hX.same (k + 0))
      rw [Measure.map_apply (hX.measurable _) hA, Measure.map_apply (hX.measurable 0) hA] at h1
      exact congrArg ENNReal.toReal h1
    rw [e, (hX.shift k).all hA, e0]
    rfl
  have k1 := key true
  have k2 := key false
  cases minimize
  · simp only [reaches, not_lt, not_le] at k1 k2
    simpa using ⟨k1, k2⟩
  · simp only [reaches, not_lt, not_le] at k1 k2
    simpa using ⟨k1, k2⟩

omit [MeasurableSpace C] in
theorem stream_mem {x : ℕ → C} {k n : Nat} {c : C} : c ∈ ((streamDrawer x).draw k n).1 ↔ ∃ i < n, x (k + i) = c := by
  simp [streamDrawer]

/-- **C173** How good the optimum of an acquisition function is: if the candidates are drawn independently from one distribution, the probability that the value of the
chosen candidate is at most `v` is the `n`-th power of the probability for a single one. `k` configurations have been drawn before. -/
theorem C173_optimum {P : Measure Ω} [IsProbabilityMeasure P] {X : ℕ → Ω → C} (hX : IsIid P X) (names : List String) {n : Nat} (hn : 2 ≤ n) {value : C → ℝ}
    (hv : Measurable value) (k : Nat) :
    ∃ c : Ω → C, (∀ ω, getOptimum names (streamDrawer fun i => X i ω) n value k = (k + n, .ok (.config (c ω)))) ∧
      ∀ v, P.real {ω | value (c ω) ≤ v} = P.real {ω | value (X 0 ω) ≤ v} ^ n ∧ P.real {ω | value (c ω) < v} = P.real {ω | value (X 0 ω) < v} ^ n := by
  choose c h1 h2 using fun ω => C39_best_partial names (streamDrawer fun i => X i ω) (n := (n : Int)) (by omega) value k
  refine ⟨c, fun ω => h1 ω, fun v => ?_⟩
  have := hX.best hv false k n (c := c) (fun ω => by
      obtain ⟨i, hi⟩ := h2 ω
      exact stream_mem.1 (List.mem_of_getElem? hi.1)) (fun ω i hi => by
      obtain ⟨j, hj⟩ := h2 ω
      have := hj.2.1 _ (stream_mem.2 ⟨i, hi, rfl⟩)
      simpa [Better] using this) v
  simpa using this

/-- **C173** The same for `SurrogateModel.get_incumbent`: the probability that the best predicted mean among the drawn configurations misses `v`. -/
theorem C173_incumbent [MeasurableSpace (Config ℝ)] {P : Measure Ω} [IsProbabilityMeasure P] {X : ℕ → Ω → Config ℝ} (hX : IsIid P X) {predict : Predict ℝ} {mu sd : List ℝ → ℝ} {dim : Nat}
    (h : RowWise dim predict mu sd) (hd : ∀ i ω, (X i ω).vector.length = dim) (hv : Measurable fun c : Config ℝ => mu c.vector) (minimize : Bool)
    {n : Nat} (hn : 2 ≤ n) (k : Nat) :
    ∃ c : Ω → Config ℝ,
      (∀ ω, getIncumbent predict minimize ((streamDrawer fun i => X i ω).sampleConfiguration k n).1 = .ok (c ω, mu (c ω).vector)) ∧
      ∀ v, if minimize then
          P.real {ω | v ≤ mu (c ω).vector} = P.real {ω | v ≤ mu (X 0 ω).vector} ^ n ∧ P.real {ω | v < mu (c ω).vector} = P.real {ω | v < mu (X 0 ω).vector} ^ n
        else
          P.real {ω | mu (c ω).vector ≤ v} = P.real {ω | mu (X 0 ω).vector ≤ v} ^ n ∧ P.real {ω | mu (c ω).vector < v} = P.real {ω | mu (X 0 ω).vector < v} ^ n := by
  choose c h1 h2 using fun ω => C35_best_partial h minimize (streamDrawer fun i => X i ω) k (n := (n : Int)) (by omega)
    (fun q hq => by obtain ⟨i, -, rfl⟩ := stream_mem.1 hq; exact hd _ _)
  refine ⟨c, h1, fun v => ?_⟩
  refine hX.best hv minimize k n (c := c) (fun ω => ?_) (fun ω i hi => ?_) v
  · obtain ⟨i, hi⟩ := h2 ω
    exact stream_mem.1 (List.mem_of_getElem? hi.1)
  · obtain ⟨j, hj⟩ := h2 ω
    have := hj.2.1 _ (stream_mem.2 ⟨i, hi, rfl⟩)
    cases minimize <;> simpa [Better] using this

omit [MeasurableSpace C] in
/-- **C173** A Bayesian optimisation is no worse than a random search with its initial points: if the first call succeeds, then whatever is sampled afterwards, no
point of the initial design is better than the incumbent. -/
theorem C173_not_worse {K M S : Type} [LinearOrder K] [DecidableEq C] (o : Objective C K) (env : BOEnv C K M S) (hip : 1 ≤ env.initialPoints) (r : S) (m : M) {n : Nat} (hn : 1 ≤ n)
    {s : BOState C K M S} (hs : boSample o env (freshBO r m) n = (s, none)) (ops : List SOp) (hno : SOp.reset ∉ ops) :
    ∃ c w, incumbent env.minimize (srun (boSample o env) s ops).1 = .ok (some c, some w) ∧
      ∀ q ∈ (env.drawer.draw r (min n env.initialPoints.toNat)).1, ¬ Better env.minimize (o.value q) w := by
  obtain ⟨acq, e1, e2, -, -⟩ := C29_initial_then_acquired o env (by omega) r m n hs
  have hdraw : (env.drawer.draw r (min n env.initialPoints.toNat)).1 ≠ [] := by
    intro h
    have := env.drawer.draw_length r (min n env.initialPoints.toNat)
    rw [h, List.length_nil] at this
    omega
  have hlen : s.configs.length = s.ys.length := by rw [e2, List.length_map]
  have hys : s.ys ≠ [] := by rw [e2, e1]; simp [hdraw]
  obtain ⟨i, c0, v0, a1, -, -, a3, -⟩ := (C21_incumbent env.minimize s hlen).2 hys
  have hinv : BOInv s := by
    have := (boSample_inv o env (freshBO r m : BOState C K M S) n (freshBO_inv r m [])).1
    rwa [hs] at this
  have hfin := (boRun_inv o env ops s hinv).1
  obtain ⟨b1, b2⟩ := C21_incumbent env.minimize (srun (boSample o env) s ops).1 hfin.len
  by_cases hf : (srun (boSample o env) s ops).1.ys = []
  · obtain ⟨w, hw, -⟩ := C21_never_worse (.bo env) env.minimize s ops hno a1 (b1 hf)
    cases hw
  · obtain ⟨j, c, w, d1, -, -⟩ := b2 hf
    obtain ⟨w', hw', hb⟩ := C21_never_worse (.bo env) env.minimize s ops hno a1 d1
    cases hw'
    refine ⟨c, w, d1, fun q hq hbq => ?_⟩
    have hq0 : ¬ Better env.minimize (o.value q) v0 := a3 _ (by rw [e2, e1]; exact List.mem_map_of_mem (List.mem_append_left _ hq))
    cases hm : env.minimize <;> simp only [hm, Better, if_true, if_false, Bool.false_eq_true, gt_iff_lt, not_lt] at hb hq0 hbq
    · exact absurd (lt_of_lt_of_le hbq hq0) (not_lt.2 hb)
    · exact absurd (lt_of_le_of_lt hq0 hbq) (not_lt.2 hb)

/-- **C173** So the probability that the incumbent of a Bayesian optimisation misses a value is at most that of a random search with the initial points. What the
surrogate and the acquisition function do may depend on chance in any way; only the initial design has to be drawn independently from one distribution. -/
theorem C173_bayesian {M S : Type} [DecidableEq C] {P : Measure Ω} [IsProbabilityMeasure P] {X : ℕ → Ω → C} (hX : IsIid P X) (o : Objective C ℝ) (hf : Measurable o.value)
    {env : Ω → BOEnv C ℝ M S} {r : Ω → S} {m : Ω → M} {minimize : Bool} {ip : Nat} (hip : 1 ≤ ip) {n : Nat} (hn : 1 ≤ n)
    (henv : ∀ ω, (env ω).minimize = minimize ∧ (env ω).initialPoints = ip)
    (hdraw : ∀ ω, ((env ω).drawer.draw (r ω) (min n ip)).1 = (List.range (min n ip)).map fun i => X i ω)
    {s : Ω → BOState C ℝ M S} (hs : ∀ ω, boSample o (env ω) (freshBO (r ω) (m ω)) n = (s ω, none)) (ops : Ω → List SOp) (hno : ∀ ω, SOp.reset ∉ ops ω) :
    ∃ (inc : Ω → C) (best : Ω → ℝ), (∀ ω, incumbent minimize (srun (boSample o (env ω)) (s ω) (ops ω)).1 = .ok (some (inc ω), some (best ω))) ∧
      ∀ v, if minimize then
          P.real {ω | v ≤ best ω} ≤ P.real {ω | v ≤ o.value (X 0 ω)} ^ min n ip ∧ P.real {ω | v < best ω} ≤ P.real {ω | v < o.value (X 0 ω)} ^ min n ip
        else
          P.real {ω | best ω ≤ v} ≤ P.real {ω | o.value (X 0 ω) ≤ v} ^ min n ip ∧ P.real {ω | best ω < v} ≤ P.real {ω | o.value (X 0 ω) < v} ^ min n ip := by
  choose inc best h1 h2 using fun ω => C173_not_worse o (env ω) (by rw [(henv ω).2]; omega) (r ω) (m ω) hn (hs ω) (ops ω) (hno ω)
  refine ⟨inc, best, fun ω => by rw [← (henv ω).1]; exact h1 ω, fun v => ?_⟩
  have hbest : ∀ ω, ∀ i < min n ip, ¬ Better minimize (o.value (X i ω)) (best ω) := by
    intro ω i hi
    have hn' : (env ω).initialPoints.toNat = ip := by rw [(henv ω).2]; rfl
    have := h2 ω (X i ω) (by rw [hn', hdraw ω]; exact List.mem_map.2 ⟨i, List.mem_range.2 hi, rfl⟩)
    rwa [(henv ω).1] at this
  have key : ∀ strict, P.real {ω | ¬ reaches minimize strict (best ω) v} ≤ P.real {ω | ¬ reaches minimize strict (o.value (X 0 ω)) v} ^ min n ip := by
    intro strict
    have e : P.real {ω | ∀ i < min n ip, X i ω ∈ {c | reaches minimize strict (o.value c) v}ᶜ} = P.real {ω | ¬ reaches minimize strict (o.value (X 0 ω)) v} ^ min n ip :=
      hX.all (measurableSet_reaches hf minimize strict v).compl (min n ip)
    rw [← e]
    refine measureReal_mono fun ω hω i hi hr => hω ?_
    have := hbest ω i hi
    simp only [Set.mem_ofPred_eq] at hr
    cases minimize <;> cases strict <;> simp only [reaches, Better, if_true, if_false, Bool.false_eq_true, gt_iff_lt, not_lt] at * <;> linarith
  have k1 := key true
  have k2 := key false
  cases minimize
  · simp only [reaches, not_lt, not_le] at k1 k2
    simpa using ⟨k1, k2⟩
  · simp only [reaches, not_lt, not_le] at k1 k2
    simpa using ⟨k1, k2⟩

/-- the default of 100 candidates: with more than 95 % the chosen one is among the best 3 % -/
example {P : Measure Ω} [IsProbabilityMeasure P] {X : ℕ → Ω → C} (hX : IsIid P X) (names : List String) {value : C → ℝ} (hv : Measurable value) {v : ℝ}
    (h : P.real {ω | value (X 0 ω) ≤ v} = 97 / 100) :
    ∃ c : Ω → C, (∀ ω, getOptimum names (streamDrawer fun i => X i ω) 100 value 0 = (100, .ok (.config (c ω)))) ∧ P.real {ω | value (c ω) ≤ v} < 1 / 20 := by
  obtain ⟨c, h1, h2⟩ := C173_optimum hX names (n := 100) (by norm_num) hv 0
  refine ⟨c, fun ω => h1 ω, ?_⟩
  rw [(h2 v).1, h]
  norm_num

/-- three candidates of the stream 0, 1, 4, 9, … from number 2 on -/
example : getOptimum ["x"] (streamDrawer fun i => i * i) 3 (fun c : ℕ => -((c : ℤ) - 8) ^ 2) 2 = (5, .ok (.config 9)) := by decide +kernel

/-- a run to which `C173_not_worse` applies -/
example : (boSample plainObjective sampleEnv (freshBO (0, 0) 0) (7 : ℕ)).2 = none := by decide +kernel

end PyPDP
