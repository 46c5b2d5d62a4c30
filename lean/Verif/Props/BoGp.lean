/-
C101: Bayesian optimisation with the default components.
-/
import Verif.Spec.Acquisition
import Verif.Props.Bayes
import Verif.Props.Acquisition
import Verif.Props.Gp

namespace PyPDP
open Spec
variable {C K M S : Type}

/-- what makes a run succeed: the objective does not raise for the configurations of the space, only such configurations are drawn, the
surrogate can be fitted to any of them with as many values, there is an initial design -/
structure Runs (good : C → Prop) (o : Objective C K) (env : BOEnv C K M S) : Prop where
  objective : ∀ t c, good c → o.raises t c = none
  drawn : ∀ s n, ∀ c ∈ (env.drawer.draw s n).1, good c
  candidates : ∀ s n, ∀ c ∈ (env.acqDrawer.draw s n).1, good c
  fit : ∀ m cs ys, cs ≠ [] → (∀ c ∈ cs, good c) → ys.length = cs.length → ∃ m', env.fit m cs ys = .ok m'
  initial : 1 ≤ env.initialPoints

/-- the recorded points of a state are configurations of the space, with a value each -/
structure Good (good : C → Prop) (s : BOState C K M S) : Prop where
  configs : ∀ c ∈ s.configs, good c
  len : s.ys.length = s.configs.length

variable {good : C → Prop} {o : Objective C K} {env : BOEnv C K M S}

theorem Good.congr {s s' : BOState C K M S} (h : Good good s) (h1 : s'.configs = s.configs) (h2 : s'.ys = s.ys) : Good good s' :=
  ⟨by rw [h1]; exact h.configs, by rw [h1, h2]; exact h.len⟩

theorem fitSurrogate_runs (h : Runs good o env) {s : BOState C K M S} (hs : Good good s) (hne : s.configs ≠ []) (force : Bool) :
    (fitSurrogate env force s).2 = none := by
  unfold fitSurrogate
  dsimp only
  split
  · obtain ⟨m', hm⟩ := h.fit s.extra.model s.configs s.ys hne hs.configs hs.len
    rw [hm]
  · rfl

theorem evalAll_runs (h : Runs good o env) (t : Nat) (cs : List C) (hc : ∀ c ∈ cs, good c) :
    ∃ t' vs, evalAll o t cs = (t', .ok vs) ∧ vs.length = cs.length := by
  induction cs generalizing t with
  | nil => exact ⟨t, [], rfl, rfl⟩
  | cons c cs ih =>
    obtain ⟨t', vs, h1, h2⟩ := ih (t + 1) fun c hc' => hc c (by simp [hc'])
    refine ⟨t', o.value c :: vs, ?_, by simp [h2]⟩
    rw [evalAll, Objective.eval, h.objective t c (hc c (by simp))]
    dsimp only
    rw [h1]

theorem draws_toList (d : Drawer C S) (r : S) (n : Int) : (d.sampleConfiguration r n).1.toList = (if n < 1 then [] else (d.draw r n.toNat).1) := by
  unfold Drawer.sampleConfiguration
  split
  · rfl
  · dsimp only
    split
    · next h1 =>
      subst h1
      obtain ⟨a, ha⟩ := List.length_eq_one_iff.1 (d.draw_length r 1)
      have e : (d.draw r (1 : Int).toNat).1 = [a] := ha
      rw [e]; rfl
    · rfl

theorem boInitial_runs (h : Runs good o env) {s : BOState C K M S} (hs : Good good s) {n : Int} (hn : 1 ≤ n) :
    (boInitial o env s n).2 = none ∧ Good good (boInitial o env s n).1 ∧ (boInitial o env s n).1.configs ≠ [] := by
  have hm : ¬ min env.initialPoints n < 1 := by have := h.initial; omega
  unfold boInitial
  dsimp only
  rw [draws_toList, if_neg hm]
  obtain ⟨l, hl⟩ : ∃ l, l = (env.drawer.draw s.extra.rng (min env.initialPoints n).toNat).1 := ⟨_, rfl⟩
  have hgood : ∀ c ∈ l, good c := by rw [hl]; exact h.drawn _ _
  have hlen : l ≠ [] := by
    intro h0
    have := env.drawer.draw_length s.extra.rng (min env.initialPoints n).toNat
    rw [← hl, h0] at this
    simp only [List.length_nil] at this
    omega
  rw [← hl]
  obtain ⟨t', vs, e1, e2⟩ := evalAll_runs h s.calls l hgood
  rw [e1]
  dsimp only
  obtain ⟨q, hq⟩ : ∃ q : BOState C K M S, q = { s with
    extra := { s.extra with rng := (env.drawer.sampleConfiguration s.extra.rng (min env.initialPoints n)).2 },
    calls := t', ys := s.ys ++ vs, configs := s.configs ++ l } := ⟨_, rfl⟩
  have hqc : q.configs = s.configs ++ l := by rw [hq]
  have hqy : q.ys = s.ys ++ vs := by rw [hq]
  have hqg : Good good q := by
    refine ⟨fun c hc => ?_, by rw [hqc, hqy, List.length_append, List.length_append, hs.len, e2]⟩
    rw [hqc] at hc
    rcases List.mem_append.1 hc with hc | hc
    · exact hs.configs c hc
    · exact hgood c hc
  have hqn : q.configs ≠ [] := by rw [hqc]; simp [hlen]
  rw [← hq]
  obtain ⟨f1, f2, -⟩ := fitSurrogate_fst env true q
  exact ⟨fitSurrogate_runs h hqg hqn true, hqg.congr f1 f2, by rw [f1]; exact hqn⟩

theorem boStep_runs [LinearOrder K] (h : Runs good o env) (hch : 2 ≤ env.nCandidates) {s : BOState C K M S} (hs : Good good s) (hne : s.configs ≠ []) :
    (boStep o env s).2 = none ∧ Good good (boStep o env s).1 ∧ (boStep o env s).1.configs ≠ [] := by
  have hy : s.ys ≠ [] := by
    intro h0
    have := hs.len
    rw [h0] at this
    exact hne (List.length_eq_zero_iff.1 this.symm)
  obtain ⟨-, hinc⟩ := C21_incumbent env.minimize s hs.len.symm
  obtain ⟨i, ci, v, hi, -⟩ := hinc hy
  obtain ⟨c, ho, hmax⟩ := C39_best_partial env.names env.acqDrawer hch (env.acq s.extra.model (some v)) s.extra.rng
  have hc : good c := by
    obtain ⟨j, hj, -⟩ := hmax
    exact h.candidates _ _ c (List.mem_of_getElem? hj)
  obtain ⟨q, hq⟩ : ∃ q : BOState C K M S, q = (SamplerState.tick { s with extra := { s.extra with eta := some v, rng := (env.acqDrawer.draw s.extra.rng env.nCandidates.toNat).2 } }).record c (o.value c) := ⟨_, rfl⟩
  have e : boStep o env s = fitSurrogate env false q := by
    unfold boStep
    rw [hi]
    dsimp only
    rw [ho]
    dsimp only
    rw [Objective.eval, h.objective _ c hc, hq]
  have hqc : q.configs = s.configs ++ [c] := by rw [hq]; rfl
  have hqy : q.ys = s.ys ++ [o.value c] := by rw [hq]; rfl
  have hqg : Good good q := by
    refine ⟨fun d hd => ?_, by rw [hqc, hqy, List.length_append, List.length_append, hs.len]; rfl⟩
    rw [hqc] at hd
    rcases List.mem_append.1 hd with hd | hd
    · exact hs.configs d hd
    · rw [List.mem_singleton.1 hd]; exact hc
  have hqn : q.configs ≠ [] := by rw [hqc]; simp
  rw [e]
  obtain ⟨f1, f2, -⟩ := fitSurrogate_fst env false q
  exact ⟨fitSurrogate_runs h hqg hqn false, hqg.congr f1 f2, by rw [f1]; exact hqn⟩

theorem boLoop_runs [LinearOrder K] (h : Runs good o env) (hch : 2 ≤ env.nCandidates) (k : Nat) {s : BOState C K M S} (hs : Good good s) (hne : s.configs ≠ []) :
    (boLoop o env k s).2 = none ∧ Good good (boLoop o env k s).1 ∧ (boLoop o env k s).1.configs ≠ [] := by
  induction k generalizing s with
  | zero => exact ⟨rfl, hs, hne⟩
  | succ k ih =>
    obtain ⟨h1, h2, h3⟩ := boStep_runs h hch hs hne
    unfold boLoop
    split
    · next s' e he => rw [he] at h1; cases h1
    · next s' he => rw [he] at h2 h3; exact ih h2 h3

theorem boAcquire_runs [LinearOrder K] (h : Runs good o env) (hch : 2 ≤ env.nCandidates) (k : Nat) {s : BOState C K M S} (hs : Good good s) (hne : s.configs ≠ []) :
    (boAcquire o env s k).2 = none ∧ Good good (boAcquire o env s k).1 ∧ (boAcquire o env s k).1.configs ≠ [] := by
  have h1 := fitSurrogate_runs h hs hne false
  obtain ⟨f1, f2, -⟩ := fitSurrogate_fst env false s
  unfold boAcquire
  split
  · next s' e he => rw [he] at h1; cases h1
  · next s' he =>
    rw [he] at f1 f2
    exact boLoop_runs h hch k (hs.congr f1 f2) (by dsimp only at f1; rw [f1]; exact hne)

theorem boInner_runs [LinearOrder K] (h : Runs good o env) (hch : 2 ≤ env.nCandidates) {n : Int} (hn : 1 ≤ n) {s : BOState C K M S} (hs : Good good s) :
    (boInner o env s n).2 = none ∧ Good good (boInner o env s n).1 ∧ (boInner o env s n).1.configs ≠ [] := by
  unfold boInner
  split
  · obtain ⟨h1, h2, h3⟩ := boInitial_runs h hs hn
    split
    · next s' e he => rw [he] at h1; cases h1
    · next s' he => rw [he] at h2 h3; exact boAcquire_runs h hch _ h2 h3
  · next hlt =>
    refine boAcquire_runs h hch _ hs fun h0 => ?_
    rw [h0] at hlt
    have := h.initial
    simp only [List.length_nil, Nat.cast_zero] at hlt
    omega

theorem boSample_runs [LinearOrder K] (h : Runs good o env) (hch : 2 ≤ env.nCandidates) {n : Int} {s : BOState C K M S} (hn : 1 ≤ n ∨ 0 ≤ n ∧ s.configs ≠ []) (hs : Good good s)
    (hc : ∀ p ∈ s.cache, good p.1) :
    (boSample o env s n).2 = none ∧ Good good (boSample o env s n).1 ∧ (boSample o env s n).1.configs ≠ [] ∧
      ∀ p ∈ (boSample o env s n).1.cache, good p.1 := by
  obtain ⟨s1, new, he, -, -, hnew, hc1, hcase⟩ := sampleWith_cases (boInner o env) s n
  have hs1 : Good good s1 := by
    refine ⟨fun c hc' => ?_, by rw [he.1, he.2]; simp [hs.len]⟩
    rw [he.1] at hc'
    rcases List.mem_append.1 hc' with hc' | hc'
    · exact hs.configs c hc'
    · obtain ⟨p, hp, rfl⟩ := List.mem_map.1 hc'
      exact hc p (hnew p hp)
  have key : (sampleWith (boInner o env) s n).2 = none ∧ Good good (sampleWith (boInner o env) s n).1 ∧
      (sampleWith (boInner o env) s n).1.configs ≠ [] ∧ ∀ p ∈ (sampleWith (boInner o env) s n).1.cache, good p.1 := by
    rcases hcase with ⟨h1, h2⟩ | ⟨h1, h2, h3⟩
    · rw [h1]
      refine ⟨rfl, hs1, ?_, fun p hp => hc p (hc1 p hp)⟩
      dsimp only
      rw [he.1]
      rcases hn with hn | ⟨-, hn⟩
      · have : new ≠ [] := by rintro rfl; simp at h2; omega
        simp [this]
      · simp [hn]
    · rw [h3]
      obtain ⟨k1, k2, k3⟩ := boInner_runs h hch (n := n - new.length) (by omega) hs1
      refine ⟨k1, k2, k3, ?_⟩
      obtain ⟨-, -, hcache, -⟩ := boInner_spec o env s1 (n - new.length) (by omega)
      rw [hcache, h2]; simp
  obtain ⟨k1, k2, k3, k4⟩ := key
  unfold boSample
  split
  · next s' e he' => rw [he'] at k1; cases k1
  · next s' he' =>
    rw [he'] at k2 k3 k4
    obtain ⟨f1, f2, f3, -⟩ := fitSurrogate_fst env false s'
    exact ⟨fitSurrogate_runs h k2 k3 false, k2.congr f1 f2, by rw [f1]; exact k3, by rw [f3]; exact k4⟩

/-- **C101** (any surrogate that can be fitted) Every call of every history returns normally: `sample(n)` with `n ≥ 1`, `reset`,
`clear_cache` and `save_cache` in any order, with any cache of configurations of the space. -/
theorem C101_returns [LinearOrder K] (h : Runs good o env) (hch : 2 ≤ env.nCandidates) (r : S) (m : M) {cache : List (C × K)}
    (hc : ∀ p ∈ cache, good p.1) {ops : List SOp} (hops : ∀ n, SOp.sample n ∈ ops → 1 ≤ n) :
    ∀ e ∈ (srun (boSample o env) { (freshBO r m : BOState C K M S) with cache } ops).2, e = none := by
  have gen : ∀ (ops : List SOp) (s : BOState C K M S), (∀ n, SOp.sample n ∈ ops → 1 ≤ n) → Good good s → (∀ p ∈ s.cache, good p.1) →
      ∀ e ∈ (srun (boSample o env) s ops).2, e = none := by
    intro ops
    induction ops with
    | nil => intro s _ _ _ e he; cases he
    | cons op ops ih =>
      intro s hops hs hc e he
      have hops' : ∀ n, SOp.sample n ∈ ops → 1 ≤ n := fun n hn => hops n (by simp [hn])
      simp only [srun] at he
      cases op with
      | sample n =>
        obtain ⟨h1, h2, -, h4⟩ := boSample_runs h hch (.inl (hops n (by simp))) hs hc
        simp only [sstep, List.mem_cons] at he
        rcases he with rfl | he
        · exact h1
        · exact ih _ hops' h2 h4 e he
      | reset =>
        simp only [sstep, List.mem_cons] at he
        rcases he with rfl | he
        · rfl
        · exact ih s.reset hops' ⟨by simp [SamplerState.reset], rfl⟩ hc e he
      | clearCache =>
        simp only [sstep, List.mem_cons] at he
        rcases he with rfl | he
        · rfl
        · exact ih s.clearCache hops' ⟨hs.configs, hs.len⟩ (by simp [SamplerState.clearCache]) e he
      | saveCache =>
        simp only [sstep, List.mem_cons] at he
        rcases he with rfl | he
        · rfl
        · exact ih s hops' hs hc e he
  exact gen ops _ hops ⟨by simp [freshBO], rfl⟩ hc

/-! ### the Gaussian process -/

theorem gpFitStep_ok {d : Nat} {choose : List (List ℝ) → List ℝ → Kernel} (hk : ∀ Z t, Covariance d (choose Z t)) {cs : List (Config ℝ)} {ys : List ℝ}
    (h : TrainingData d (cs.map Config.vector) ys) (m : GpSurrogate) :
    ∃ m', gpFitStep choose m cs ys = .ok m' ∧ m.fit choose (cs.map Config.vector) ys = (m', .ok ()) := by
  obtain ⟨m', h1, -⟩ := C99_fit hk h m
  exact ⟨m', by rw [gpFitStep, h1], h1⟩

theorem configs_data {d : Nat} (hd : 1 ≤ d) {cs : List (Config ℝ)} {ys : List ℝ} (hne : cs ≠ []) (hw : ∀ c ∈ cs, c.vector.length = d)
    (hl : ys.length = cs.length) : TrainingData d (cs.map Config.vector) ys :=
  ⟨by simpa using hne, fun r hr => by obtain ⟨c, hc, rfl⟩ := List.mem_map.1 hr; exact hw c hc, hd, by simpa using hl⟩

theorem gpSampler_ok (choose : List (List ℝ) → List ℝ → Kernel) {kind : AcqKind} {minimize : Bool}
    (hmin : minimize = true ∨ ∀ eps, kind ≠ .ei eps) (initialPoints : Int) (names : List String) (drawer acqDrawer : Drawer (Config ℝ) S) (nCandidates : Int) :
    gpSampler choose kind minimize initialPoints names drawer acqDrawer nCandidates =
      .ok ({ initialPoints, minimize, names, drawer, acqDrawer, nCandidates, fit := gpFitStep choose, acq := gpAcq kind minimize }, .new) := by
  have : kind.init minimize = .ok () := by
    cases kind with
    | ei eps =>
      rcases hmin with rfl | hmin
      · rfl
      · exact absurd rfl (hmin eps)
    | pi _ => rfl
    | lcb _ => rfl
  rw [gpSampler, this, Py.ok_bind]; rfl

/-- **C101** With the default surrogate, whatever length scales its optimiser finds, an acquisition function of the package, at least one
initial point and at least two candidates, every call of every history with `n ≥ 1` returns normally, for every objective function that
does not raise on the configurations of the space. (`ExpectedImprovement` cannot be constructed for maximisation.) -/
theorem C101_default (ℓ : List (List ℝ) → List ℝ → ℝ) (hℓ : ∀ Z t, 0 < ℓ Z t) {d : Nat} (hd : 1 ≤ d) {kind : AcqKind} {minimize : Bool}
    (hmin : minimize = true ∨ ∀ eps, kind ≠ .ei eps) {initialPoints : Int} (hi : 1 ≤ initialPoints) (names : List String)
    {drawer acqDrawer : Drawer (Config ℝ) S} {nCandidates : Int} (hn : 2 ≤ nCandidates)
    {good : Config ℝ → Prop} (hw : ∀ c, good c → c.vector.length = d) (hd1 : ∀ s n, ∀ c ∈ (drawer.draw s n).1, good c)
    (hd2 : ∀ s n, ∀ c ∈ (acqDrawer.draw s n).1, good c) {o : Objective (Config ℝ) ℝ} (ho : ∀ t c, good c → o.raises t c = none) :
    ∃ env m, gpSampler (fun Z t => matern (ℓ Z t)) kind minimize initialPoints names drawer acqDrawer nCandidates = .ok (env, m) ∧
      ∀ (r : S) (cache : List (Config ℝ × ℝ)), (∀ p ∈ cache, good p.1) → ∀ ops : List SOp, (∀ n, SOp.sample n ∈ ops → 1 ≤ n) →
        ∀ e ∈ (srun (boSample o env) { freshBO r m with cache } ops).2, e = none := by
  have hk : ∀ Z t, Covariance d (matern (ℓ Z t)) := fun Z t => (C99_matern (hℓ Z t) d).1
  refine ⟨_, _, gpSampler_ok _ hmin initialPoints names drawer acqDrawer nCandidates, fun r cache hc ops hops => ?_⟩
  refine C101_returns (good := good) ⟨ho, hd1, hd2, fun m cs ys hne hg hl => ?_, hi⟩ hn r _ hc hops
  obtain ⟨m', h, -⟩ := gpFitStep_ok hk (configs_data hd hne (fun c hc => hw c (hg c hc)) hl) m
  exact ⟨m', h⟩

/-- the acquisition values are what they are meant to be; `ExpectedImprovement` exists for minimisation only -/
theorem AcqKind.value_eq (kind : AcqKind) {minimize : Bool} (hi : kind.init minimize = .ok ()) (eta mean : ℝ) {sigma : ℝ} (hs : 0 < sigma) :
    kind.value minimize (some eta) mean sigma = acqMeaning minimize eta mean sigma kind := by
  cases kind with
  | ei eps => exact C36_expectation eta eps mean hs
  | pi eps =>
    cases minimize
    · exact C37_maximise eta eps mean hs
    · exact C37_minimise eta eps mean hs
  | lcb tau =>
    cases minimize
    · simp [AcqKind.value, lcbValue, acqMeaning]
    · simp only [AcqKind.value, lcbValue, acqMeaning, if_true]; ring

/-- **C101** What an acquired point is (`IsAcquired`, see C29 and C32), for any kernels with variance 1: there is a Gaussian process fitted to exactly the vectors and values
recorded so far, with positive standard deviations, and the point is the first candidate with the largest acquisition value, computed from the
mean and standard deviation at the candidate and the best value recorded so far. -/
theorem C101_acquired_unit {d : Nat} {choose : List (List ℝ) → List ℝ → Kernel} (hk : ∀ Z t, UnitCovariance d (choose Z t)) (hd : 1 ≤ d) {kind : AcqKind} {minimize : Bool}
    {initialPoints : Int} {names : List String} {drawer acqDrawer : Drawer (Config ℝ) S} {nCandidates : Int}
    (hd2 : ∀ s n, ∀ c ∈ (acqDrawer.draw s n).1, c.vector.length = d) {env : BOEnv (Config ℝ) ℝ GpSurrogate S} {m : GpSurrogate}
    (henv : gpSampler choose kind minimize initialPoints names drawer acqDrawer nCandidates = .ok (env, m))
    {cs : List (Config ℝ)} {ys : List ℝ} (hw : ∀ c ∈ cs, c.vector.length = d) (hl : ys.length = cs.length) {c : Config ℝ} (h : IsAcquired env cs ys c) :
    ∃ (s : GpSurrogate) (mu sd : List ℝ → ℝ) (eta : ℝ) (r : S),
      GpSurrogate.new.fit choose (cs.map Config.vector) ys = (s, .ok ()) ∧
      RowWise d s.predict mu sd ∧ (∀ v, v.length = d → 0 < sd v) ∧
      eta ∈ ys ∧ (∀ y ∈ ys, if minimize then eta ≤ y else y ≤ eta) ∧
      FirstMax (fun q => acqMeaning minimize eta (mu q.vector) (sd q.vector) kind) (acqDrawer.draw r nCandidates.toNat).1 c := by
  obtain ⟨⟨⟩, hi, henv⟩ := Py.bind_eq_ok.1 henv
  obtain ⟨rfl, rfl⟩ := Prod.mk.inj (Except.ok.inj henv)
  obtain ⟨m0, m1, eta, r, hfit, hinc, hmax⟩ := h
  dsimp only at hfit hmax hinc
  have hne : cs ≠ [] := by
    rintro rfl
    have : gpFitStep choose m0 [] ys = .error .value := by
      simp [gpFitStep, GpSurrogate.fit, pipelineFit]
    rw [this] at hfit
    cases hfit
  have hdata := configs_data hd hne hw hl
  obtain ⟨s, h1, -, mu, sd, h2, -, h3⟩ := C99_unit hk hdata
  have hsame : m0.fit choose (cs.map Config.vector) ys = (s, .ok ()) := by
    rw [← h1]; rfl
  rw [gpFitStep, hsame] at hfit
  obtain rfl := Except.ok.inj hfit
  match eta, hinc, hmax with
  | none, hinc, _ =>
    have : ys = [] := hinc
    rw [this] at hl
    exact absurd (List.length_eq_zero_iff.1 hl.symm) hne
  | some v, hinc, hmax =>
    refine ⟨s, mu, sd, v, r, h1, h2, fun q hq => (h3 q hq).1, hinc.1, fun y hy => ?_, ?_⟩
    · have := hinc.2 y hy
      cases minimize
      · simpa using this
      · simpa using this
    · have hval : ∀ q ∈ (acqDrawer.draw r nCandidates.toNat).1, gpAcq kind minimize s (some v) q = acqMeaning minimize v (mu q.vector) (sd q.vector) kind := by
        intro q hq
        have : s.predict [q.vector] = .ok ([mu q.vector], [sd q.vector]) := by
          rw [h2 [q.vector] (by simp) (by simpa using hd2 _ _ q hq)]; rfl
        rw [gpAcq, this]
        exact kind.value_eq hi v _ (h3 q.vector (hd2 _ _ q hq)).1
      obtain ⟨i, e1, e2, e3⟩ := hmax
      have hcm := List.mem_of_getElem? e1
      refine ⟨i, e1, fun q hq => ?_, fun j hj q hq => ?_⟩
      · have := e2 q hq
        rw [hval c hcm, hval q hq] at this
        exact this
      · have := e3 j hj q hq
        rw [hval c hcm, hval q (List.mem_of_getElem? hq)] at this
        exact this

/-- **C101** What an acquired point is (`IsAcquired`, see C29 and C32): there is a Gaussian process fitted to exactly the vectors and values
recorded so far, with positive standard deviations, and the point is the first candidate with the largest acquisition value, computed from the
mean and standard deviation at the candidate and the best value recorded so far. -/
theorem C101_acquired (ℓ : List (List ℝ) → List ℝ → ℝ) (hℓ : ∀ Z t, 0 < ℓ Z t) {d : Nat} (hd : 1 ≤ d) {kind : AcqKind} {minimize : Bool}
    {initialPoints : Int} {names : List String} {drawer acqDrawer : Drawer (Config ℝ) S} {nCandidates : Int}
    (hd2 : ∀ s n, ∀ c ∈ (acqDrawer.draw s n).1, c.vector.length = d) {env : BOEnv (Config ℝ) ℝ GpSurrogate S} {m : GpSurrogate}
    (henv : gpSampler (fun Z t => matern (ℓ Z t)) kind minimize initialPoints names drawer acqDrawer nCandidates = .ok (env, m))
    {cs : List (Config ℝ)} {ys : List ℝ} (hw : ∀ c ∈ cs, c.vector.length = d) (hl : ys.length = cs.length) {c : Config ℝ} (h : IsAcquired env cs ys c) :
    ∃ (s : GpSurrogate) (mu sd : List ℝ → ℝ) (eta : ℝ) (r : S),
      GpSurrogate.new.fit (fun Z t => matern (ℓ Z t)) (cs.map Config.vector) ys = (s, .ok ()) ∧
      RowWise d s.predict mu sd ∧ (∀ v, v.length = d → 0 < sd v) ∧
      eta ∈ ys ∧ (∀ y ∈ ys, if minimize then eta ≤ y else y ≤ eta) ∧
      FirstMax (fun q => acqMeaning minimize eta (mu q.vector) (sd q.vector) kind) (acqDrawer.draw r nCandidates.toNat).1 c :=
  C101_acquired_unit (fun Z t => matern_unit (hℓ Z t) d) hd hd2 henv hw hl h

/-- **C101** The conditions are needed: asking a new sampler for no point is a ValueError (there is nothing to fit), and so is asking one with
no initial points for any. -/
theorem C101_nothing_to_fit (choose : List (List ℝ) → List ℝ → Kernel) (kind : AcqKind) (minimize : Bool)
    {initialPoints : Int} {names : List String} {drawer acqDrawer : Drawer (Config ℝ) S} {nCandidates : Int} {env : BOEnv (Config ℝ) ℝ GpSurrogate S}
    {m : GpSurrogate} (henv : gpSampler choose kind minimize initialPoints names drawer acqDrawer nCandidates = .ok (env, m))
    (o : Objective (Config ℝ) ℝ) (r : S) (n : Int) (hn : n ≤ 0 ∨ initialPoints ≤ 0) : (boSample o env (freshBO r m) n).2 = some .value := by
  obtain ⟨-, hi, henv⟩ := Py.bind_eq_ok.1 henv
  obtain ⟨rfl, rfl⟩ := Prod.mk.inj (Except.ok.inj henv)
  have hw := sampleWith_nocache (boInner o { initialPoints, minimize, names, drawer, acqDrawer, nCandidates, fit := gpFitStep choose, acq := gpAcq kind minimize })
    (freshBO r .new) rfl n
  unfold boSample
  rw [hw]
  by_cases hp : 0 < n
  · rw [if_pos hp]
    unfold boInner
    rw [if_neg (by simp [freshBO]; omega)]
    simp [boAcquire, fitSurrogate, freshBO, gpFitStep, GpSurrogate.fit, pipelineFit]
  · rw [if_neg hp]
    simp [fitSurrogate, freshBO, gpFitStep, GpSurrogate.fit, pipelineFit]

/-- **C101** The conditions are needed: with a single candidate the first acquisition step hands the objective function the name of a
hyperparameter instead of a configuration, a TypeError. -/
theorem C101_one_candidate [LinearOrder K] (h : Runs good o env) (hone : env.nCandidates = 1) {name : String} {names : List String}
    (hnames : env.names = name :: names) (r : S) (m : M) {n : Int} (hn : env.initialPoints < n) :
    (boSample o env (freshBO r m) n).2 = some .type := by
  have hi := h.initial
  have hw := sampleWith_nocache (boInner o env) (freshBO r m : BOState C K M S) rfl n
  have hstart : Good good (freshBO r m : BOState C K M S) := ⟨by simp [freshBO], rfl⟩
  obtain ⟨h1, h2, h3⟩ := boInitial_runs h hstart (n := n) (by omega)
  obtain ⟨cs, hext, -, hlen⟩ := boInitial_spec o env (freshBO r m : BOState C K M S) n
  obtain ⟨s1, hs1⟩ : ∃ s1, boInitial o env (freshBO r m : BOState C K M S) n = (s1, none) := ⟨_, Prod.ext rfl h1⟩
  rw [hs1] at h2 h3 hext hlen
  have hl : s1.configs.length = env.initialPoints.toNat := by
    have := congrArg List.length hext.1
    rw [hlen rfl] at this
    simp only [freshBO, List.length_append, List.length_map, List.length_nil, sampleConfiguration_length] at this
    rw [this]; omega
  have hfit := fitSurrogate_runs h h2 h3 false
  obtain ⟨f1, f2, -⟩ := fitSurrogate_fst env false s1
  obtain ⟨s2, hs2⟩ : ∃ s2, fitSurrogate env false s1 = (s2, none) := ⟨_, Prod.ext rfl hfit⟩
  rw [hs2] at f1 f2
  dsimp only at f1 f2
  have hg2 : Good good s2 := h2.congr f1 f2
  have hy : s2.ys ≠ [] := by
    intro h0
    have := hg2.len
    rw [h0, f1] at this
    exact h3 (List.length_eq_zero_iff.1 this.symm)
  obtain ⟨-, hinc⟩ := C21_incumbent env.minimize s2 hg2.len.symm
  obtain ⟨i, ci, v, hi', -⟩ := hinc hy
  have hopt : ∀ value : C → K, (getOptimum env.names env.acqDrawer env.nCandidates value s2.extra.rng).2 = .ok (.name name) := fun value => by
    rw [hnames, hone]; exact C39_counterexample name names env.acqDrawer value s2.extra.rng
  have hstep : (boStep o env s2).2 = some .type := by
    unfold boStep
    rw [hi']
    dsimp only
    have := hopt (env.acq s2.extra.model (some v))
    obtain ⟨q, hq⟩ : ∃ q, getOptimum env.names env.acqDrawer env.nCandidates (env.acq s2.extra.model (some v)) s2.extra.rng = (q, .ok (.name name)) :=
      ⟨_, Prod.ext rfl this⟩
    rw [hq]
  obtain ⟨k, hk⟩ : ∃ k, (n - ((s1.configs.length : Int) - (freshBO r m : BOState C K M S).configs.length)).toNat = k + 1 := by
    refine ⟨(n - env.initialPoints).toNat - 1, ?_⟩
    rw [hl]
    simp only [freshBO, List.length_nil]
    omega
  have hinner : (boInner o env (freshBO r m) n).2 = some .type := by
    unfold boInner
    rw [if_pos (by simp [freshBO]; omega), hs1]
    dsimp only
    rw [hk]
    unfold boAcquire
    rw [hs2]
    dsimp only
    unfold boLoop
    obtain ⟨q, hq⟩ : ∃ q, boStep o env s2 = (q, some .type) := ⟨_, Prod.ext rfl hstep⟩
    rw [hq]
  unfold boSample
  obtain ⟨q, hq⟩ : ∃ q, boInner o env (freshBO r m) n = (q, some .type) := ⟨_, Prod.ext rfl hinner⟩
  rw [hw, if_pos (by omega), hq]

/-- the hypotheses of `C101_default` can be met: one axis, drawing always the middle, the square as the objective function, the default number
of candidates; asking for two points and then for five more -/
example (ℓ : List (List ℝ) → List ℝ → ℝ) (hℓ : ∀ Z t, 0 < ℓ Z t) :
    ∃ env m, gpSampler (S := Unit) (fun Z t => matern (ℓ Z t)) (.lcb 5) true 5 ["x1"]
        ⟨fun _ n => (List.replicate n ⟨[1/2], [("x1", .num 0)]⟩, ()), by simp⟩ ⟨fun _ n => (List.replicate n ⟨[1/2], [("x1", .num 0)]⟩, ()), by simp⟩ 100 =
        .ok (env, m) ∧
      ∀ e ∈ (srun (boSample ⟨fun c => (c.vector.getD 0 0) ^ 2, fun _ _ => none⟩ env) (freshBO () m) [.sample 2, .reset, .sample 5]).2, e = none := by
  obtain ⟨env, m, h1, h2⟩ := C101_default (S := Unit) ℓ hℓ (d := 1) le_rfl (kind := .lcb 5) (minimize := true) (.inl rfl) (initialPoints := 5) (by norm_num)
    ["x1"] (drawer := ⟨fun _ n => (List.replicate n ⟨[1/2], [("x1", .num 0)]⟩, ()), by simp⟩)
    (acqDrawer := ⟨fun _ n => (List.replicate n ⟨[1/2], [("x1", .num 0)]⟩, ()), by simp⟩) (nCandidates := 100) (by norm_num)
    (good := fun c => c.vector.length = 1) (fun _ h => h) (by intro _ n c hc; rw [List.eq_of_mem_replicate hc]; rfl)
    (by intro _ n c hc; rw [List.eq_of_mem_replicate hc]; rfl) (o := ⟨fun c => (c.vector.getD 0 0) ^ 2, fun _ _ => none⟩) (fun _ _ _ => rfl)
  refine ⟨env, m, h1, h2 () [] (by simp) _ (by simp)⟩

/-- one candidate only: six points from a sampler with five initial points is a TypeError, after the five were recorded -/
example : (boSample plainObjective { sampleEnv with nCandidates := 1 } (freshBO (0, 0) 0) 6).2 = some .type ∧
    (boSample plainObjective { sampleEnv with nCandidates := 1 } (freshBO (0, 0) 0) 6).1.configs = [0, 1, 2, 3, 4] := by decide +kernel

end PyPDP
