/-
C109: the incumbent value the acquisition function works with between two calls of `sample`.
-/
import Verif.Props.BoGp

namespace PyPDP
open Spec
variable {C K M S : Type}

theorem fitSurrogate_eta (env : BOEnv C K M S) (force : Bool) (s : BOState C K M S) : (fitSurrogate env force s).1.extra.eta = s.extra.eta := by
  unfold fitSurrogate
  dsimp only
  split
  · split <;> rfl
  · rfl

theorem boInitial_eta (o : Objective C K) (env : BOEnv C K M S) (s : BOState C K M S) (n : Int) : (boInitial o env s n).1.extra.eta = s.extra.eta := by
  unfold boInitial
  dsimp only
  split
  · rfl
  · exact fitSurrogate_eta _ _ _

/-- what `eta` is after an acquired point: the best of the values before it -/
def Lags [LT K] (minimize : Bool) (s : BOState C K M S) : Prop := ∃ ys y, s.ys = ys ++ [y] ∧ IsIncumbentValue minimize ys s.extra.eta

theorem boStep_lags [LinearOrder K] {o : Objective C K} {env : BOEnv C K M S} {s t : BOState C K M S} (hlen : s.configs.length = s.ys.length)
    (h : boStep o env s = (t, none)) : Lags env.minimize t := by
  unfold boStep at h
  split at h
  · cases h
  · next ic v hv =>
    split at h
    · cases h
    · cases h
    · next r c hc =>
      dsimp only at h
      split at h
      · cases h
      · next y hy =>
        obtain ⟨u, hu⟩ : ∃ u : BOState C K M S, u = ({ s with extra := { s.extra with eta := v, rng := r } } : BOState C K M S).tick.record c y := ⟨_, rfl⟩
        rw [← hu] at h
        obtain ⟨-, f2, -⟩ := fitSurrogate_fst env false u
        have f4 := fitSurrogate_eta env false u
        rw [h] at f2 f4
        dsimp only at f2 f4
        refine ⟨s.ys, y, by rw [f2, hu]; rfl, ?_⟩
        rw [f4, hu]
        exact incumbent_isIncumbentValue hlen hv

theorem boLoop_lags [LinearOrder K] {o : Objective C K} {env : BOEnv C K M S} {k : Nat} {s t : BOState C K M S} (hh : HashOld s) (hf : Fitted env s)
    (hlen : s.configs.length = s.ys.length) (h : boLoop o env k s = (t, none)) : if k = 0 then t = s else Lags env.minimize t := by
  induction k generalizing s with
  | zero => rw [if_pos rfl]; cases h; rfl
  | succ k ih =>
    rw [if_neg (by omega)]
    unfold boLoop at h
    split at h
    · cases h
    · next s' hs =>
      have hl := boStep_lags hlen hs
      obtain ⟨h1, -, h3⟩ := boStep_acquired o env s hh hf hlen
      rw [hs] at h1 h3
      rcases h3 with ⟨h3, -⟩ | ⟨c, -, h4, h5, h6⟩
      · exact absurd rfl h3
      · have := ih h1 (h6 rfl) (by dsimp only at h4 h5; rw [h4, h5]; simp [hlen]) h
        split at this
        · rw [this]; exact hl
        · exact this

theorem boAcquire_lags [LinearOrder K] {o : Objective C K} {env : BOEnv C K M S} {k : Nat} {s t : BOState C K M S} (hh : HashOld s)
    (hlen : s.configs.length = s.ys.length) (h : boAcquire o env s k = (t, none)) :
    if k = 0 then t.extra.eta = s.extra.eta else Lags env.minimize t := by
  unfold boAcquire at h
  split at h
  · cases h
  · next s' hs =>
    obtain ⟨h1, h2, -⟩ := fitSurrogate_fst env false s
    have h4 := fitSurrogate_hash env false s hh
    have h5 := fitSurrogate_eta env false s
    rw [hs] at h1 h2 h4 h5
    dsimp only at h1 h2 h4 h5
    have := boLoop_lags h4 (fitSurrogate_fitted hh hs).1 (by rw [h1, h2, hlen]) h
    split at this
    · next hk => rw [if_pos hk, this, h5]
    · next hk => rw [if_neg hk]; exact this

/-- **C109** what is true: after a successful call `sample(n)` that acquired at least one point (without a cache, at any moment of the sampler's life) the
incumbent value of the acquisition function is the best of all values *but the last one*; after a call that only drew initial points it is what it was before. -/
theorem C109_lags [LinearOrder K] (o : Objective C K) (env : BOEnv C K M S) (r : S) (m : M) (ops : List SOp) (n : Int) {s t : BOState C K M S}
    (hs : s = (srun (boSample o env) (freshBO r m) ops).1) (hn : 1 ≤ n) (h : boSample o env s n = (t, none)) :
    if env.initialPoints ≤ s.configs.length ∨ env.initialPoints < n then ∃ ys y, t.ys = ys ++ [y] ∧ IsIncumbentValue env.minimize ys t.extra.eta
    else t.extra.eta = s.extra.eta := by
  obtain ⟨hinv, hc⟩ := boRun_inv o env ops (freshBO r m : BOState C K M S) (freshBO_inv r m [])
  rw [← hs] at hinv hc
  have hw := sampleWith_nocache (boInner o env) s (hc rfl) n
  rw [if_pos (by omega)] at hw
  unfold boSample at h
  rw [hw] at h
  split at h
  · cases h
  · next s1 h1 =>
    have e1 := fitSurrogate_eta env false s1
    obtain ⟨-, e2, -⟩ := fitSurrogate_fst env false s1
    rw [h] at e1 e2
    dsimp only at e1 e2
    unfold boInner at h1
    split at h1
    · next hlt =>
      split at h1
      · cases h1
      · next s2 h2 =>
        have i1 := boInitial_eta o env s n
        have i2 := boInitial_hash o env s n hinv.hash
        obtain ⟨cs, i3, -, i4⟩ := boInitial_spec o env s n
        rw [h2] at i1 i2 i3 i4
        dsimp only at i1 i2 i3 i4
        have hl : s2.configs.length = s.configs.length + (min env.initialPoints n).toNat := by
          rw [i3.1, List.length_append, List.length_map, List.length_map, i4 rfl, sampleConfiguration_length]
        have hl' : s2.configs.length = s2.ys.length := by
          rw [i3.1, i3.2]
          simp [hinv.len]
        have := boAcquire_lags i2 hl' h1
        by_cases hlt' : env.initialPoints < n
        · rw [if_neg (by omega)] at this
          rw [if_pos (.inr hlt')]
          obtain ⟨ys, y, a, b⟩ := this
          exact ⟨ys, y, e2.trans a, by rw [e1]; exact b⟩
        · rw [if_pos (by omega)] at this
          rw [if_neg (by omega), e1, this, i1]
    · next hge =>
      have := boAcquire_lags hinv.hash hinv.len h1
      rw [if_neg (by omega)] at this
      rw [if_pos (.inl (by omega))]
      obtain ⟨ys, y, a, b⟩ := this
      exact ⟨ys, y, e2.trans a, by rw [e1]; exact b⟩

/-- **C109**, exactly when it holds: after a call that acquired a point, the acquisition function works with the incumbent's value if and only if the last
value is not strictly better than all values before it. Missing (false): last values that are strictly better, and calls that draw initial points only. -/
theorem C109_exact_partial [LinearOrder K] (o : Objective C K) (env : BOEnv C K M S) (r : S) (m : M) (ops : List SOp) (n : Int) {s t : BOState C K M S}
    (hs : s = (srun (boSample o env) (freshBO r m) ops).1) (hn : 1 ≤ n) (hacq : env.initialPoints ≤ s.configs.length ∨ env.initialPoints < n)
    (h : boSample o env s n = (t, none)) :
    ∃ ys y, t.ys = ys ++ [y] ∧
      (IsIncumbentValue env.minimize t.ys t.extra.eta ↔ ∃ z ∈ ys, if env.minimize then z ≤ y else y ≤ z) := by
  have hl := C109_lags o env r m ops n hs hn h
  rw [if_pos hacq] at hl
  obtain ⟨ys, y, h1, h2⟩ := hl
  refine ⟨ys, y, h1, ?_⟩
  rw [h1]
  cases he : t.extra.eta with
  | none =>
    rw [he] at h2
    simp only [IsIncumbentValue] at h2 ⊢
    simp [h2]
  | some v =>
    rw [he] at h2
    obtain ⟨h3, h4⟩ := h2
    cases hm : env.minimize <;> simp only [hm, Bool.false_eq_true, if_true, if_false, not_lt] at h4 ⊢
    · constructor
      · rintro ⟨-, h5⟩
        exact ⟨v, h3, by simpa using h5 y (by simp)⟩
      · rintro ⟨z, hz, hyz⟩
        refine ⟨List.mem_append_left _ h3, fun a ha => ?_⟩
        rcases List.mem_append.1 ha with ha | ha
        · simpa using h4 a ha
        · obtain rfl := List.mem_singleton.1 ha
          simpa using hyz.trans (h4 z hz)
    · constructor
      · rintro ⟨-, h5⟩
        exact ⟨v, h3, by simpa using h5 y (by simp)⟩
      · rintro ⟨z, hz, hyz⟩
        refine ⟨List.mem_append_left _ h3, fun a ha => ?_⟩
        rcases List.mem_append.1 ha with ha | ha
        · simpa using h4 a ha
        · obtain rfl := List.mem_singleton.1 ha
          simpa using (h4 z hz).trans hyz

/-- **C109**, the consequence for the expected improvement shown or computed after `sample`: with the stale value `v` it is larger than with the incumbent's
value `w`, at every configuration whose prediction is uncertain. -/
theorem C109_overestimates {ys : List ℝ} {y v w : ℝ} (hw : IsIncumbentValue true (ys ++ [y]) (some w)) (hy : y < v)
    (eps mean : ℝ) {sigma : ℝ} (hs : 0 < sigma) :
    AcqKind.value true (some w) mean sigma (.ei eps) < AcqKind.value true (some v) mean sigma (.ei eps) := by
  have h2 : w ≤ y := by simpa using hw.2 y (by simp)
  exact C36_increasing_in_eta eps mean hs (lt_of_le_of_lt h2 hy)

/-- **C109**, after a call that draws initial points only, from a new sampler: the acquisition function has never been given a value. -/
theorem C109_initial [LinearOrder K] (o : Objective C K) (env : BOEnv C K M S) (r : S) (m : M) {n : Int} (hn : 1 ≤ n) (hini : n ≤ env.initialPoints)
    {t : BOState C K M S} (h : boSample o env (freshBO r m) n = (t, none)) : t.extra.eta = none ∧ t.ys.length = n.toNat := by
  have := C109_lags o env r m [] n rfl hn h
  rw [if_neg (by simp [freshBO, srun]; omega)] at this
  obtain ⟨init, acq, -, h2, -, -, h5⟩ := boSample_points o env (freshBO r m : BOState C K M S) (freshBO_inv r m []) rfl n
  rw [h] at h2 h5
  refine ⟨this, ?_⟩
  rw [h2, ← (h5 rfl (by omega)).2]
  simp [freshBO]

/-- the objective of the example -/
def negated : Objective Nat Int := ⟨fun c => -(c : Int), fun _ _ => none⟩

/-- **C109** fails in a concrete run: `sample(6)` with five initial points, objective `x ↦ -x`: the best value is -101, the acquisition function works with
-4. After `sample(5)` it has no value at all. -/
theorem C109_counterexample :
    (boSample negated sampleEnv (freshBO (0, 0) 0) 6).1.ys = [0, -1, -2, -3, -4, -101] ∧
    (boSample negated sampleEnv (freshBO (0, 0) 0) 6).1.extra.eta = some (-4) ∧
    (boSample negated sampleEnv (freshBO (0, 0) 0) 6).2 = none ∧
    (boSample negated sampleEnv (freshBO (0, 0) 0) 5).1.extra.eta = none := by
  decide +kernel

/-- the same run as an instance of the theorems: -4 is the best of the first five values and not of all six -/
example : ∃ ys y, (boSample negated sampleEnv (freshBO (0, 0) 0) 6).1.ys = ys ++ [y] ∧
    (IsIncumbentValue true (boSample negated sampleEnv (freshBO (0, 0) 0) 6).1.ys (boSample negated sampleEnv (freshBO (0, 0) 0) 6).1.extra.eta ↔
      ∃ z ∈ ys, z ≤ y) :=
  C109_exact_partial negated sampleEnv (0, 0) 0 [] 6 rfl (by decide) (.inr (by decide)) (Prod.ext rfl C109_counterexample.2.2.1)

end PyPDP
