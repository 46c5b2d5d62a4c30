/-
C19-C21: what every sampler records.
-/
import Verif.Lemmas.Sampler
import Mathlib.Tactic.Push

namespace PyPDP
open Spec
variable {C K X : Type}

/-! ### helper lemmas -/

theorem gridSample_spec [DecidableEq C] {G : Type} (o : Objective C K) (env : GridEnv C G)
    (s : SamplerState C K (GridExtra C G)) (n : Int) :
    (gridSample o env s n).1.cache = s.cache ∧ s.ys <+: (gridSample o env s n).1.ys ∧
    ((gridSample o env s n).2 = none → ∃ cs : List C, Extends s (gridSample o env s n).1 (cs.map fun c => (c, o.value c)) ∧
      cs.length = n.toNat) := by
  unfold gridSample
  dsimp only
  rcases gridPrepare_spec env s ((s.configs.length : Int) + n).toNat with ⟨g, s1, hp, h1, h2, h3, _⟩ | ⟨hp, _⟩
  · rw [hp]
    obtain ⟨cs, _, _, _, h4, h5⟩ := gridLoop_spec o ((s.configs.length : Int) + n).toNat g s1
    refine ⟨h4.trans h3, ?_, fun hnone => ?_⟩
    · rcases h5 with ⟨_, h5, _⟩ | ⟨_, h5, _⟩ | ⟨_, _, _, _, _, _, h5, _⟩
      · rw [h5.2, h2]; exact List.prefix_append _ _
      · rw [h5.2, h2]; exact List.prefix_append _ _
      · dsimp only; rw [h5, h2]; exact List.prefix_append _ _
    · rcases h5 with ⟨_, h5, h6⟩ | ⟨h5, _⟩ | ⟨_, _, h5, _⟩
      · refine ⟨cs, ⟨by rw [h5.1, h1], by rw [h5.2, h2]⟩, ?_⟩
        rw [h1] at h6
        omega
      · rw [h5] at hnone; cases hnone
      · rw [h5] at hnone; cases hnone
  · rw [hp]
    exact ⟨rfl, List.prefix_rfl, by simp⟩

/-- what the proofs below use of the three kinds -/
theorem sampler_ok [DecidableEq C] [LinearOrder K] {o : Objective C K}
    {sample : SamplerState C K X → Int → SamplerState C K X × Option PyErr} (hs : IsSampler o X sample)
    {s s' : SamplerState C K X} {n : Int} (h : sample s n = (s', none)) :
    ∃ new : List (C × K), new.length = n.toNat ∧ Extends s s' new ∧ (∀ p ∈ new, p ∈ s.cache ∨ p.2 = o.value p.1) ∧
      (∀ p ∈ s'.cache, p ∈ s.cache) := by
  have base : ∀ {X : Type} (inner : SamplerState C K X → Int → SamplerState C K X × Option PyErr)
      (_ : ∀ s n s', 0 < n → inner s n = (s', none) → ∃ cs : List C, cs.length = n.toNat ∧
        Extends s s' (cs.map fun c => (c, o.value c)) ∧ s'.cache = s.cache)
      (s s' : SamplerState C K X) (n : Int), sampleWith inner s n = (s', none) →
      ∃ new : List (C × K), new.length = n.toNat ∧ Extends s s' new ∧ (∀ p ∈ new, p ∈ s.cache ∨ p.2 = o.value p.1) ∧
        (∀ p ∈ s'.cache, p ∈ s.cache) := by
    intro X inner hinner s s' n h
    obtain ⟨s1, new, h1, _, _, h4, h5, h6⟩ := sampleWith_cases inner s n
    rcases h6 with ⟨h6, h7⟩ | ⟨h6, h7, h8⟩
    · rw [h6] at h
      cases h
      exact ⟨new, h7, h1, fun p hp => .inl (h4 p hp), h5⟩
    · rw [h8] at h
      obtain ⟨cs, h9, h10, h11⟩ := hinner s1 _ s' (by omega) h
      refine ⟨new ++ cs.map fun c => (c, o.value c), ?_, h1.trans h10, ?_, ?_⟩
      · rw [List.length_append, List.length_map, h9]; omega
      · intro p hp
        rcases List.mem_append.1 hp with hp | hp
        · exact .inl (h4 p hp)
        · obtain ⟨c, _, rfl⟩ := List.mem_map.1 hp; exact .inr rfl
      · intro p hp; rw [h11, h7] at hp; cases hp
  cases hs with
  | random d =>
    refine base _ ?_ s s' n h
    intro s n s' _ h
    obtain ⟨cs, h1, h2, h3⟩ := randomSample_spec o d s n
    rw [h] at h1 h2 h3
    exact ⟨cs, h3 rfl, h1, h2⟩
  | grid env =>
    refine base _ ?_ s s' n h
    intro s n s' _ h
    obtain ⟨h1, _, h3⟩ := gridSample_spec o env s n
    rw [h] at h1 h3
    obtain ⟨cs, h4, h5⟩ := h3 rfl
    exact ⟨cs, h5, h4, h1⟩
  | bo env =>
    unfold boSample at h
    split at h
    · cases h
    · next s1 h1 =>
      have := base (boInner o env) (fun s n s' hn h => by
        obtain ⟨cs, h1, h2, h3⟩ := boInner_spec o env s n hn
        rw [h] at h1 h2 h3
        exact ⟨cs, h3 rfl, h1, h2⟩) s s1 n h1
      obtain ⟨new, h2, h3, h4, h5⟩ := this
      obtain ⟨f1, f2, f3, _⟩ := fitSurrogate_fst env false s1
      rw [h] at f1 f2 f3
      exact ⟨new, h2, ⟨by rw [← h3.1, ← f1], by rw [← h3.2, ← f2]⟩, h4, by rw [show s'.cache = s1.cache from f3]; exact h5⟩

/-! ### C19 -/

/-- **C19** a call that returns normally keeps everything recorded so far and appends exactly `n` points (none for `n ≤ 0`);
each is a freshly evaluated one or one from the cache. -/
theorem C19_sample_appends [DecidableEq C] [LinearOrder K] {o : Objective C K}
    {sample : SamplerState C K X → Int → SamplerState C K X × Option PyErr} (hs : IsSampler o X sample)
    {s s' : SamplerState C K X} {n : Int} (h : sample s n = (s', none)) :
    ∃ new : List (C × K), new.length = n.toNat ∧ s'.configs = s.configs ++ new.map Prod.fst ∧
      s'.ys = s.ys ++ new.map Prod.snd ∧ ∀ p ∈ new, p ∈ s.cache ∨ p.2 = o.value p.1 := by
  obtain ⟨new, h1, ⟨h2, h3⟩, h4, _⟩ := sampler_ok hs h
  exact ⟨new, h1, h2, h3, h4⟩

/-- **C19** over any history of calls that all return normally, the numbers of configurations and of values are the sum of the
requested counts since the last reset. -/
theorem C19_history [DecidableEq C] [LinearOrder K] {o : Objective C K}
    {sample : SamplerState C K X → Int → SamplerState C K X × Option PyErr} (hs : IsSampler o X sample)
    (s : SamplerState C K X) (hlen : s.ys.length = s.configs.length) (ops : List SOp)
    (hok : ∀ e ∈ (srun sample s ops).2, e = none) :
    (srun sample s ops).1.configs.length = expectedLen s.configs.length ops ∧
    (srun sample s ops).1.ys.length = expectedLen s.configs.length ops := by
  induction ops generalizing s with
  | nil => exact ⟨rfl, hlen⟩
  | cons op ops ih =>
    simp only [srun, List.mem_cons, forall_eq_or_imp] at hok
    obtain ⟨h1, h2⟩ := hok
    simp only [srun]
    cases op with
    | sample n =>
      simp only [sstep] at h1 h2 ⊢
      obtain ⟨new, h3, h4, h5, _⟩ := C19_sample_appends hs (s' := (sample s n).1) (Prod.ext rfl h1)
      have e1 : (sample s n).1.configs.length = s.configs.length + n.toNat := by rw [h4]; simp [h3]
      have e2 : (sample s n).1.ys.length = s.configs.length + n.toNat := by rw [h5]; simp [h3, hlen]
      have := ih (sample s n).1 (e2.trans e1.symm) h2
      rw [e1] at this
      exact this
    | reset => exact ih s.reset rfl h2
    | clearCache => exact ih s.clearCache hlen h2
    | saveCache => exact ih s hlen h2

/-! ### C20 -/

theorem aligned_extends {f : C → K} {s s' : SamplerState C K X} {new : List (C × K)} (h : Aligned f s)
    (he : Extends s s' new) (hn : ∀ p ∈ new, p.2 = f p.1) : Aligned f s' := by
  unfold Aligned at *
  rw [he.1, he.2, h, List.map_append, List.map_map]
  congr 1
  exact List.map_congr_left fun p hp => hn p hp

theorem inner_aligned {o : Objective C K} (inner : SamplerState C K X → Int → SamplerState C K X × Option PyErr)
    (hinner : ∀ s n, 0 < n → ∃ cs : List C, Extends s (inner s n).1 (cs.map fun c => (c, o.value c)) ∧
      (inner s n).1.cache = s.cache) (s : SamplerState C K X) (n : Int) (ha : Aligned o.value s) (hc : CacheTrue o.value s) :
    Aligned o.value (sampleWith inner s n).1 ∧ CacheTrue o.value (sampleWith inner s n).1 := by
  obtain ⟨s1, new, h1, _, _, h4, h5, h6⟩ := sampleWith_cases inner s n
  have ha1 : Aligned o.value s1 := aligned_extends ha h1 fun p hp => hc p (h4 p hp)
  rcases h6 with ⟨h6, _⟩ | ⟨h6, h7, h8⟩
  · rw [h6]; exact ⟨ha1, fun p hp => hc p (h5 p hp)⟩
  · rw [h8]
    obtain ⟨cs, h9, h10⟩ := hinner s1 (n - new.length) (by omega)
    refine ⟨aligned_extends ha1 h9 ?_, ?_⟩
    · intro p hp
      obtain ⟨c, _, rfl⟩ := List.mem_map.1 hp; rfl
    · intro p hp; rw [h10, h7] at hp; cases hp

theorem randomOrBO_aligned [LinearOrder K] {o : Objective C K}
    {sample : SamplerState C K X → Int → SamplerState C K X × Option PyErr} (hs : IsRandomOrBO o X sample)
    (s : SamplerState C K X) (n : Int) (ha : Aligned o.value s) (hc : CacheTrue o.value s) :
    Aligned o.value (sample s n).1 ∧ CacheTrue o.value (sample s n).1 := by
  cases hs with
  | random d =>
    refine inner_aligned _ (fun s n _ => ?_) s n ha hc
    obtain ⟨cs, h1, h2, _⟩ := randomSample_spec o d s n
    exact ⟨cs, h1, h2⟩
  | bo env =>
    have := inner_aligned (o := o) (boInner o env) (fun s n hn => by
      obtain ⟨cs, h1, h2, _⟩ := boInner_spec o env s n hn
      exact ⟨cs, h1, h2⟩) s n ha hc
    unfold boSample
    split
    · next s1 e h => rw [h] at this; exact this
    · next s1 h =>
      rw [h] at this
      obtain ⟨f1, f2, f3, _⟩ := fitSurrogate_fst env false s1
      refine ⟨?_, ?_⟩
      · unfold Aligned; rw [f1, f2]; exact this.1
      · unfold CacheTrue; rw [f3]; exact this.2

/-- **C20** for RandomSampler and BayesianOptimizationSampler: after every history of calls - including calls left by an exception
of the objective function, at any evaluation, or of anything else - `config_list` and `y_list` are in step and every value is the
objective value of its configuration. (The cache must hold objective values to begin with; an empty one does.) -/
theorem C20_random_bo [LinearOrder K] {o : Objective C K}
    {sample : SamplerState C K X → Int → SamplerState C K X × Option PyErr} (hs : IsRandomOrBO o X sample)
    (s : SamplerState C K X) (ha : Aligned o.value s) (hc : CacheTrue o.value s) (ops : List SOp) :
    let s' := (srun sample s ops).1
    s'.configs.length = s'.ys.length ∧ ∀ (i : Nat) c y, s'.configs[i]? = some c → s'.ys[i]? = some y → y = o.value c := by
  have key : Aligned o.value (srun sample s ops).1 := by
    induction ops generalizing s with
    | nil => exact ha
    | cons op ops ih =>
      simp only [srun]
      cases op with
      | sample n =>
        obtain ⟨h1, h2⟩ := randomOrBO_aligned hs s n ha hc
        exact ih _ h1 h2
      | reset => exact ih _ rfl hc
      | clearCache => exact ih _ ha (by simp [CacheTrue, sstep, SamplerState.clearCache])
      | saveCache => exact ih _ ha hc
  dsimp only
  unfold Aligned at key
  refine ⟨by rw [key]; simp, fun i c y h1 h2 => ?_⟩
  rw [key, List.getElem?_map, h1] at h2
  simpa using h2.symm

/-- **C20**, partial, for GridSampler: the same as long as no call has raised. Missing (false, see `C20_grid_counterexample`): the
state after the objective function raised. -/
theorem C20_grid_partial [DecidableEq C] [LinearOrder K] {G : Type} (o : Objective C K) (env : GridEnv C G)
    (s : SamplerState C K (GridExtra C G)) (ha : Aligned o.value s) (hc : CacheTrue o.value s) (ops : List SOp)
    (hok : ∀ e ∈ (srun (gridSampler o env) s ops).2, e = none) :
    let s' := (srun (gridSampler o env) s ops).1
    s'.configs.length = s'.ys.length ∧ ∀ (i : Nat) c y, s'.configs[i]? = some c → s'.ys[i]? = some y → y = o.value c := by
  have key : Aligned o.value (srun (gridSampler o env) s ops).1 := by
    induction ops generalizing s with
    | nil => exact ha
    | cons op ops ih =>
      simp only [srun, List.mem_cons, forall_eq_or_imp] at hok
      obtain ⟨h1, h2⟩ := hok
      simp only [srun]
      cases op with
      | sample n =>
        simp only [sstep] at h1 h2 ⊢
        obtain ⟨new, _, h4, h5, h6⟩ := sampler_ok (.grid env) (s' := (gridSampler o env s n).1) (Prod.ext rfl h1)
        refine ih _ (aligned_extends ha h4 fun p hp => ?_) (fun p hp => hc p (h6 p hp)) h2
        rcases h5 p hp with h | h
        · exact hc p h
        · exact h
      | reset => exact ih _ rfl hc h2
      | clearCache => exact ih _ ha (by simp [CacheTrue, sstep, SamplerState.clearCache]) h2
      | saveCache => exact ih _ ha hc h2
  dsimp only
  unfold Aligned at key
  refine ⟨by rw [key]; simp, fun i c y h1 h2 => ?_⟩
  rw [key, List.getElem?_map, h1] at h2
  simpa using h2.symm

/-- an objective `c ↦ 10 c` that raises at its very first call -/
def failingOnce : Objective Nat Int := ⟨fun c => 10 * c, fun t _ => if t = 0 then some .user else none⟩

/-- a one-dimensional grid `0, 1, ..., k-1` that is not shuffled -/
def natGrid : GridEnv Nat Unit := ⟨1, fun n => n, List.range, fun _ l => (l, ())⟩

def gridStart : SamplerState Nat Int (GridExtra Nat Unit) := ⟨[], [], [], 0, ⟨none, ()⟩⟩

/-- **C20** fails for GridSampler: the objective raises in the first call, the user calls `sample(2)` again, and then the first
recorded value belongs to the second recorded configuration and there are more configurations than values. -/
theorem C20_grid_counterexample :
    let r := srun (gridSampler failingOnce natGrid) gridStart [.sample 2, .sample 2]
    r.2 = [some .user, none] ∧ r.1.configs = [0, 1, 2] ∧ r.1.ys = [10, 20] ∧ r.1.ys.head? ≠ some (failingOnce.value 0) := by
  decide +kernel

/-- **C20**, partial, for GridSampler: what a raising call leaves behind. If the recorded points were in step before, then
afterwards they are in step except for at most one extra configuration at the end. -/
theorem C20_grid_after_exception_partial [DecidableEq C] {G : Type} (o : Objective C K) (env : GridEnv C G)
    (s : SamplerState C K (GridExtra C G)) (ha : Aligned o.value s) (hc : CacheTrue o.value s) (n : Int) :
    let s' := (gridSampler o env s n).1
    ∃ extra : List C, extra.length ≤ 1 ∧ s'.configs = s'.configs.take s'.ys.length ++ extra ∧
      s'.ys = (s'.configs.take s'.ys.length).map o.value := by
  have fin : ∀ s' : SamplerState C K (GridExtra C G), Aligned o.value s' →
      ∃ extra : List C, extra.length ≤ 1 ∧ s'.configs = s'.configs.take s'.ys.length ++ extra ∧
        s'.ys = (s'.configs.take s'.ys.length).map o.value := by
    intro s' h
    have hl : s'.ys.length = s'.configs.length := by rw [h]; simp
    exact ⟨[], by simp, by rw [hl]; simp, by rw [hl, List.take_length]; exact h⟩
  dsimp only
  obtain ⟨s1, new, h1, _, _, h4, h5, h6⟩ := sampleWith_cases (gridSample o env) s n
  have ha1 : Aligned o.value s1 := aligned_extends ha h1 fun p hp => hc p (h4 p hp)
  unfold gridSampler
  rcases h6 with ⟨h6, _⟩ | ⟨h6, h7, h8⟩
  · rw [h6]; exact fin _ ha1
  · rw [h8]
    unfold gridSample
    dsimp only
    rcases gridPrepare_spec env s1 ((s1.configs.length : Int) + (n - new.length)).toNat with ⟨g, s2, hp, g1, g2, _⟩ | ⟨hp, _⟩
    · rw [hp]
      dsimp only
      have ha2 : Aligned o.value s2 := by unfold Aligned; rw [g1, g2]; exact ha1
      obtain ⟨cs, _, _, _, _, h10⟩ := gridLoop_spec o ((s1.configs.length : Int) + (n - new.length)).toNat g s2
      have hval : ∀ p ∈ cs.map (fun c => (c, o.value c)), p.2 = o.value p.1 := by
        intro p hp
        obtain ⟨c, _, rfl⟩ := List.mem_map.1 hp; rfl
      rcases h10 with ⟨_, h, _⟩ | ⟨_, h, _⟩ | ⟨e, c, _, _, _, h11, h12, _⟩
      · exact fin _ (aligned_extends ha2 h hval)
      · exact fin _ (aligned_extends ha2 h hval)
      · refine ⟨[c], by simp, ?_⟩
        rw [h11, h12, ha2]
        have : (List.map o.value s2.configs ++ List.map o.value cs).length = (s2.configs ++ cs).length := by simp
        rw [this, List.take_left', List.map_append]
        · exact ⟨rfl, rfl⟩
        · rfl
    · rw [hp]; exact fin _ ha1

/-! ### C21 -/

theorem argminFrom_spec [LinearOrder K] (vs pre : List K) (bi : Nat) (bv : K) (h : FirstBest (· < ·) pre bi bv) :
    ∃ v, FirstBest (· < ·) (pre ++ vs) (argminFrom bi bv pre.length vs) v := by
  induction vs generalizing pre bi bv with
  | nil => exact ⟨bv, by simpa [argminFrom] using h⟩
  | cons a vs ih =>
    obtain ⟨h1, h2, h3⟩ := h
    have hlen : bi < pre.length := by
      by_contra hc
      rw [List.getElem?_eq_none (by omega)] at h1; cases h1
    unfold argminFrom
    have e : pre ++ a :: vs = (pre ++ [a]) ++ vs := by simp
    split
    · next hlt =>
      rw [e]
      have : pre.length + 1 = (pre ++ [a]).length := by simp
      rw [this]
      apply ih
      refine ⟨by simp, ?_, ?_⟩
      · intro w hw
        rcases List.mem_append.1 hw with hw | hw
        · have := h2 w hw
          push Not at this ⊢
          exact hlt.le.trans this
        · rw [List.mem_singleton] at hw; simp [hw]
      · intro j hj w hw
        rw [List.getElem?_append_left hj] at hw
        have := h2 w (List.mem_of_getElem? hw)
        push Not at this
        exact lt_of_lt_of_le hlt this
    · next hge =>
      rw [e]
      have : pre.length + 1 = (pre ++ [a]).length := by simp
      rw [this]
      apply ih
      refine ⟨by rw [List.getElem?_append_left hlen]; exact h1, ?_, ?_⟩
      · intro w hw
        rcases List.mem_append.1 hw with hw | hw
        · exact h2 w hw
        · rw [List.mem_singleton] at hw; simpa [hw] using hge
      · intro j hj w hw
        rw [List.getElem?_append_left (by omega)] at hw
        exact h3 j hj w hw

theorem argmin_spec [LinearOrder K] {ys : List K} (h : ys ≠ []) :
    ∃ i v, argmin ys = .ok i ∧ FirstBest (· < ·) ys i v := by
  obtain ⟨a, vs, rfl⟩ := List.exists_cons_of_ne_nil h
  obtain ⟨v, hv⟩ := argminFrom_spec vs [a] 0 a ⟨by simp, by simp, by simp⟩
  exact ⟨_, v, rfl, hv⟩

theorem argmaxFrom_spec [LinearOrder K] (vs pre : List K) (bi : Nat) (bv : K) (h : FirstBest (· > ·) pre bi bv) :
    ∃ v, FirstBest (· > ·) (pre ++ vs) (argmaxFrom bi bv pre.length vs) v := by
  induction vs generalizing pre bi bv with
  | nil => exact ⟨bv, by simpa [argmaxFrom] using h⟩
  | cons a vs ih =>
    obtain ⟨h1, h2, h3⟩ := h
    have hlen : bi < pre.length := by
      by_contra hc
      rw [List.getElem?_eq_none (by omega)] at h1; cases h1
    unfold argmaxFrom
    have e : pre ++ a :: vs = (pre ++ [a]) ++ vs := by simp
    split
    · next hlt =>
      rw [e]
      have : pre.length + 1 = (pre ++ [a]).length := by simp
      rw [this]
      apply ih
      refine ⟨by simp, ?_, ?_⟩
      · intro w hw
        rcases List.mem_append.1 hw with hw | hw
        · have := h2 w hw
          push Not at this ⊢
          exact this.trans hlt.le
        · rw [List.mem_singleton] at hw; simp [hw]
      · intro j hj w hw
        rw [List.getElem?_append_left hj] at hw
        have := h2 w (List.mem_of_getElem? hw)
        push Not at this
        exact lt_of_le_of_lt this hlt
    · next hge =>
      rw [e]
      have : pre.length + 1 = (pre ++ [a]).length := by simp
      rw [this]
      apply ih
      refine ⟨by rw [List.getElem?_append_left hlen]; exact h1, ?_, ?_⟩
      · intro w hw
        rcases List.mem_append.1 hw with hw | hw
        · exact h2 w hw
        · rw [List.mem_singleton] at hw; simpa [hw] using hge
      · intro j hj w hw
        rw [List.getElem?_append_left (by omega)] at hw
        exact h3 j hj w hw

theorem argmax_spec [LinearOrder K] {ys : List K} (h : ys ≠ []) :
    ∃ i v, argmax ys = .ok i ∧ FirstBest (· > ·) ys i v := by
  obtain ⟨a, vs, rfl⟩ := List.exists_cons_of_ne_nil h
  obtain ⟨v, hv⟩ := argmaxFrom_spec vs [a] 0 a ⟨by simp, by simp, by simp⟩
  exact ⟨_, v, rfl, hv⟩

/-- the order of preference -/
def Better [LinearOrder K] (minimize : Bool) (a b : K) : Prop := if minimize then a < b else a > b

/-- **C21** the incumbent: `(None, inf)` without points, otherwise the configuration and value at the first best position. -/
theorem C21_incumbent [LinearOrder K] (minimize : Bool) (s : SamplerState C K X) (hlen : s.configs.length = s.ys.length) :
    (s.ys = [] → incumbent minimize s = .ok (none, none)) ∧
    (s.ys ≠ [] → ∃ i c v, incumbent minimize s = .ok (some c, some v) ∧ s.configs[i]? = some c ∧
      FirstBest (Better minimize) s.ys i v) := by
  refine ⟨fun h => by simp [incumbent, h], fun h => ?_⟩
  have hne : s.ys.length ≠ 0 := by simpa using h
  have fin : ∀ i v (better : K → K → Prop), FirstBest better s.ys i v →
      ∃ c, pyGet s.configs i = .ok c ∧ s.configs[i]? = some c ∧ pyGet s.ys i = .ok v := by
    intro i v better hb
    have hi : i < s.ys.length := by
      by_contra hc
      have := hb.1
      rw [List.getElem?_eq_none (by omega)] at this; cases this
    have hi' : i < s.configs.length := by omega
    refine ⟨s.configs[i], ?_, List.getElem?_eq_getElem hi', ?_⟩
    · rw [pyGet, List.getElem?_eq_getElem hi']
    · rw [pyGet, hb.1]
  cases minimize with
  | true =>
    obtain ⟨i, v, h1, h2⟩ := argmin_spec h
    obtain ⟨c, h3, h4, h5⟩ := fin i v _ h2
    refine ⟨i, c, v, ?_, h4, by simpa [Better, FirstBest] using h2⟩
    unfold incumbent
    rw [if_neg hne, bestIndex, if_pos rfl, h1, Py.ok_bind, h3, Py.ok_bind, h5]; rfl
  | false =>
    obtain ⟨i, v, h1, h2⟩ := argmax_spec h
    obtain ⟨c, h3, h4, h5⟩ := fin i v _ h2
    refine ⟨i, c, v, ?_, h4, by simpa [Better, FirstBest] using h2⟩
    unfold incumbent
    rw [if_neg hne, bestIndex, if_neg (by simp), h1, Py.ok_bind, h3, Py.ok_bind, h5]; rfl

theorem incumbent_value [LinearOrder K] {minimize : Bool} {s : SamplerState C K X} {c : Option C} {v : K}
    (h : incumbent minimize s = .ok (c, some v)) : v ∈ s.ys ∧ ∀ w ∈ s.ys, ¬ Better minimize w v := by
  unfold incumbent at h
  split at h
  · cases h
  · next hne =>
    have hne : s.ys ≠ [] := by intro h0; simp [h0] at hne
    obtain ⟨i, hi, h⟩ := Py.bind_eq_ok.1 h
    obtain ⟨c', hc, h⟩ := Py.bind_eq_ok.1 h
    obtain ⟨v', hv, h⟩ := Py.bind_eq_ok.1 h
    cases h
    have hv' : s.ys[i]? = some v := by
      unfold pyGet at hv
      split at hv
      · next a ha => rw [ha, Except.ok.inj hv]
      · cases hv
    cases minimize with
    | true =>
      obtain ⟨i', v', h1, h2⟩ := argmin_spec hne
      rw [bestIndex, if_pos rfl, h1] at hi
      obtain rfl := Except.ok.inj hi
      rw [h2.1] at hv'
      obtain rfl := Option.some.inj hv'
      exact ⟨List.mem_of_getElem? h2.1, by simpa [Better] using h2.2.1⟩
    | false =>
      obtain ⟨i', v', h1, h2⟩ := argmax_spec hne
      rw [bestIndex, if_neg (by simp), h1] at hi
      obtain rfl := Except.ok.inj hi
      rw [h2.1] at hv'
      obtain rfl := Option.some.inj hv'
      exact ⟨List.mem_of_getElem? h2.1, by simpa [Better] using h2.2.1⟩

theorem sampler_prefix [DecidableEq C] [LinearOrder K] {o : Objective C K}
    {sample : SamplerState C K X → Int → SamplerState C K X × Option PyErr} (hs : IsSampler o X sample)
    (s : SamplerState C K X) (n : Int) : s.ys <+: (sample s n).1.ys := by
  have base : ∀ {X : Type} (inner : SamplerState C K X → Int → SamplerState C K X × Option PyErr)
      (_ : ∀ s n, 0 < n → s.ys <+: (inner s n).1.ys) (s : SamplerState C K X) (n : Int),
      s.ys <+: (sampleWith inner s n).1.ys := by
    intro X inner hinner s n
    obtain ⟨s1, new, h1, _, _, _, _, h6⟩ := sampleWith_cases inner s n
    have hp : s.ys <+: s1.ys := by rw [h1.2]; exact List.prefix_append _ _
    rcases h6 with ⟨h6, _⟩ | ⟨h6, _, h8⟩
    · rw [h6]; exact hp
    · rw [h8]; exact hp.trans (hinner _ _ (by omega))
  cases hs with
  | random d =>
    refine base _ (fun s n _ => ?_) s n
    obtain ⟨cs, h1, _⟩ := randomSample_spec o d s n
    rw [h1.2]; exact List.prefix_append _ _
  | grid env => exact base _ (fun s n _ => (gridSample_spec o env s n).2.1) s n
  | bo env =>
    have := base (boInner o env) (fun s n hn => by
      obtain ⟨cs, h1, _⟩ := boInner_spec o env s n hn
      rw [h1.2]; exact List.prefix_append _ _) s n
    unfold boSample
    split
    · next s1 e h => rw [h] at this; exact this
    · next s1 h =>
      rw [h] at this
      rw [(fitSurrogate_fst env false s1).2.1]; exact this

/-- **C21** over any history without reset - whether or not calls raise - the incumbent value never gets worse, and once there is
one it stays. -/
theorem C21_never_worse [DecidableEq C] [LinearOrder K] {o : Objective C K}
    {sample : SamplerState C K X → Int → SamplerState C K X × Option PyErr} (hs : IsSampler o X sample) (minimize : Bool)
    (s : SamplerState C K X) (ops : List SOp) (hno : SOp.reset ∉ ops) {c c' : Option C} {v : K} {v' : Option K}
    (h : incumbent minimize s = .ok (c, some v)) (h' : incumbent minimize (srun sample s ops).1 = .ok (c', v')) :
    ∃ w, v' = some w ∧ ¬ Better minimize v w := by
  have hp : s.ys <+: (srun sample s ops).1.ys := by
    clear h h'
    induction ops generalizing s with
    | nil => exact List.prefix_rfl
    | cons op ops ih =>
      simp only [List.mem_cons, not_or] at hno
      simp only [srun]
      cases op with
      | sample n => exact (sampler_prefix hs s n).trans (ih _ hno.2)
      | reset => exact absurd rfl hno.1
      | clearCache => exact ih s.clearCache hno.2
      | saveCache => exact ih s hno.2
  obtain ⟨h1, _⟩ := incumbent_value h
  have hne : (srun sample s ops).1.ys ≠ [] := List.ne_nil_of_mem (hp.subset h1)
  cases v' with
  | none =>
    unfold incumbent at h'
    rw [if_neg (by simpa using hne)] at h'
    obtain ⟨i, hi, h'⟩ := Py.bind_eq_ok.1 h'
    obtain ⟨c', hc, h'⟩ := Py.bind_eq_ok.1 h'
    obtain ⟨v', hv, h'⟩ := Py.bind_eq_ok.1 h'
    cases h'
  | some w => exact ⟨w, rfl, (incumbent_value h').2 v (hp.subset h1)⟩

/-! ### the hypotheses are satisfiable -/

/-- draws `s, s+1, ...` from state `s` -/
def countingDrawer : Drawer Nat Nat := ⟨fun s n => (List.range' s n, s + n), by simp⟩

def plainObjective : Objective Nat Int := ⟨fun c => 10 * c, fun _ _ => none⟩

def randomStart : SamplerState Nat Int Nat := ⟨[], [], [], 0, 0⟩

example : IsSampler plainObjective Nat (randomSampler plainObjective countingDrawer) := .random _
example : (srun (randomSampler plainObjective countingDrawer) randomStart [.sample 2, .sample 3]).2 = [none, none] ∧
    (srun (randomSampler plainObjective countingDrawer) randomStart [.sample 2, .sample 3]).1.configs = [0, 1, 2, 3, 4] ∧
    (srun (randomSampler plainObjective countingDrawer) randomStart [.sample 2, .sample 3]).1.ys = [0, 10, 20, 30, 40] := by
  decide +kernel
example : incumbent true (srun (randomSampler plainObjective countingDrawer) randomStart [.sample 2, .sample 3]).1 =
    .ok (some 0, some 0) := by decide +kernel
example : (srun (gridSampler plainObjective natGrid) gridStart [.sample 2, .sample 3]).2 = [none, none] := by decide +kernel

end PyPDP
