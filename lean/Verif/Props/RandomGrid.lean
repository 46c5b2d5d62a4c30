/-
C26-C28: RandomSampler and GridSampler.
-/
import Verif.Props.Sampler
import Verif.Lemmas.Grid

namespace PyPDP
open Spec
variable {C K S G : Type}

theorem sampleWith_nocache {X : Type} (inner : SamplerState C K X → Int → SamplerState C K X × Option PyErr)
    (s : SamplerState C K X) (hcache : s.cache = []) (n : Int) :
    sampleWith inner s n = if 0 < n then inner s n else (s, none) := by
  have hs : s.clearCache = s := by cases s; simp_all [SamplerState.clearCache]
  have e : ∀ k, useCache k s = (s, 0) := by
    intro k; rw [useCache_eq, hcache]; cases s; simp_all
  unfold sampleWith
  simp only [hs, ite_self, e, Nat.cast_zero, sub_zero]

/-! ### C26 -/

theorem randomLoop_ok (o : Objective C K) (l : List C) (hno : ∀ t c, o.raises t c = none) (k i : Nat) (h : i + k = l.length)
    (s : SamplerState C K S) :
    randomLoop o (.many l) i k s =
      (⟨s.configs ++ l.drop i, s.ys ++ (l.drop i).map o.value, s.cache, s.calls + k, s.extra⟩, none) := by
  induction k generalizing i s with
  | zero =>
    have : l.drop i = [] := List.drop_eq_nil_of_le (by omega)
    simp [randomLoop, this]
  | succ k ih =>
    have hi : i < l.length := by omega
    unfold randomLoop
    have : Draws.get (.many l) i = .ok l[i] := by simp [Draws.get, pyGet, hi]
    rw [this]
    have hv : o.eval s.calls l[i] = .ok (o.value l[i]) := by rw [Objective.eval, hno]
    dsimp only
    rw [hv]
    dsimp only
    have hdrop : l.drop i = l[i] :: l.drop (i + 1) := List.drop_eq_getElem_cons hi
    rw [ih (i + 1) (by omega), hdrop]
    simp only [SamplerState.tick, SamplerState.record, Nat.add_assoc, Nat.add_comm 1 k, List.append_assoc, List.map_cons,
      List.cons_append, List.nil_append]

/-- **C26**, partial: without cache and with an objective that returns normally, `sample(n)` for `n ≥ 2` records exactly the `n`
configurations drawn from the sampler's config space, in order, each with its value, and leaves the random state after the draw.
Missing (false, see `C26_counterexample`): `n = 1`. -/
theorem C26_drawn_partial (o : Objective C K) (d : Drawer C S) (hno : ∀ t c, o.raises t c = none) (s : SamplerState C K S)
    (hcache : s.cache = []) (n : Nat) (hn : 2 ≤ n) :
    randomSampler o d s n =
      (⟨s.configs ++ (d.draw s.extra n).1, s.ys ++ (d.draw s.extra n).1.map o.value, [], s.calls + n, (d.draw s.extra n).2⟩,
        none) := by
  have e : randomSampler o d s n = randomSample o d s n := by
    rw [randomSampler, sampleWith_nocache _ s hcache, if_pos (by omega)]
  rw [e, randomSample]
  have hd : d.sampleConfiguration s.extra n = (.many (d.draw s.extra n).1, (d.draw s.extra n).2) := by
    unfold Drawer.sampleConfiguration
    have h1 : ¬ (n : Int) < 1 := by omega
    have h2 : ¬ (n : Int) = 1 := by omega
    simp only [if_neg h1, if_neg h2, Int.toNat_natCast]
  rw [hd]
  dsimp only
  rw [randomLoop_ok o _ hno _ 0 (by simp [d.draw_length])]
  simp [hcache]

/-- **C26** fails for `n = 1`: on every config space, an uncached `sample(1)` raises a KeyError and records nothing. -/
theorem C26_counterexample (o : Objective C K) (d : Drawer C S) (s : SamplerState C K S) (hcache : s.cache = []) :
    (randomSampler o d s 1).2 = some .key ∧ (randomSampler o d s 1).1.configs = s.configs ∧
    (randomSampler o d s 1).1.ys = s.ys ∧ (randomSampler o d s 1).1.calls = s.calls := by
  have e : randomSampler o d s 1 = randomSample o d s 1 := by
    rw [randomSampler, sampleWith_nocache _ s hcache, if_pos (by omega)]
  have hd : ∃ c r, d.sampleConfiguration s.extra 1 = (.one c, r) := by
    obtain ⟨c, hc⟩ := List.length_eq_one_iff.1 (d.draw_length s.extra 1)
    refine ⟨c, (d.draw s.extra 1).2, ?_⟩
    unfold Drawer.sampleConfiguration
    have hc' : (d.draw s.extra (1 : Int).toNat).1 = [c] := hc
    simp [hc]
  obtain ⟨c, r, hd⟩ := hd
  rw [e, randomSample, hd]
  exact ⟨rfl, rfl, rfl, rfl⟩

example : (randomSampler plainObjective countingDrawer randomStart 3).1.configs = [0, 1, 2] ∧
    (randomSampler plainObjective countingDrawer randomStart 1).2 = some .key := by decide +kernel

/-! ### C27 -/

/-- points that lie on some regular grid -/
def OnGrid (env : GridEnv C G) (c : C) : Prop := ∃ k, c ∈ env.generate k

theorem gridSample_points [DecidableEq C] (o : Objective C K) (env : GridEnv C G) (hperm : ∀ r l, (env.shuffle r l).1.Perm l)
    (s : SamplerState C K (GridExtra C G)) (n : Int) (hgrid : ∀ g, s.extra.grid = some g → ∀ c ∈ g, OnGrid env c) :
    ∃ cs : List C, (gridSample o env s n).1.configs = s.configs ++ cs ∧ cs.Nodup ∧ (∀ c ∈ cs, c ∉ s.configs) ∧
      ((gridSample o env s n).2 = none → ∀ c ∈ cs, OnGrid env c) := by
  unfold gridSample
  dsimp only
  rcases gridPrepare_spec env s ((s.configs.length : Int) + n).toNat with ⟨g, s1, hp, h1, h2, h3, _, _, hg⟩ | ⟨hp, _⟩
  · rw [hp]
    dsimp only
    have hon : ∀ c ∈ g, OnGrid env c := by
      rcases hg with ⟨hg, _⟩ | ⟨r, rfl⟩
      · exact hgrid g hg
      · exact fun c hc => ⟨_, (hperm _ _).subset hc⟩
    obtain ⟨cs, hsub, hnew, hnd, h4, h5⟩ := gridLoop_spec o ((s.configs.length : Int) + n).toNat g s1
    rw [h1] at hnew
    rcases h5 with ⟨h5, h6, _⟩ | ⟨h5, h6, _⟩ | ⟨e, c, h5, h6, h7, h8, _⟩
    · refine ⟨cs, ?_, hnd, hnew, fun _ c hc => hon c (hsub.subset hc)⟩
      rw [h6.1, h1]; simp [Function.comp_def]
    · refine ⟨cs, ?_, hnd, hnew, fun _ c hc => hon c (hsub.subset hc)⟩
      rw [h6.1, h1]; simp [Function.comp_def]
    · refine ⟨cs ++ [c], ?_, ?_, ?_, fun h => by rw [h5] at h; cases h⟩
      · rw [h8, h1]; simp
      · rw [List.nodup_append]
        refine ⟨hnd, by simp, ?_⟩
        rintro a ha b hb rfl
        rw [List.mem_singleton] at hb
        exact h7 (hb ▸ ha)
      · intro a ha
        rcases List.mem_append.1 ha with ha | ha
        · exact hnew a ha
        · rw [List.mem_singleton] at ha; rw [ha, ← h1]; exact h6
  · rw [hp]
    exact ⟨[], by simp, by simp, by simp, by simp⟩

theorem gridLoop_grid [DecidableEq C] (o : Objective C K) (target : Nat) (g : List C) (s : SamplerState C K (GridExtra C G))
    (hs : ∃ g0, s.extra.grid = some g0 ∧ g <:+ g0) (P : C → Prop) (hP : ∀ g0, s.extra.grid = some g0 → ∀ c ∈ g0, P c) :
    ∀ g', (gridLoop o target g s).1.extra.grid = some g' → ∀ c ∈ g', P c := by
  induction g generalizing s with
  | nil =>
    unfold gridLoop
    split <;> exact hP
  | cons c rest ih =>
    obtain ⟨g0, hg0, hsuf⟩ := hs
    have hrest : ∀ c' ∈ rest, P c' := fun c' hc' => hP g0 hg0 c' (hsuf.subset (List.mem_cons_of_mem _ hc'))
    unfold gridLoop
    split
    · dsimp only
      split
      · apply ih
        · exact ⟨rest, rfl, List.suffix_rfl⟩
        · rintro g0 h; cases h; exact hrest
      · split
        · rintro g' h; cases h; exact hrest
        · apply ih
          · exact ⟨rest, rfl, List.suffix_rfl⟩
          · rintro g0 h; cases h; exact hrest
    · exact hP

theorem gridSample_grid [DecidableEq C] (o : Objective C K) (env : GridEnv C G) (hperm : ∀ r l, (env.shuffle r l).1.Perm l)
    (s : SamplerState C K (GridExtra C G)) (n : Int) (hgrid : ∀ g, s.extra.grid = some g → ∀ c ∈ g, OnGrid env c) :
    ∀ g, (gridSample o env s n).1.extra.grid = some g → ∀ c ∈ g, OnGrid env c := by
  unfold gridSample
  dsimp only
  rcases gridPrepare_spec env s ((s.configs.length : Int) + n).toNat with ⟨g, s1, hp, h1, h2, h3, _, hg1, hg⟩ | ⟨hp, _⟩
  · rw [hp]
    dsimp only
    apply gridLoop_grid o _ g s1 ⟨g, hg1, List.suffix_rfl⟩
    intro g0 h
    rw [hg1] at h
    cases h
    rcases hg with ⟨hg, _⟩ | ⟨r, rfl⟩
    · exact hgrid g hg
    · exact fun c hc => ⟨_, (hperm _ _).subset hc⟩
  · rw [hp]; exact hgrid

theorem gridSampler_nocache [DecidableEq C] (o : Objective C K) (env : GridEnv C G) (s : SamplerState C K (GridExtra C G))
    (hcache : s.cache = []) (n : Int) : gridSampler o env s n = if 0 < n then gridSample o env s n else (s, none) :=
  sampleWith_nocache _ s hcache n

/-- **C27** in every history of sample/reset/... calls of a GridSampler without cache - also when the objective raises now and
then - the recorded configurations are pairwise different; and if all calls succeed they all lie on regular grids of the config
space. Shuffling is only assumed to permute. -/
theorem C27_no_duplicates [DecidableEq C] (o : Objective C K) (env : GridEnv C G) (hperm : ∀ r l, (env.shuffle r l).1.Perm l)
    (r : G) (ops : List SOp) :
    let res := srun (gridSampler o env) ⟨[], [], [], 0, ⟨none, r⟩⟩ ops
    res.1.configs.Nodup ∧ ((∀ e ∈ res.2, e = none) → ∀ c ∈ res.1.configs, ∃ k, c ∈ env.generate k) := by
  have key : ∀ (ops : List SOp) (s : SamplerState C K (GridExtra C G)), s.cache = [] → s.configs.Nodup →
      (∀ g, s.extra.grid = some g → ∀ c ∈ g, OnGrid env c) →
      (srun (gridSampler o env) s ops).1.configs.Nodup ∧
      ((∀ c ∈ s.configs, OnGrid env c) → (∀ e ∈ (srun (gridSampler o env) s ops).2, e = none) →
        ∀ c ∈ (srun (gridSampler o env) s ops).1.configs, OnGrid env c) := by
    intro ops
    induction ops with
    | nil => intro s _ h _; exact ⟨h, fun h _ => h⟩
    | cons op ops ih =>
      intro s hc hnd hg
      cases op with
      | sample n =>
        simp only [srun, sstep]
        by_cases hn : 0 < n
        · obtain ⟨h1, _⟩ := gridSample_spec o env s n
          obtain ⟨cs, h2, h3, h4, h5⟩ := gridSample_points o env hperm s n hg
          have h6 := gridSample_grid o env hperm s n hg
          rw [gridSampler_nocache o env s hc n, if_pos hn]
          obtain ⟨k1, k2⟩ := ih (gridSample o env s n).1 (h1.trans hc) (by
            rw [h2, List.nodup_append]
            refine ⟨hnd, h3, ?_⟩
            rintro a ha b hb rfl
            exact h4 a hb ha) h6
          refine ⟨k1, fun hs he => k2 ?_ fun e he' => he e (List.mem_cons_of_mem _ he')⟩
          intro c hcm
          rw [h2] at hcm
          rcases List.mem_append.1 hcm with hcm | hcm
          · exact hs c hcm
          · exact h5 (he _ List.mem_cons_self) c hcm
        · rw [gridSampler_nocache o env s hc n, if_neg hn]
          obtain ⟨k1, k2⟩ := ih s hc hnd hg
          exact ⟨k1, fun hs he => k2 hs fun e he' => he e (List.mem_cons_of_mem _ he')⟩
      | reset =>
        obtain ⟨k1, k2⟩ := ih s.reset hc List.nodup_nil hg
        exact ⟨k1, fun _ he => k2 (by simp [SamplerState.reset]) fun e he' => he e (List.mem_cons_of_mem _ he')⟩
      | clearCache =>
        obtain ⟨k1, k2⟩ := ih s.clearCache rfl hnd hg
        exact ⟨k1, fun hs he => k2 hs fun e he' => he e (List.mem_cons_of_mem _ he')⟩
      | saveCache =>
        obtain ⟨k1, k2⟩ := ih s hc hnd hg
        exact ⟨k1, fun hs he => k2 hs fun e he' => he e (List.mem_cons_of_mem _ he')⟩
  obtain ⟨h1, h2⟩ := key ops ⟨[], [], [], 0, ⟨none, r⟩⟩ rfl List.nodup_nil (by simp)
  exact ⟨h1, h2 (by simp)⟩

example : (srun (gridSampler plainObjective natGrid) gridStart [.sample 2, .sample 3]).1.configs = [0, 1, 2, 3, 4] := by
  decide +kernel
example : ∀ (r : Unit) (l : List Nat), (natGrid.shuffle r l).1.Perm l := fun _ _ => .rfl

/-! ### C28 -/

/-- number of points of the regular grid with `k` steps: `k ^ d` on `d` float hyperparameters -/
theorem C28_grid_size (intGrid : Hp ℝ → Nat → List (Val ℝ)) (cs : ConfigSpace ℝ)
    (hfloat : ∀ hp ∈ cs, ∃ l u b, hp.kind = .float l u b ∧ l < u ∧ (b = true → 0 < l)) (k : Nat) :
    (generateGrid intGrid cs k).length = k ^ cs.length ∧ (generateGrid intGrid cs k).Nodup := by
  constructor
  · unfold generateGrid
    rw [cartesian_length, List.map_map]
    have : cs.map (List.length ∘ axisGrid intGrid k) = cs.map fun _ => k := by
      apply List.map_congr_left
      intro hp hm
      obtain ⟨l, u, b, hk, _⟩ := hfloat hp hm
      cases b <;> simp [axisGrid, hk, linspace]
    rw [this]
    simp
  · apply cartesian_nodup
    intro l hl
    obtain ⟨hp, hm, rfl⟩ := List.mem_map.1 hl
    obtain ⟨l, u, b, hk, hlu, hpos⟩ := hfloat hp hm
    cases b with
    | false =>
      simp only [axisGrid, hk]
      exact (linspace_nodup hlu k).map fun a b h => by injection h
    | true =>
      simp only [axisGrid, hk]
      refine (linspace_nodup (Real.log_lt_log (hpos rfl) hlu) k).map fun a b h => ?_
      exact Real.exp_injective (by injection h)

theorem gridLoop_lengths [DecidableEq C] (o : Objective C K) (hno : ∀ t c, o.raises t c = none) (target : Nat) (g : List C)
    (s : SamplerState C K (GridExtra C G)) :
    (gridLoop o target g s).1.configs.length + s.ys.length = (gridLoop o target g s).1.ys.length + s.configs.length := by
  induction g generalizing s with
  | nil => unfold gridLoop; split <;> exact Nat.add_comm _ _
  | cons c rest ih =>
    unfold gridLoop
    split
    · dsimp only
      split
      · exact ih _
      · have : o.eval s.calls c = .ok (o.value c) := by rw [Objective.eval, hno]
        rw [this]
        have := ih ((({ s with extra := { s.extra with grid := some rest } } :
          SamplerState C K (GridExtra C G)).record c (o.value c)).tick)
        simp only [SamplerState.record, SamplerState.tick, List.length_append, List.length_cons, List.length_nil] at this ⊢
        omega
    · exact Nat.add_comm _ _

/-- a grid without duplicates and with at least `target` points is enough -/
theorem gridLoop_enough [DecidableEq C] (o : Objective C K) (hno : ∀ t c, o.raises t c = none) (target : Nat) (g : List C)
    (s : SamplerState C K (GridExtra C G)) (hnd : g.Nodup) (h : target ≤ g.length) : (gridLoop o target g s).2 = none := by
  obtain ⟨cs, _, _, _, _, h2⟩ := gridLoop_spec o target g s
  rcases h2 with ⟨h2, _⟩ | ⟨_, _, h3, h4⟩ | ⟨e, c, _, _, _, h5, h6, _⟩
  · exact h2
  · have hsub : g ⊆ s.configs ++ cs := fun c hc => List.mem_append.2 (h3 c hc)
    have := (hnd.subperm hsub).length_le
    rw [List.length_append] at this
    omega
  · have := gridLoop_lengths o hno target g s
    rw [h5, h6] at this
    simp at this
    omega

/-- a grid of unused points is used up in order -/
theorem gridLoop_unused [DecidableEq C] (o : Objective C K) (hno : ∀ t c, o.raises t c = none) (g : List C)
    (s : SamplerState C K (GridExtra C G)) (hnd : g.Nodup) (hdis : ∀ c ∈ g, c ∉ s.configs) (hg : s.extra.grid = some g)
    (m : Nat) (hm : m ≤ g.length) :
    (gridLoop o (s.configs.length + m) g s).2 = none ∧
    (gridLoop o (s.configs.length + m) g s).1.configs = s.configs ++ g.take m ∧
    (gridLoop o (s.configs.length + m) g s).1.cache = s.cache ∧
    (gridLoop o (s.configs.length + m) g s).1.extra.grid = some (g.drop m) := by
  induction g generalizing s m with
  | nil =>
    have : m = 0 := by simpa using hm
    subst this
    simp [gridLoop, hg]
  | cons c rest ih =>
    cases m with
    | zero => simp [gridLoop, hg]
    | succ m =>
      have hc : c ∉ s.configs := hdis c List.mem_cons_self
      have hv : o.eval s.calls c = .ok (o.value c) := by rw [Objective.eval, hno]
      unfold gridLoop
      rw [if_pos (by omega)]
      dsimp only
      rw [if_neg hc, hv]
      dsimp only
      obtain ⟨hnc, hnd⟩ := List.nodup_cons.1 hnd
      have := ih ((({ s with extra := { s.extra with grid := some rest } } :
          SamplerState C K (GridExtra C G)).record c (o.value c)).tick) hnd (by
        intro c' hc' hmem
        simp only [SamplerState.record, SamplerState.tick] at hmem
        rcases List.mem_append.1 hmem with hmem | hmem
        · exact hdis c' (List.mem_cons_of_mem _ hc') hmem
        · rw [List.mem_singleton] at hmem; exact hnc (hmem ▸ hc')) rfl m (by simpa using hm)
      have e : ((({ s with extra := { s.extra with grid := some rest } } :
          SamplerState C K (GridExtra C G)).record c (o.value c)).tick).configs.length + m = s.configs.length + (m + 1) := by
        simp [SamplerState.record, SamplerState.tick]; omega
      rw [e] at this
      obtain ⟨h1, h2, h3, h4⟩ := this
      refine ⟨h1, ?_, h3, h4⟩
      rw [h2]; simp [SamplerState.record, SamplerState.tick]

/-- The environment of a GridSampler on a config space of the modelled kinds. -/
noncomputable def spaceGridEnv (intGrid : Hp ℝ → Nat → List (Val ℝ)) (cs : ConfigSpace ℝ)
    (perAxis : Nat → Nat) (shuffle : G → List (List (Val ℝ)) → List (List (Val ℝ)) × G) : GridEnv (List (Val ℝ)) G :=
  ⟨cs.length, perAxis, generateGrid intGrid cs, shuffle⟩

/-- the part of the proofs below that does not depend on the hyperparameters -/
theorem gridSampler_regenerates [DecidableEq C] (o : Objective C K) (hno : ∀ t c, o.raises t c = none) (env : GridEnv C G)
    (hperm : ∀ r l, (env.shuffle r l).1.Perm l) (hd : env.nDims ≠ 0)
    (hsize : ∀ k, (env.generate k).length = k ^ env.nDims) (hnd : ∀ k, (env.generate k).Nodup)
    (s : SamplerState C K (GridExtra C G)) (hcache : s.cache = []) (n : Int)
    (hroot : ((s.configs.length : Int) + n).toNat ≤ env.perAxis ((s.configs.length : Int) + n).toNat ^ env.nDims)
    (hleft : ∀ g, s.extra.grid = some g → (g.length : Int) < n ∨ (g.Nodup ∧ ∀ c ∈ g, c ∉ s.configs)) :
    (gridSampler o env s n).2 = none := by
  rw [gridSampler_nocache o env s hcache]
  split
  · next hn =>
    unfold gridSample
    dsimp only
    rcases gridPrepare_spec env s ((s.configs.length : Int) + n).toNat with ⟨g, s1, hp, h1, h2, h3, _, hg1, hg⟩ | ⟨_, h0⟩
    · rw [hp]
      dsimp only
      rcases hg with ⟨hg, hlen⟩ | ⟨r, rfl⟩
      · rcases hleft g hg with hl | ⟨hl1, hl2⟩
        · omega
        · have e : ((s.configs.length : Int) + n).toNat = s1.configs.length + n.toNat := by rw [h1]; omega
          rw [e]
          exact (gridLoop_unused o hno g s1 hl1 (by rw [h1]; exact hl2) hg1 n.toNat (by omega)).1
      · apply gridLoop_enough o hno
        · exact (hperm _ _).nodup_iff.2 (hnd _)
        · rw [(hperm _ _).length_eq, hsize]
          exact hroot
    · exact absurd h0 hd
  · rfl

open Classical in
/-- **C28**, partial: on every config space of (at least one) float hyperparameters and with an objective that returns normally,
`sample(n)` succeeds for every `n` on a sampler that has no grid yet, or whose leftover grid is too small and gets regenerated, or
contains no point that was already used - provided the value computed for `int(np.ceil(m ** (1 / d)))`, `m = len + n`, is not too
small (see C136_enough). Missing (false, see `C28_counterexample`): leftover grids with used points. -/
theorem C28_enough_partial (o : Objective (List (Val ℝ)) K) (hno : ∀ t c, o.raises t c = none)
    (intGrid : Hp ℝ → Nat → List (Val ℝ)) (cs : ConfigSpace ℝ)
    (hfloat : ∀ hp ∈ cs, ∃ l u b, hp.kind = .float l u b ∧ l < u ∧ (b = true → 0 < l)) (hne : cs ≠ [])
    (perAxis : Nat → Nat) (shuffle : G → List (List (Val ℝ)) → List (List (Val ℝ)) × G) (hperm : ∀ r l, (shuffle r l).1.Perm l)
    (s : SamplerState (List (Val ℝ)) K (GridExtra (List (Val ℝ)) G)) (hcache : s.cache = []) (n : Int)
    (hroot : ((s.configs.length : Int) + n).toNat ≤ perAxis ((s.configs.length : Int) + n).toNat ^ cs.length)
    (hleft : ∀ g, s.extra.grid = some g → (g.length : Int) < n ∨ (g.Nodup ∧ ∀ c ∈ g, c ∉ s.configs)) :
    (gridSampler o (spaceGridEnv intGrid cs perAxis shuffle) s n).2 = none :=
  gridSampler_regenerates o hno (spaceGridEnv intGrid cs perAxis shuffle) hperm (by simpa [spaceGridEnv] using hne)
    (fun k => (C28_grid_size intGrid cs hfloat k).1) (fun k => (C28_grid_size intGrid cs hfloat k).2) s hcache n hroot hleft

theorem gridSampler_history [DecidableEq C] (o : Objective C K) (hno : ∀ t c, o.raises t c = none) (env : GridEnv C G)
    (hperm : ∀ r l, (env.shuffle r l).1.Perm l) (hd : env.nDims ≠ 0)
    (hsize : ∀ k, (env.generate k).length = k ^ env.nDims) (hnd : ∀ k, (env.generate k).Nodup)
    (ns : List Nat) (last : Int) (s : SamplerState C K (GridExtra C G)) (hcache : s.cache = [])
    (g : List C) (hg : s.extra.grid = some g) (hgnd : g.Nodup) (hdis : ∀ c ∈ g, c ∉ s.configs) (hsum : ns.sum ≤ g.length)
    (hroot : ((s.configs.length : Int) + ns.sum + last).toNat ≤ env.perAxis ((s.configs.length : Int) + ns.sum + last).toNat ^ env.nDims) :
    ∀ e ∈ (srun (gridSampler o env) s (ns.map (fun n : Nat => .sample n) ++ [.sample last])).2, e = none := by
  induction ns generalizing s g with
  | nil =>
    have := gridSampler_regenerates o hno env hperm hd hsize hnd s hcache last (by simpa using hroot) (by
      intro g' h; rw [hg] at h; cases h; exact .inr ⟨hgnd, hdis⟩)
    simp [srun, sstep, this]
  | cons n ns ih =>
    simp only [List.map_cons, List.cons_append, srun, sstep]
    rw [List.sum_cons] at hsum
    rw [gridSampler_nocache o env s hcache]
    split
    · next hn =>
      have hp : gridPrepare env s (((s.configs.length : Int) + n).toNat) = .ok (g, s) := by
        unfold gridPrepare
        simp only [hg]
        rw [if_neg (by omega)]
      have e : ((s.configs.length : Int) + (n : Int)).toNat = s.configs.length + n := by omega
      obtain ⟨h1, h2, h3, h4⟩ := gridLoop_unused o hno g s hgnd hdis hg n (by omega)
      have hs : gridSample o env s n = gridLoop o (s.configs.length + n) g s := by
        unfold gridSample
        dsimp only
        rw [hp, e]
      rw [hs]
      have hih := ih (gridLoop o (s.configs.length + n) g s).1 (h3.trans hcache) (g.drop n) h4
        (hgnd.sublist (List.drop_sublist _ _)) (by
          intro c hc hmem
          rw [h2] at hmem
          rcases List.mem_append.1 hmem with hmem | hmem
          · exact hdis c (List.mem_of_mem_drop hc) hmem
          · exact List.disjoint_take_drop hgnd le_rfl hmem hc) (by rw [List.length_drop]; omega) (by
          rw [h2, List.length_append, List.length_take, Nat.min_eq_left (by omega)]
          have e' : ((s.configs.length + n : Nat) : Int) + ns.sum + last = (s.configs.length : Int) + (n :: ns).sum + last := by
            rw [List.sum_cons]; omega
          rw [e']
          exact hroot)
      intro e he
      rcases List.mem_cons.1 he with rfl | he
      · exact h1
      · exact hih e he
    · have hih := ih s hcache g hg hgnd hdis (by omega) (by
        obtain rfl : n = 0 := by omega
        simpa using hroot)
      intro e he
      rcases List.mem_cons.1 he with rfl | he
      · rfl
      · exact hih e he

open Classical in
/-- **C28**, partial, for whole histories: a fresh GridSampler on `d` float hyperparameters whose first call asks for `n ≥ 1` points
answers all following calls as long as they stay within the first grid of `k^d` points (`k` the value computed for
`int(np.ceil(n ** (1 / d)))`), and also the one call that exceeds it, provided the root computed then is not too small. -/
theorem C28_history_partial (o : Objective (List (Val ℝ)) K) (hno : ∀ t c, o.raises t c = none)
    (intGrid : Hp ℝ → Nat → List (Val ℝ)) (cs : ConfigSpace ℝ)
    (hfloat : ∀ hp ∈ cs, ∃ l u b, hp.kind = .float l u b ∧ l < u ∧ (b = true → 0 < l)) (hne : cs ≠ [])
    (perAxis : Nat → Nat) (shuffle : G → List (List (Val ℝ)) → List (List (Val ℝ)) × G) (hperm : ∀ r l, (shuffle r l).1.Perm l) (r : G)
    (n : Nat) (hn : 1 ≤ n) (ns : List Nat) (last : Int)
    (hfit : n + ns.sum ≤ perAxis n ^ cs.length)
    (hroot : ((n : Int) + ns.sum + last).toNat ≤ perAxis ((n : Int) + ns.sum + last).toNat ^ cs.length) :
    ∀ e ∈ (srun (gridSampler o (spaceGridEnv intGrid cs perAxis shuffle)) ⟨[], [], [], 0, ⟨none, r⟩⟩
      (.sample n :: ns.map (fun n : Nat => .sample n) ++ [.sample last])).2, e = none := by
  set env := spaceGridEnv intGrid cs perAxis shuffle
  have hd : env.nDims ≠ 0 := by simpa [env, spaceGridEnv] using hne
  have hsize : ∀ k, (env.generate k).length = k ^ env.nDims := fun k => (C28_grid_size intGrid cs hfloat k).1
  have hnd : ∀ k, (env.generate k).Nodup := fun k => (C28_grid_size intGrid cs hfloat k).2
  have hd' : env.nDims = cs.length := rfl
  have hpe : ∀ r l, (env.shuffle r l).1.Perm l := hperm
  set s0 : SamplerState (List (Val ℝ)) K (GridExtra (List (Val ℝ)) G) := ⟨[], [], [], 0, ⟨none, r⟩⟩ with hs0
  obtain ⟨sh, hsh⟩ : ∃ sh, sh = env.shuffle r (env.generate (perAxis n)) := ⟨_, rfl⟩
  have hp : gridPrepare env s0 (((s0.configs.length : Int) + n).toNat) =
      .ok (sh.1, ⟨[], [], [], 0, ⟨some sh.1, sh.2⟩⟩) := by
    have e : (((s0.configs.length : Int) + n).toNat) = n := by simp [hs0]
    rw [e]
    unfold gridPrepare
    simp only [hs0, if_neg hd]
    rw [hsh]
    rfl
  have hgnd : sh.1.Nodup := by rw [hsh]; exact (hperm _ _).nodup_iff.2 (hnd _)
  have hlen : sh.1.length = perAxis n ^ cs.length := by rw [hsh, (hpe _ _).length_eq, hsize]; rfl
  obtain ⟨h1, h2, h3, h4⟩ := gridLoop_unused o hno sh.1
    (⟨[], [], [], 0, ⟨some sh.1, sh.2⟩⟩ : SamplerState (List (Val ℝ)) K (GridExtra (List (Val ℝ)) G))
    hgnd (by simp) rfl n (by omega)
  have hs : gridSampler o env s0 n = gridLoop o (0 + n) sh.1 ⟨[], [], [], 0, ⟨some sh.1, sh.2⟩⟩ := by
    rw [gridSampler_nocache o env s0 rfl, if_pos (by omega)]
    unfold gridSample
    dsimp only
    rw [hp]
    have e : (((s0.configs.length : Int) + n).toNat) = 0 + n := by simp [hs0]
    rw [e]
  simp only [List.cons_append, srun, sstep]
  rw [hs]
  simp only [List.length_nil, List.nil_append] at h1 h2 h3 h4
  have hrest := gridSampler_history o hno env hperm hd hsize hnd ns last
    (gridLoop o (0 + n) sh.1 ⟨[], [], [], 0, ⟨some sh.1, sh.2⟩⟩).1 h3 (sh.1.drop n) h4 (hgnd.sublist (List.drop_sublist _ _))
    (by intro c hc hmem; rw [h2] at hmem; exact List.disjoint_take_drop hgnd le_rfl hmem hc)
    (by rw [List.length_drop]; omega)
    (by rw [h2, List.length_take, Nat.min_eq_left (by omega)]; exact hroot)
  intro e he
  rcases List.mem_cons.1 he with rfl | he
  · exact h1
  · exact hrest e he

/-- the calls of the counterexample on three abstract points -/
theorem gridSampler_three_points [DecidableEq C] (o : Objective C K) (hno : ∀ t c, o.raises t c = none) (a b m : C)
    (hab : a ≠ b) (ham : a ≠ m) (hbm : b ≠ m) (generate : Nat → List C) (h2 : generate 2 = [a, b]) (h3 : generate 3 = [a, m, b])
    (shuffle : Unit → List C → List C × Unit) (hs2 : shuffle () [a, b] = ([a, b], ()))
    (hs3 : shuffle () [a, m, b] = ([m, a, b], ())) :
    (srun (gridSampler o ⟨1, ceilRoot 1, generate, shuffle⟩) ⟨[], [], [], 0, ⟨none, ()⟩⟩ [.sample 2, .sample 1, .sample 1]).2 =
      [none, none, some .index] := by
  have hv : ∀ t c, o.eval t c = .ok (o.value c) := fun t c => by rw [Objective.eval, hno]
  have c2 : ceilRoot 1 2 = 2 := by decide +kernel
  have c3 : ceilRoot 1 3 = 3 := by decide +kernel
  simp [srun, sstep, gridSampler, sampleWith, useCache, gridSample, gridPrepare, c2, c3, h2, h3, hs2, hs3, gridLoop,
    SamplerState.record, SamplerState.tick, SamplerState.clearCache, hv, hab.symm, ham, ham.symm, hbm, hbm.symm]

/-- swaps a first and second entry -/
def swapFirst (l : List (List (Val ℝ))) : List (List (Val ℝ)) :=
  match l with
  | [a, m, b] => [m, a, b]
  | l => l

open Classical in
/-- **C28** fails: on one float hyperparameter `x ∈ [0, 1]`, if the second grid is shuffled such that its middle point comes first,
then `sample(2); sample(1); sample(1)` raises an IndexError. -/
theorem C28_counterexample (o : Objective (List (Val ℝ)) K) (hno : ∀ t c, o.raises t c = none)
    (intGrid : Hp ℝ → Nat → List (Val ℝ)) :
    let cs : ConfigSpace ℝ := [⟨"x", .float 0 1 false⟩]
    (∀ l, (swapFirst l).Perm l) ∧
    (srun (gridSampler o (spaceGridEnv intGrid cs (ceilRoot 1) fun (_ : Unit) l => (swapFirst l, ()))) ⟨[], [], [], 0, ⟨none, ()⟩⟩
      [.sample 2, .sample 1, .sample 1]).2 = [none, none, some .index] := by
  intro cs
  refine ⟨fun l => ?_, ?_⟩
  · unfold swapFirst
    split
    · exact .swap _ _ _
    · exact .rfl
  · apply gridSampler_three_points o hno [.num 0] [.num 1] [.num (1 / 2)]
    · simp
    · simp
    · simp
    · simp [cs, generateGrid, cartesian, axisGrid, linspace, List.range_succ]
    · simp [cs, generateGrid, cartesian, axisGrid, linspace, List.range_succ]; norm_num
    · rfl
    · rfl

/-- the hypotheses of `C28_history_partial` hold e.g. for five points on two axes (3² = 9 grid points), then four more, then any
number -/
example : 5 + [4].sum ≤ ceilRoot 2 5 ^ 2 ∧ (∀ n, n ≤ ceilRoot 2 n ^ 2) ∧ ∀ n : Nat, ceilRoot 2 n = ⌈(n : ℝ) ^ ((1 : ℝ) / (2 : Nat))⌉₊ :=
  ⟨by decide +kernel, fun _ => le_ceilRoot_pow (by norm_num), fun n => ceilRoot_eq_ceil (by norm_num) n⟩

end PyPDP
