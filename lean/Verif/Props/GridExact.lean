/-
C28, exact form: at any point of any history, which sample calls of a GridSampler fail.
-/
import Verif.Props.RandomGrid

namespace PyPDP
open Spec
variable {C K G : Type}

theorem gridLoop_exact [DecidableEq C] (o : Objective C K) (hno : ∀ t c, o.raises t c = none) (target : Nat) (g : List C)
    (s : SamplerState C K (GridExtra C G)) (hnd : g.Nodup) :
    (gridLoop o target g s).2 =
      if target ≤ s.configs.length + (g.filter fun c => c ∉ s.configs).length then none else some .index := by
  induction g generalizing s with
  | nil =>
    unfold gridLoop
    by_cases h : s.configs.length < target
    · rw [if_pos h, if_neg (by simp; omega)]
    · rw [if_neg h, if_pos (by simp; omega)]
  | cons c rest ih =>
    obtain ⟨hc, hnd⟩ := List.nodup_cons.1 hnd
    unfold gridLoop
    by_cases h : s.configs.length < target
    · rw [if_pos h]
      dsimp only
      by_cases hm : c ∈ s.configs
      · rw [if_pos hm, ih _ hnd, List.filter_cons_of_neg (by simpa using hm)]
      · have hv : o.eval s.calls c = .ok (o.value c) := by rw [Objective.eval, hno]
        rw [if_neg hm, hv]
        dsimp only
        rw [ih _ hnd, List.filter_cons_of_pos (by simpa using hm)]
        have hf : (rest.filter fun c' => decide (c' ∉ s.configs ++ [c])) = rest.filter fun c' => decide (c' ∉ s.configs) := by
          refine List.filter_congr fun c' hc' => ?_
          have : c' ≠ c := fun e => hc (e ▸ hc')
          simp [this]
        change (if target ≤ (s.configs ++ [c]).length + (rest.filter fun c' => decide (c' ∉ s.configs ++ [c])).length
          then none else some PyErr.index) = _
        rw [hf, List.length_append, List.length_singleton, List.length_cons, Nat.add_assoc, Nat.add_comm 1]
    · rw [if_neg h, if_pos (by omega)]

theorem gridLoop_left [DecidableEq C] (o : Objective C K) (target : Nat) (g : List C) (s : SamplerState C K (GridExtra C G))
    (hg : s.extra.grid = some g) (hnd : g.Nodup) :
    (gridLoop o target g s).1.cache = s.cache ∧ ∀ g', (gridLoop o target g s).1.extra.grid = some g' → g'.Nodup := by
  induction g generalizing s with
  | nil =>
    unfold gridLoop
    split <;> exact ⟨rfl, fun g' h => by rw [hg] at h; cases h; exact hnd⟩
  | cons c rest ih =>
    unfold gridLoop
    split
    · have hr := (List.nodup_cons.1 hnd).2
      dsimp only
      split
      · exact ih _ rfl hr
      · split
        · refine ⟨rfl, ?_⟩
          rintro g' h
          cases h
          exact hr
        · exact ih _ rfl hr
    · exact ⟨rfl, fun g' h => by rw [hg] at h; cases h; exact hnd⟩

theorem gridSampler_left [DecidableEq C] (o : Objective C K) (env : GridEnv C G) (hperm : ∀ r l, (env.shuffle r l).1.Perm l)
    (hnd : ∀ k, (env.generate k).Nodup) (s : SamplerState C K (GridExtra C G)) (hcache : s.cache = [])
    (hleft : ∀ g, s.extra.grid = some g → g.Nodup) (n : Int) :
    (gridSampler o env s n).1.cache = [] ∧ ∀ g, (gridSampler o env s n).1.extra.grid = some g → g.Nodup := by
  rw [gridSampler_nocache o env s hcache]
  split
  · unfold gridSample
    dsimp only
    rcases gridPrepare_spec env s ((s.configs.length : Int) + n).toNat with ⟨g, s1, hp, _, _, h3, _, hg1, hg⟩ | ⟨hp, _⟩
    · rw [hp]
      dsimp only
      have : g.Nodup := by
        rcases hg with ⟨hg, _⟩ | ⟨r, rfl⟩
        · exact hleft g hg
        · exact (hperm _ _).nodup_iff.2 (hnd _)
      obtain ⟨k1, k2⟩ := gridLoop_left o ((s.configs.length : Int) + n).toNat g s1 hg1 this
      exact ⟨k1.trans (h3.trans hcache), k2⟩
    · rw [hp]; exact ⟨hcache, hleft⟩
  · exact ⟨hcache, hleft⟩

theorem gridSampler_reachable [DecidableEq C] (o : Objective C K) (env : GridEnv C G)
    (hperm : ∀ r l, (env.shuffle r l).1.Perm l) (hnd : ∀ k, (env.generate k).Nodup) (ops : List SOp)
    (s : SamplerState C K (GridExtra C G)) (hcache : s.cache = []) (hleft : ∀ g, s.extra.grid = some g → g.Nodup) :
    (srun (gridSampler o env) s ops).1.cache = [] ∧ ∀ g, (srun (gridSampler o env) s ops).1.extra.grid = some g → g.Nodup := by
  induction ops generalizing s with
  | nil => exact ⟨hcache, hleft⟩
  | cons op ops ih =>
    cases op with
    | sample n =>
      obtain ⟨h1, h2⟩ := gridSampler_left o env hperm hnd s hcache hleft n
      exact ih _ h1 h2
    | reset => exact ih _ hcache hleft
    | clearCache => exact ih _ rfl hleft
    | saveCache => exact ih _ hcache hleft

theorem gridSampler_exact [DecidableEq C] (o : Objective C K) (hno : ∀ t c, o.raises t c = none) (env : GridEnv C G)
    (hperm : ∀ r l, (env.shuffle r l).1.Perm l) (hd : env.nDims ≠ 0)
    (hsize : ∀ k, (env.generate k).length = k ^ env.nDims) (hnd : ∀ k, (env.generate k).Nodup)
    (s : SamplerState C K (GridExtra C G)) (hcache : s.cache = []) (hleft : ∀ g, s.extra.grid = some g → g.Nodup) (n : Int)
    (hroot : ((s.configs.length : Int) + n).toNat ≤ env.perAxis ((s.configs.length : Int) + n).toNat ^ env.nDims) :
    (∀ g, s.extra.grid = some g → (g.length : Int) < n ∨ n ≤ (g.filter fun c => c ∉ s.configs).length) ∧
        (gridSampler o env s n).2 = none ∨
    (∃ g, s.extra.grid = some g ∧ ((g.filter fun c => c ∉ s.configs).length : Int) < n ∧ n ≤ g.length) ∧
        (gridSampler o env s n).2 = some .index := by
  rcases lt_or_ge 0 n with hn | hn
  swap
  · left
    refine ⟨fun g _ => .inr (by omega), ?_⟩
    rw [gridSampler_nocache o env s hcache, if_neg (by omega)]
  cases hgr : s.extra.grid with
  | none =>
    left
    refine ⟨fun g h => (by cases h), ?_⟩
    exact gridSampler_regenerates o hno env hperm hd hsize hnd s hcache n hroot fun g h => by rw [hgr] at h; cases h
  | some g =>
    by_cases hl : (g.length : Int) < n
    · left
      refine ⟨fun g' h => by cases h; exact .inl hl, ?_⟩
      exact gridSampler_regenerates o hno env hperm hd hsize hnd s hcache n hroot fun g' h => by
        rw [hgr] at h; cases h; exact .inl hl
    · have hp : gridPrepare env s (((s.configs.length : Int) + n).toNat) = .ok (g, s) := by
        unfold gridPrepare
        simp only [hgr]
        rw [if_neg (by omega)]
      have hres : (gridSampler o env s n).2 =
          if (((s.configs.length : Int) + n).toNat) ≤ s.configs.length + (g.filter fun c => c ∉ s.configs).length
          then none else some .index := by
        rw [gridSampler_nocache o env s hcache, if_pos hn]
        unfold gridSample
        dsimp only
        rw [hp]
        exact gridLoop_exact o hno _ g s (hleft g hgr)
      rw [hres]
      by_cases hu : n ≤ (g.filter fun c => c ∉ s.configs).length
      · left
        exact ⟨fun g' h => by cases h; exact .inr hu, if_pos (by omega)⟩
      · right
        exact ⟨⟨g, rfl, by omega, by omega⟩, if_neg (by omega)⟩

open Classical in
/-- **C28**, exactly which calls fail: at any point of any history (sample, reset, clear_cache, save_cache) of a GridSampler on
at least one float hyperparameter, with an objective that returns normally, `sample(n)` succeeds if there is no grid yet, or
fewer than `n` grid points are left over, or at least `n` of the left-over points have not been recorded; in the remaining
case - at least `n` points are left over, but fewer than `n` unused ones - it raises an IndexError. (Provided the value computed for
`int(np.ceil(m ** (1 / d)))` with `m = len + n` is not too small, see C136_enough.) -/
theorem C28_exact (o : Objective (List (Val ℝ)) K) (hno : ∀ t c, o.raises t c = none)
    (intGrid : Hp ℝ → Nat → List (Val ℝ)) (cs : ConfigSpace ℝ)
    (hfloat : ∀ hp ∈ cs, ∃ l u b, hp.kind = .float l u b ∧ l < u ∧ (b = true → 0 < l)) (hne : cs ≠ [])
    (perAxis : Nat → Nat) (shuffle : G → List (List (Val ℝ)) → List (List (Val ℝ)) × G) (hperm : ∀ r l, (shuffle r l).1.Perm l)
    (r : G) (ops : List SOp) (n : Int) :
    let s := (srun (gridSampler o (spaceGridEnv intGrid cs perAxis shuffle)) ⟨[], [], [], 0, ⟨none, r⟩⟩ ops).1
    ((s.configs.length : Int) + n).toNat ≤ perAxis ((s.configs.length : Int) + n).toNat ^ cs.length →
    (∀ g, s.extra.grid = some g → (g.length : Int) < n ∨ n ≤ (g.filter fun c => c ∉ s.configs).length) ∧
        (gridSampler o (spaceGridEnv intGrid cs perAxis shuffle) s n).2 = none ∨
    (∃ g, s.extra.grid = some g ∧ ((g.filter fun c => c ∉ s.configs).length : Int) < n ∧ n ≤ g.length) ∧
        (gridSampler o (spaceGridEnv intGrid cs perAxis shuffle) s n).2 = some .index := by
  intro s hroot
  have hnd := fun k => (C28_grid_size intGrid cs hfloat k).2
  obtain ⟨h1, h2⟩ := gridSampler_reachable o (spaceGridEnv intGrid cs perAxis shuffle) hperm hnd ops
    ⟨[], [], [], 0, ⟨none, r⟩⟩ rfl (by simp)
  convert gridSampler_exact o hno (spaceGridEnv intGrid cs perAxis shuffle) hperm (by simpa [spaceGridEnv] using hne)
    (fun k => (C28_grid_size intGrid cs hfloat k).1) hnd s h1 h2 n hroot

/-- both cases occur: one axis of natural numbers `0 … k - 1`, grids in reverse order. After `sample(2); sample(1)` two points
are left over, both recorded: `sample(1)` fails, `sample(3)` regenerates and succeeds. -/
example :
    let env : GridEnv Nat Unit := ⟨1, fun n => n, List.range, fun _ l => (l.reverse, ())⟩
    let s := (srun (gridSampler plainObjective env) ⟨[], [], [], 0, ⟨none, ()⟩⟩ [.sample 2, .sample 1]).1
    s.configs = [1, 0, 2] ∧ s.extra.grid = some [1, 0] ∧ (gridSampler plainObjective env s 1).2 = some .index ∧
      (gridSampler plainObjective env s 3).2 = none := by
  decide +kernel

end PyPDP
