/-
C27: which points the grids of a GridSampler consist of, and what the first call of a new sampler leaves over.
-/
import Verif.Props.GridExact

namespace PyPDP
open Spec
variable {K G : Type}

/-- `v` is the value number `i` of `k` evenly spaced ones from the lower to the upper bound; with `log` each value is the same multiple of the one before -/
def StepValue (k i : Nat) (hp : Hp ℝ) (v : Val ℝ) : Prop :=
  ∃ l u b, hp.kind = .float l u b ∧
    v = .num (if b then l * (u / l) ^ ((i : ℝ) / ((k : ℝ) - 1)) else l + (i : ℝ) / ((k : ℝ) - 1) * (u - l))

theorem mem_cartesian_axes {α : Type} (L : List (List α)) (vs : List α) : vs ∈ cartesian L ↔ List.Forall₂ (fun l v => v ∈ l) L vs := by
  induction L generalizing vs with
  | nil => simp [cartesian]
  | cons l L ih =>
    simp only [cartesian, List.mem_flatMap, List.mem_map]
    constructor
    · rintro ⟨v, hv, w, hw, rfl⟩
      exact .cons hv ((ih w).1 hw)
    · intro h
      cases h with
      | cons hv hw => exact ⟨_, hv, _, (ih _).2 hw, rfl⟩

theorem mem_linspace {a b : ℝ} {k : Nat} (hk : 2 ≤ k) (x : ℝ) : x ∈ linspace a b k ↔ ∃ i < k, x = a + (i : ℝ) / ((k : ℝ) - 1) * (b - a) := by
  have hk1 : (k : ℝ) - 1 ≠ 0 := by
    have : (2 : ℝ) ≤ k := by exact_mod_cast hk
    linarith
  simp only [linspace, List.mem_map, List.mem_range]
  refine exists_congr fun i => and_congr_right fun hi => ?_
  split
  · next h =>
    have : (i : ℝ) = (k : ℝ) - 1 := by rw [← h.1]; push_cast; ring
    rw [this, div_self hk1]
    constructor
    · rintro rfl; ring
    · rintro rfl; ring
  · constructor
    · rintro rfl; ring
    · rintro rfl; ring

/-- **C27**, the points of a grid with `k ≥ 2` steps per axis: exactly the configurations whose value of every hyperparameter is one of `k` evenly spaced values from
bound to bound (in the logarithm, if the hyperparameter is logarithmic) -/
theorem C27_grid_points (intGrid : Hp ℝ → Nat → List (Val ℝ)) (cs : ConfigSpace ℝ)
    (hfloat : ∀ hp ∈ cs, ∃ l u b, hp.kind = .float l u b ∧ l < u ∧ (b = true → 0 < l)) {k : Nat} (hk : 2 ≤ k) (vs : List (Val ℝ)) :
    vs ∈ generateGrid intGrid cs k ↔ List.Forall₂ (fun hp v => ∃ i < k, StepValue k i hp v) cs vs := by
  unfold generateGrid
  rw [mem_cartesian_axes, List.forall₂_map_left_iff]
  have key : ∀ hp ∈ cs, ∀ v, v ∈ axisGrid intGrid k hp ↔ ∃ i < k, StepValue k i hp v := by
    intro hp hm v
    obtain ⟨l, u, b, hkind, hlu, hpos⟩ := hfloat hp hm
    unfold StepValue
    cases b with
    | false =>
      simp only [axisGrid, hkind, List.mem_map, mem_linspace hk]
      constructor
      · rintro ⟨x, ⟨i, hi, rfl⟩, rfl⟩
        exact ⟨i, hi, l, u, false, rfl, by simp⟩
      · rintro ⟨i, hi, l', u', b, h, rfl⟩
        cases h
        exact ⟨_, ⟨i, hi, rfl⟩, by simp⟩
    | true =>
      have hl := hpos rfl
      have e : ∀ t : ℝ, Real.exp (Real.log l + t * (Real.log u - Real.log l)) = l * (u / l) ^ t := by
        intro t
        rw [Real.exp_add, Real.exp_log hl, Real.rpow_def_of_pos (div_pos (hl.trans hlu) hl), Real.log_div (hl.trans hlu).ne' hl.ne', mul_comm t]
      simp only [axisGrid, hkind, List.mem_map, mem_linspace hk]
      constructor
      · rintro ⟨x, ⟨i, hi, rfl⟩, rfl⟩
        exact ⟨i, hi, l, u, true, rfl, by rw [e]; simp⟩
      · rintro ⟨i, hi, l', u', b, h, rfl⟩
        cases h
        exact ⟨_, ⟨i, hi, rfl⟩, by rw [e]; simp⟩
  clear hfloat
  induction cs generalizing vs with
  | nil => simp
  | cons hp cs ih =>
    constructor
    · intro h
      cases h with
      | cons h1 h2 => exact .cons ((key hp List.mem_cons_self _).1 h1) ((ih _ fun hp' h => key hp' (List.mem_cons_of_mem _ h)).1 h2)
    · intro h
      cases h with
      | cons h1 h2 => exact .cons ((key hp List.mem_cons_self _).2 h1) ((ih _ fun hp' h => key hp' (List.mem_cons_of_mem _ h)).2 h2)

open Classical in
/-- **C27**, the first call of a new sampler: for `n ≥ 1` points on `d` float hyperparameters the recorded configurations together with the ones left over are the regular
grid with `k` steps per axis, `k` the value computed for `int(np.ceil(n ** (1 / d)))` (not too small, see C136), every grid point once: `k^d - n` are left over, and if
`n = k^d` every grid point has been evaluated exactly once. -/
theorem C27_first_call (o : Objective (List (Val ℝ)) K) (hno : ∀ t c, o.raises t c = none)
    (intGrid : Hp ℝ → Nat → List (Val ℝ)) (cs : ConfigSpace ℝ)
    (hfloat : ∀ hp ∈ cs, ∃ l u b, hp.kind = .float l u b ∧ l < u ∧ (b = true → 0 < l)) (hne : cs ≠ [])
    (perAxis : Nat → Nat) (shuffle : G → List (List (Val ℝ)) → List (List (Val ℝ)) × G) (hperm : ∀ r l, (shuffle r l).1.Perm l) (r : G) (n : Nat) (hn : 1 ≤ n)
    (hroot : n ≤ perAxis n ^ cs.length) :
    let res := gridSampler o (spaceGridEnv intGrid cs perAxis shuffle) ⟨[], [], [], 0, ⟨none, r⟩⟩ n
    let k := perAxis n
    res.2 = none ∧ res.1.configs.length = n ∧
    (∃ left, res.1.extra.grid = some left ∧ (res.1.configs ++ left).Perm (generateGrid intGrid cs k) ∧ left.length = k ^ cs.length - n) ∧
    (∀ m, 2 ≤ m → n = m ^ cs.length → k = m → ∀ vs, List.Forall₂ (fun hp v => ∃ i < m, StepValue m i hp v) cs vs → res.1.configs.count vs = 1) := by
  intro res k
  obtain ⟨env, henv⟩ : ∃ env, env = spaceGridEnv intGrid cs perAxis shuffle := ⟨_, rfl⟩
  have hd' : env.nDims = cs.length := by rw [henv]; rfl
  have hd : env.nDims ≠ 0 := by rw [hd']; simpa using hne
  have hgen : env.generate = generateGrid intGrid cs := by rw [henv]; rfl
  have hsize : ∀ k, (env.generate k).length = k ^ env.nDims := fun k => by rw [hgen, hd']; exact (C28_grid_size intGrid cs hfloat k).1
  have hnd : ∀ k, (env.generate k).Nodup := fun k => by rw [hgen]; exact (C28_grid_size intGrid cs hfloat k).2
  have hpe : ∀ r l, (env.shuffle r l).1.Perm l := by rw [henv]; exact hperm
  have hk : k = env.perAxis n := by rw [henv]; rfl
  obtain ⟨sh, hsh⟩ : ∃ sh, sh = env.shuffle r (env.generate (env.perAxis n)) := ⟨_, rfl⟩
  have hp : gridPrepare env (⟨[], [], [], 0, ⟨none, r⟩⟩ : SamplerState (List (Val ℝ)) K (GridExtra (List (Val ℝ)) G)) n =
      .ok (sh.1, ⟨[], [], [], 0, ⟨some sh.1, sh.2⟩⟩) := by
    unfold gridPrepare
    simp only [if_neg hd]
    rw [hsh]
  have hpg : sh.1.Perm (generateGrid intGrid cs k) := by rw [hsh, hk, ← hgen]; exact hpe _ _
  have hgnd : sh.1.Nodup := hpg.nodup_iff.2 (C28_grid_size intGrid cs hfloat k).2
  have hlen : sh.1.length = k ^ cs.length := by rw [hpg.length_eq, (C28_grid_size intGrid cs hfloat k).1]
  have hle : n ≤ k ^ cs.length := hroot
  obtain ⟨h1, h2, h3, h4⟩ := gridLoop_unused o hno sh.1
    (⟨[], [], [], 0, ⟨some sh.1, sh.2⟩⟩ : SamplerState (List (Val ℝ)) K (GridExtra (List (Val ℝ)) G))
    hgnd (by simp) rfl n (by omega)
  have hs : res = gridLoop o (0 + n) sh.1 ⟨[], [], [], 0, ⟨some sh.1, sh.2⟩⟩ := by
    show gridSampler o (spaceGridEnv intGrid cs perAxis shuffle) _ n = _
    rw [← henv, gridSampler_nocache o env _ rfl, if_pos (by omega)]
    unfold gridSample
    have e : (((([] : List (List (Val ℝ))).length : Int) + n).toNat) = n := by simp
    dsimp only
    rw [e, hp, Nat.zero_add]
  simp only [List.length_nil, List.nil_append] at h1 h2 h3 h4
  rw [hs, h1, h2, h4]
  refine ⟨rfl, by rw [List.length_take]; omega, ⟨_, rfl, by rw [List.take_append_drop]; exact hpg, by rw [List.length_drop, hlen]⟩, ?_⟩
  intro m hm hnm hkm vs hvs
  rw [hkm] at hpg hlen
  rw [List.take_of_length_le (by omega)]
  rw [hpg.count_eq]
  exact List.count_eq_one_of_mem (C28_grid_size intGrid cs hfloat m).2 ((C27_grid_points intGrid cs hfloat hm vs).2 hvs)

open Classical in
/-- nine points on two hyperparameters, one of them logarithmic: all nine grid points, nothing left over -/
example (r : Unit) (cs : ConfigSpace ℝ) (hcs : cs = [⟨"x1", .float (-4) 4 false⟩, ⟨"x2", .float 1 100 true⟩]) (res)
    (hres : res = gridSampler (⟨fun _ => 0, fun _ _ => none⟩ : Objective (List (Val ℝ)) ℝ) (spaceGridEnv (fun _ _ => []) cs (ceilRoot 2) fun (_ : Unit) l => (l, ()))
      ⟨[], [], [], 0, ⟨none, r⟩⟩ ((9 : Nat) : Int)) :
    res.1.configs.length = 9 ∧ (∃ left, res.1.extra.grid = some left ∧ left.length = 0) ∧ res.1.configs.count [.num 0, .num 10] = 1 := by
  have hf : ∀ hp ∈ cs, ∃ l u b, hp.kind = .float l u b ∧ l < u ∧ (b = true → 0 < l) := by
    intro hp hm
    simp only [hcs, List.mem_cons, List.not_mem_nil, or_false] at hm
    rcases hm with rfl | rfl
    · exact ⟨-4, 4, false, rfl, by norm_num, by simp⟩
    · exact ⟨1, 100, true, rfl, by norm_num, by simp⟩
  have hl : cs.length = 2 := by rw [hcs]; rfl
  have h := C27_first_call (⟨fun _ => 0, fun _ _ => none⟩ : Objective (List (Val ℝ)) ℝ) (fun _ _ => rfl) (fun _ _ => []) cs hf (by simp [hcs])
    (ceilRoot 2) (fun (_ : Unit) l => (l, ())) (fun _ l => List.Perm.refl l) r 9 (by norm_num) (by rw [hl]; exact le_ceilRoot_pow (by norm_num))
  rw [← hres, hl] at h
  obtain ⟨-, h2, ⟨left, h3, -, h4⟩, h5⟩ := h
  have c9 : ceilRoot 2 9 = 3 := by decide +kernel
  have hx : ∃ i < 3, StepValue 3 i ⟨"x1", .float (-4) 4 false⟩ (.num 0) := by
    refine ⟨1, by norm_num, -4, 4, false, rfl, ?_⟩
    norm_num
  have hy : ∃ i < 3, StepValue 3 i ⟨"x2", .float 1 100 true⟩ (.num 10) := by
    refine ⟨1, by norm_num, 1, 100, true, rfl, ?_⟩
    have e : (100 / 1 : ℝ) = (10 : ℝ) ^ (2 : ℝ) := by norm_num
    simp only [if_true]
    rw [e, ← Real.rpow_mul (by norm_num)]
    norm_num
  have h6 := h5 3 (by norm_num) (by norm_num) c9 [.num 0, .num 10] (by rw [hcs]; exact .cons hx (.cons hy .nil))
  refine ⟨h2, ⟨left, h3, ?_⟩, h6⟩
  rw [h4, c9]
  norm_num

end PyPDP
