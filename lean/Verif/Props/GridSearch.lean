/-
C171: how good the incumbent of a grid search is.
-/
import Verif.Props.GridRounding
import Verif.Spec.GridSearch

namespace PyPDP
open Spec
variable {G : Type}

/-- the step of `m` evenly spaced ones that is next to a position -/
theorem nearest_step {m : Nat} (hm : 2 ≤ m) {x : ℝ} (h0 : 0 ≤ x) (h1 : x ≤ 1) :
    ∃ i < m, |x - (i : ℝ) / ((m : ℝ) - 1)| ≤ 1 / (2 * ((m : ℝ) - 1)) := by
  have hm1 : (0 : ℝ) < (m : ℝ) - 1 := by
    have : (2 : ℝ) ≤ m := by exact_mod_cast hm
    linarith
  have hy : 0 ≤ x * ((m : ℝ) - 1) + 1 / 2 := by positivity
  refine ⟨⌊x * ((m : ℝ) - 1) + 1 / 2⌋₊, ?_, ?_⟩
  · rw [Nat.floor_lt hy]
    nlinarith
  · have a := Nat.floor_le hy
    have b := Nat.lt_floor_add_one (x * ((m : ℝ) - 1) + 1 / 2)
    have e : x - (⌊x * ((m : ℝ) - 1) + 1 / 2⌋₊ : ℝ) / ((m : ℝ) - 1) = (x * ((m : ℝ) - 1) - ⌊x * ((m : ℝ) - 1) + 1 / 2⌋₊) / ((m : ℝ) - 1) := by
      field_simp
    have e2 : 1 / (2 * ((m : ℝ) - 1)) = (1 / 2) / ((m : ℝ) - 1) := by field_simp
    rw [e, e2, abs_div, abs_of_pos hm1]
    refine div_le_div_of_nonneg_right ?_ hm1.le
    rw [abs_le]
    constructor <;> linarith

/-- the point of the grid next to a configuration -/
theorem nearest_point {m : Nat} (hm : 2 ≤ m) : ∀ (space : ConfigSpace ℝ) (_ : ∀ hp ∈ space, ∃ l u b, hp.kind = .float l u b ∧ l < u ∧ (b = true → 0 < l))
    {xs : List ℝ} (_ : IsPosition space.length xs),
    ∃ ys, IsPosition space.length ys ∧ WithinStep (1 / (2 * ((m : ℝ) - 1))) xs ys ∧
      List.Forall₂ (fun hp v => ∃ i < m, StepValue m i hp v) space (configAtPos space ys) := by
  intro space
  induction space with
  | nil =>
    intro _ xs hx
    obtain rfl : xs = [] := List.length_eq_zero_iff.1 hx.1
    exact ⟨[], hx, .nil, .nil⟩
  | cons hp space ih =>
    intro hf xs hx
    obtain ⟨hl, hx⟩ := hx
    match xs, hl, hx with
    | x :: xs, hl, hx =>
      obtain ⟨ys, h1, h2, h3⟩ := ih (fun q hq => hf q (List.mem_cons_of_mem _ hq)) (xs := xs) ⟨by simpa using hl, fun x' h' => hx x' (List.mem_cons_of_mem _ h')⟩
      obtain ⟨h0, h01⟩ := hx x (by simp)
      obtain ⟨i, hi, hd⟩ := nearest_step hm h0 h01
      obtain ⟨l, u, b, hk, -, -⟩ := hf hp (by simp)
      have hm1 : (0 : ℝ) < (m : ℝ) - 1 := by
        have : (2 : ℝ) ≤ m := by exact_mod_cast hm
        linarith
      refine ⟨(i : ℝ) / ((m : ℝ) - 1) :: ys, ⟨by simp [h1.1], ?_⟩, .cons hd h2, .cons ⟨i, hi, l, u, b, hk, ?_⟩ h3⟩
      · intro y hy
        rcases List.mem_cons.1 hy with rfl | hy
        · refine ⟨by positivity, ?_⟩
          rw [div_le_one hm1]
          have : (i : ℝ) + 1 ≤ m := by exact_mod_cast hi
          linarith
        · exact h1.2 y hy
      · simp only [valueAtPos, hk]

open Classical in
/-- **C171** How good the incumbent of a grid search is: after `m^d` points (`m ≥ 2` steps for each of `d` float hyperparameters) no configuration of the whole
space is better by more than the objective can change between configurations that differ by half a step in each hyperparameter. -/
theorem C171_grid_search (o : Objective (List (Val ℝ)) ℝ) (hno : ∀ t c, o.raises t c = none)
    (intGrid : Hp ℝ → Nat → List (Val ℝ)) (space : ConfigSpace ℝ)
    (hfloat : ∀ hp ∈ space, ∃ l u b, hp.kind = .float l u b ∧ l < u ∧ (b = true → 0 < l)) (hne : space ≠ [])
    (perAxis : Nat → Nat) (shuffle : G → List (List (Val ℝ)) → List (List (Val ℝ)) × G) (hperm : ∀ r l, (shuffle r l).1.Perm l) (r : G) {m : Nat} (hm : 2 ≤ m)
    {n : Nat} (hnm : n = m ^ space.length)
    (hroot : perAxis n = ⌈(n : ℝ) ^ ((1 : ℝ) / space.length)⌉₊ ∨ (DoubleRoot space.length n (perAxis n) ∧ space.length ≤ 4 ∧ n * (n + space.length) < 2 ^ 53))
    (minimize : Bool) {ε : ℝ}
    (hclose : ∀ xs ys, IsPosition space.length xs → IsPosition space.length ys → WithinStep (1 / (2 * ((m : ℝ) - 1))) xs ys →
      |o.value (configAtPos space xs) - o.value (configAtPos space ys)| ≤ ε) :
    ∃ c v, (gridSampler o (spaceGridEnv intGrid space perAxis shuffle) ⟨[], [], [], 0, ⟨none, r⟩⟩ n).2 = none ∧
      incumbent minimize (gridSampler o (spaceGridEnv intGrid space perAxis shuffle) ⟨[], [], [], 0, ⟨none, r⟩⟩ n).1 = .ok (some c, some v) ∧ o.value c = v ∧
      ∀ xs, IsPosition space.length xs → if minimize then v ≤ o.value (configAtPos space xs) + ε else o.value (configAtPos space xs) - ε ≤ v := by
  obtain ⟨h1, h2, h3⟩ := C136_full_grid_partial o hno intGrid space hfloat hne perAxis shuffle hperm r m hm n hnm hroot
  have hal := C20_grid_partial o (spaceGridEnv intGrid space perAxis shuffle) ⟨[], [], [], 0, ⟨none, r⟩⟩ (by simp [Aligned]) (by simp [CacheTrue]) [.sample n]
    (by
      intro e he
      simp only [srun, sstep, List.mem_singleton] at he
      rw [he]; exact h1)
  have hrun : (srun (gridSampler o (spaceGridEnv intGrid space perAxis shuffle)) ⟨[], [], [], 0, ⟨none, r⟩⟩ [.sample n]).1
      = (gridSampler o (spaceGridEnv intGrid space perAxis shuffle) ⟨[], [], [], 0, ⟨none, r⟩⟩ n).1 := rfl
  rw [hrun] at hal
  obtain ⟨s, hs⟩ : ∃ s, s = (gridSampler o (spaceGridEnv intGrid space perAxis shuffle) ⟨[], [], [], 0, ⟨none, r⟩⟩ n).1 := ⟨_, rfl⟩
  rw [← hs] at hal h2 h3 ⊢
  obtain ⟨a1, a2⟩ := hal
  have hn : 1 ≤ n := by rw [hnm]; exact Nat.one_le_pow _ _ (by omega)
  obtain ⟨i, c, v, e1, e2, e3, e4, -⟩ := (C21_incumbent minimize s a1).2 (by
    intro h
    rw [h] at a1
    rw [a1] at h2
    simp at h2; omega)
  refine ⟨c, v, h1, e1, (a2 i c v e2 e3).symm, fun xs hx => ?_⟩
  obtain ⟨ys, y1, y2, y3⟩ := nearest_point hm space hfloat hx
  have hmem : configAtPos space ys ∈ s.configs := List.count_pos_iff.1 (by rw [h3 _ y3]; exact one_pos)
  obtain ⟨j, hj, hje⟩ := List.getElem_of_mem hmem
  have hy : s.ys[j]? = some (o.value (configAtPos space ys)) := by
    have hj' : j < s.ys.length := by rw [← a1]; exact hj
    rw [List.getElem?_eq_getElem hj']
    congr 1
    exact a2 j _ _ (by rw [List.getElem?_eq_getElem hj, hje]) (List.getElem?_eq_getElem hj')
  have hb := e4 _ (List.mem_of_getElem? hy)
  have hc := abs_le.1 (hclose xs ys hx y1 y2)
  cases minimize
  · simp only [Better, Bool.false_eq_true, if_false, gt_iff_lt, not_lt] at hb ⊢
    linarith
  · simp only [Better, if_true, not_lt] at hb ⊢
    linarith

open Classical in
/-- **C171** With an objective that changes by at most `L` times the largest change of a position: the incumbent is within `L / (2 (m - 1))` of the optimum. -/
theorem C171_lipschitz (o : Objective (List (Val ℝ)) ℝ) (hno : ∀ t c, o.raises t c = none)
    (intGrid : Hp ℝ → Nat → List (Val ℝ)) (space : ConfigSpace ℝ)
    (hfloat : ∀ hp ∈ space, ∃ l u b, hp.kind = .float l u b ∧ l < u ∧ (b = true → 0 < l)) (hne : space ≠ [])
    (perAxis : Nat → Nat) (shuffle : G → List (List (Val ℝ)) → List (List (Val ℝ)) × G) (hperm : ∀ r l, (shuffle r l).1.Perm l) (r : G) {m : Nat} (hm : 2 ≤ m)
    {n : Nat} (hnm : n = m ^ space.length)
    (hroot : perAxis n = ⌈(n : ℝ) ^ ((1 : ℝ) / space.length)⌉₊ ∨ (DoubleRoot space.length n (perAxis n) ∧ space.length ≤ 4 ∧ n * (n + space.length) < 2 ^ 53))
    (minimize : Bool) {L : ℝ}
    (hlip : ∀ xs ys h, IsPosition space.length xs → IsPosition space.length ys → WithinStep h xs ys →
      |o.value (configAtPos space xs) - o.value (configAtPos space ys)| ≤ L * h) :
    ∃ c v, (gridSampler o (spaceGridEnv intGrid space perAxis shuffle) ⟨[], [], [], 0, ⟨none, r⟩⟩ n).2 = none ∧
      incumbent minimize (gridSampler o (spaceGridEnv intGrid space perAxis shuffle) ⟨[], [], [], 0, ⟨none, r⟩⟩ n).1 = .ok (some c, some v) ∧ o.value c = v ∧
      ∀ xs, IsPosition space.length xs →
        if minimize then v ≤ o.value (configAtPos space xs) + L / (2 * ((m : ℝ) - 1)) else o.value (configAtPos space xs) - L / (2 * ((m : ℝ) - 1)) ≤ v := by
  refine C171_grid_search o hno intGrid space hfloat hne perAxis shuffle hperm r hm hnm hroot minimize fun xs ys hx hy hw => ?_
  rw [div_eq_mul_one_div]
  exact hlip xs ys _ hx hy hw

open Classical in
/-- **C171** needs the whole grid: with fewer points than the grid has, some point of the grid has not been evaluated - and nothing is known there. -/
theorem C171_incomplete (o : Objective (List (Val ℝ)) ℝ) (hno : ∀ t c, o.raises t c = none)
    (intGrid : Hp ℝ → Nat → List (Val ℝ)) (space : ConfigSpace ℝ)
    (hfloat : ∀ hp ∈ space, ∃ l u b, hp.kind = .float l u b ∧ l < u ∧ (b = true → 0 < l)) (hne : space ≠ [])
    (perAxis : Nat → Nat) (shuffle : G → List (List (Val ℝ)) → List (List (Val ℝ)) × G) (hperm : ∀ r l, (shuffle r l).1.Perm l) (r : G)
    {n : Nat} (hn : 1 ≤ n) (hk : 2 ≤ perAxis n) (hroot : n < perAxis n ^ space.length) :
    ∃ vs, List.Forall₂ (fun hp v => ∃ i < perAxis n, StepValue (perAxis n) i hp v) space vs ∧
      vs ∉ (gridSampler o (spaceGridEnv intGrid space perAxis shuffle) ⟨[], [], [], 0, ⟨none, r⟩⟩ n).1.configs := by
  obtain ⟨-, -, ⟨left, -, h2, h3⟩, -⟩ := C27_first_call o hno intGrid space hfloat hne perAxis shuffle hperm r n hn hroot.le
  obtain ⟨vs, hvs⟩ := List.exists_mem_of_length_pos (l := left) (by omega)
  refine ⟨vs, (C27_grid_points intGrid space hfloat hk vs).1 (h2.mem_iff.1 (List.mem_append_right _ hvs)), fun hmem => ?_⟩
  have hnd := h2.nodup_iff.2 (C28_grid_size intGrid space hfloat (perAxis n)).2
  exact (List.nodup_append.1 hnd).2.2 vs hmem vs hvs rfl

/-- one hyperparameter between -5 and 5 and the objective `x²`: with 11 points the incumbent is within 5 of the minimum -/
private noncomputable def squareObj : Objective (List (Val ℝ)) ℝ :=
  ⟨fun c => match c with | [.num x] => x ^ 2 | _ => 0, fun _ _ => none⟩

example (shuffle : G → List (List (Val ℝ)) → List (List (Val ℝ)) × G) (hperm : ∀ r l, (shuffle r l).1.Perm l) (r : G) :
    ∃ c v, incumbent true (gridSampler squareObj (spaceGridEnv (fun _ _ => []) [⟨"x", .float (-5) 5 false⟩] (fun n => n) shuffle)
      ⟨[], [], [], 0, ⟨none, r⟩⟩ 11).1 = .ok (some c, some v) ∧ v ≤ 5 := by
  obtain ⟨c, v, -, h1, -, h2⟩ := C171_lipschitz squareObj (fun _ _ => rfl) (fun _ _ => []) [⟨"x", .float (-5) 5 false⟩]
    (by intro hp hm; obtain rfl := List.mem_singleton.1 hm; exact ⟨-5, 5, false, rfl, by norm_num, by simp⟩) (by simp) (fun n => n) shuffle hperm r
    (m := 11) (by norm_num) (n := 11) (by norm_num) (.inl (by norm_num)) true (L := 100) (by
      rintro xs ys h ⟨hl, hx⟩ ⟨hl', hy⟩ hw
      match xs, ys, hl, hl', hx, hy, hw with
      | [a], [b], _, _, hx, hy, hw =>
        have ha := hx a (by simp)
        have hb := hy b (by simp)
        have hab := (List.forall₂_cons.1 hw).1
        simp only [configAtPos, valueAtPos, squareObj, List.zipWith_cons_cons, List.zipWith_nil_right, Bool.false_eq_true, if_false]
        have e : (-5 + a * (5 - -5)) ^ 2 - (-5 + b * (5 - -5)) ^ 2 = 100 * ((a - b) * (a + b - 1)) := by ring
        have h1 : |a + b - 1| ≤ 1 := by rw [abs_le]; constructor <;> linarith
        rw [e, abs_mul, abs_mul]
        have := mul_le_mul hab h1 (abs_nonneg _) (le_trans (abs_nonneg _) hab)
        norm_num at this ⊢
        exact this)
  refine ⟨c, v, h1, ?_⟩
  have := h2 [1 / 2] ⟨rfl, by simp; norm_num⟩
  simp only [configAtPos, valueAtPos, squareObj, List.zipWith_cons_cons, List.zipWith_nil_right, Bool.false_eq_true, if_false, if_true] at this
  norm_num at this
  exact this

end PyPDP
