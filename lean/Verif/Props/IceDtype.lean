/-
C137: ICE curves of samples that are given as an integer array.
-/
import Verif.Props.Ice
import Verif.Model.IceDtype
import Mathlib.Data.Rat.Floor

namespace PyPDP
open Spec
variable {K : Type} [Field K]

/-- **C137** samples given as floats (in particular those drawn by `from_random_points`): the calculation C41 speaks of -/
theorem C137_float (c : IceCfg K) (grid : List (List K)) : iceCalcD DType.float c c.samples grid = iceCalc c grid := by
  simp [iceCalcD, DType.float]

variable [LinearOrder K] [IsStrictOrderedRing K] [FloorRing K]

theorem store_int_unit {v : K} (h0 : 0 ≤ v) (h1 : v ≤ 1) : (DType.int : DType Int K).store false v = if v = 1 then 1 else 0 := by
  simp only [DType.int, Bool.false_eq_true, if_false, if_pos h0]
  by_cases hv : v = 1
  · simp [hv]
  · have : ⌊v⌋ = 0 := Int.floor_eq_zero_iff.2 ⟨h0, lt_of_le_of_ne h1 hv⟩
    simp [this, hv]

/-- every coordinate of a grid point lies in `[0, 1]` -/
theorem fullGrid_unit {k g : Nat} {grid : List (List K)} (h : IsFullGrid k g grid) : ∀ t ∈ grid, t.length = k ∧ ∀ v ∈ t, 0 ≤ v ∧ v ≤ 1 := by
  intro t ht
  obtain ⟨hl, hv⟩ := (h.2 t).1 ht
  refine ⟨hl, fun v hvt => ?_⟩
  obtain ⟨i, hi, rfl⟩ := hv v hvt
  split
  · exact ⟨le_refl _, zero_le_one⟩
  · rename_i hg
    have h2 : (0 : K) < (g : K) - 1 := by
      have : (1 : K) < g := by exact_mod_cast (by omega : 1 < g)
      linarith
    have h3 : (i : K) ≤ (g : K) - 1 := by
      have : (i : K) + 1 ≤ g := by exact_mod_cast hi
      linarith
    exact ⟨by positivity, (div_le_one h2).2 h3⟩

/-- **C137** samples given as an integer array: the selected features of `x_ice` carry 1 where the grid point is 1 and 0 everywhere
else, all other features the sample's own value. -/
theorem C137_exact {c : IceCfg K} {samples : List (List Int)} (hc : ValidCfg { c with samples := samples.map fun r => r.map (Int.cast : Int → K) })
    {grid : List (List K)} (hfull : IsFullGrid c.selected.length c.perAxis grid) (hg : grid.length = c.numGrid) {d : IceData K}
    (h : iceCalcD DType.int c samples grid = .ok d) :
    Shape3 samples.length c.numGrid c.space.length d.x ∧
    ∀ (s : Nat) (r : List Int) (p : Nat) (t : List K), samples[s]? = some r → grid[p]? = some t →
      (∀ (j : Nat) hp f, c.selected[j]? = some hp → IsFeature c.space hp f →
        at3 d.x s p f = (t[j]?).map fun v => if v = 1 then 1 else 0) ∧
      (∀ f : Nat, (∀ hp ∈ c.selected, ¬ IsFeature c.space hp f) → at3 d.x s p f = (r[f]?).map (Int.cast : Int → K)) := by
  have hu := fullGrid_unit hfull
  have key := C41_x_ice (c := { c with samples := samples.map fun r => r.map (Int.cast : Int → K) }) hc
    (grid := grid.map fun g => g.map ((DType.int : DType Int K).store false)) (by simpa using hg)
    (by
      intro t ht
      obtain ⟨t', ht', rfl⟩ := List.mem_map.1 ht
      simpa using (hu t' ht').1) (d := d) (by simpa [iceCalcD, DType.int] using h)
  obtain ⟨k1, k2⟩ := key
  refine ⟨by simpa using k1, fun s r p t hr ht => ?_⟩
  obtain ⟨a, b⟩ := k2 s (r.map Int.cast) p (t.map ((DType.int : DType Int K).store false)) (by simp [hr]) (by simp [ht])
  refine ⟨fun j hp f hj hf => ?_, fun f hf => ?_⟩
  · rw [a j hp f hj hf, List.getElem?_map]
    cases htj : t[j]? with
    | none => rfl
    | some v =>
      have := (hu t (List.mem_of_getElem? ht)).2 v (List.mem_of_getElem? htj)
      simp [store_int_unit this.1 this.2]
  · rw [b f hf, List.getElem?_map]

/-- **C137** hence the curves are flat: two grid points at which the same coordinates are 1 get the same value and the same variance
(with one selected hyperparameter: all grid points but the last one). -/
theorem C137_flat {c : IceCfg K} {samples : List (List Int)} (hc : ValidCfg { c with samples := samples.map fun r => r.map (Int.cast : Int → K) })
    {grid : List (List K)} (hfull : IsFullGrid c.selected.length c.perAxis grid) (hg : grid.length = c.numGrid) (hP : c.numGrid ≠ 0)
    {mu sd : List K → K} (hp : RowWise c.space.length c.predict mu sd) (hn : samples ≠ []) {p q : Nat} {t u : List K}
    (hpt : grid[p]? = some t) (hqu : grid[q]? = some u) (htu : ∀ j : Nat, t[j]? = some 1 ↔ u[j]? = some 1) :
    ∃ d, iceCalcD DType.int c samples grid = .ok d ∧
      ∀ s < samples.length, (∃ a, at2 d.y s p = some a ∧ at2 d.y s q = some a) ∧ ∃ b, at2 d.v s p = some b ∧ at2 d.v s q = some b := by
  have hu := fullGrid_unit hfull
  have hsame : t.map ((DType.int : DType Int K).store false) = u.map ((DType.int : DType Int K).store false) := by
    apply List.ext_getElem?
    intro j
    rw [List.getElem?_map, List.getElem?_map]
    have hT := hu t (List.mem_of_getElem? hpt)
    have hU := hu u (List.mem_of_getElem? hqu)
    by_cases hj : j < t.length
    · have hj' : j < u.length := by rw [hU.1, ← hT.1]; exact hj
      have h1 := htu j
      rw [List.getElem?_eq_getElem hj, List.getElem?_eq_getElem hj', Option.some.injEq, Option.some.injEq] at h1
      have h2 := hT.2 _ (List.getElem_mem hj)
      have h3 := hU.2 _ (List.getElem_mem hj')
      rw [List.getElem?_eq_getElem hj, List.getElem?_eq_getElem hj', Option.map_some, Option.map_some, store_int_unit h2.1 h2.2,
        store_int_unit h3.1 h3.2]
      by_cases h4 : t[j] = 1
      · rw [if_pos h4, if_pos (h1.1 h4)]
      · rw [if_neg h4, if_neg (fun h => h4 (h1.2 h))]
    · rw [List.getElem?_eq_none (by omega), List.getElem?_eq_none (by rw [hU.1, ← hT.1]; omega)]
  obtain ⟨idx, hidx, _⟩ := hc.idx
  have hok := iceCalc_ok (c := { c with samples := samples.map fun r => r.map (Int.cast : Int → K) }) hc hp (by simpa using hn)
    (grid := grid.map fun g => g.map ((DType.int : DType Int K).store false)) (by simpa using hg) hP hidx
  obtain ⟨x, hx⟩ : ∃ x, x = iceX idx (samples.map fun r => r.map (Int.cast : Int → K))
    (grid.map fun g => g.map ((DType.int : DType Int K).store false)) := ⟨_, rfl⟩
  rw [← hx] at hok
  refine ⟨_, hok, fun s hs => ?_⟩
  obtain ⟨r, hr⟩ : ∃ r, samples[s]? = some r := ⟨_, List.getElem?_eq_getElem hs⟩
  obtain ⟨m, hm, row, hmp, hmq⟩ : ∃ m, x[s]? = some m ∧ ∃ row, m[p]? = some row ∧ m[q]? = some row := by
    rw [hx]
    simp only [iceX, List.getElem?_map, hr, Option.map_some]
    refine ⟨_, rfl, assignRow idx (u.map ((DType.int : DType Int K).store false)) (r.map Int.cast), ?_, ?_⟩
    · simp only [List.getElem?_map, hpt, Option.map_some, hsame]
    · simp only [List.getElem?_map, hqu, Option.map_some]
  refine ⟨⟨if c.centered = true then mu row - ((m.map mu).getD 0 0) else mu row, ?_, ?_⟩, ⟨sd row ^ 2, ?_, ?_⟩⟩ <;>
    simp only [at2, List.getElem?_map, hm, hmp, hmq, Option.map_some, Option.bind_some]

/-- **C137** what remains of the claim: with at most two grid points per axis an integer array gives what the same samples give as
floats. -/
theorem C137_dtype_partial {c : IceCfg K} {samples : List (List Int)} {grid : List (List K)}
    (hfull : IsFullGrid c.selected.length c.perAxis grid) (htwo : c.perAxis ≤ 2) :
    iceCalcD DType.int c samples grid =
      iceCalcD DType.float c (samples.map fun r => r.map (Int.cast : Int → K)) grid := by
  have hg : (grid.map fun g => g.map ((DType.int : DType Int K).store false)) = grid := by
    conv_rhs => rw [← List.map_id grid]
    apply List.map_congr_left
    intro t ht
    conv_rhs => rw [id, ← List.map_id t]
    apply List.map_congr_left
    intro v hv
    have h1 := (fullGrid_unit hfull t ht).2 v hv
    rw [store_int_unit h1.1 h1.2]
    obtain ⟨i, hi, rfl⟩ := ((hfull.2 t).1 ht).2 v hv
    by_cases hg1 : c.perAxis = 1
    · rw [if_pos hg1]; simp
    · have h2 : c.perAxis = 2 := by omega
      rw [if_neg hg1, h2]
      have : i = 0 ∨ i = 1 := by omega
      rcases this with rfl | rfl <;> norm_num
  unfold iceCalcD
  rw [hg]
  simp [DType.float, DType.int, Function.comp_def]

private def exInt : IceCfg ℚ :=
  ⟨[⟨"x1", .float (-5) 5 false⟩, ⟨"x2", .float 0 1 false⟩], [⟨"x2", .float 0 1 false⟩], [[0, 1], [1, 0]], 2, 3, 3, false,
   fun rows => .ok (rows.map fun r => r.getD 0 0 + 2 * r.getD 1 0, rows.map fun r => r.getD 1 0)⟩

/-- **C137** the claim "the selected features of `x_ice` carry the grid points" fails for integer samples, although the same numbers
given as floats satisfy it: samples `[[0, 1], [1, 0]]`, three grid points. -/
theorem C137_dtype_counterexample :
    (∃ d, (gridPoints 1 3).bind (iceCalcD DType.int exInt [[0, 1], [1, 0]]) = .ok d ∧
      at3 d.x 0 1 1 = some 0 ∧ d.y = [[0, 0, 2], [1, 1, 3]] ∧ d.v = [[0, 0, 1], [0, 0, 1]]) ∧
    (∃ d, (gridPoints 1 3).bind (iceCalcD DType.float exInt [[0, 1], [1, 0]]) = .ok d ∧
      at3 d.x 0 1 1 = some (1/2) ∧ d.y = [[0, 1, 2], [1, 2, 3]] ∧ d.v = [[0, 1/4, 1], [0, 1/4, 1]]) :=
  ⟨⟨⟨[[[0, 0], [0, 0], [0, 1]], [[1, 0], [1, 0], [1, 1]]], _, _⟩, by decide +kernel, by decide +kernel, rfl, rfl⟩,
   ⟨⟨[[[0, 0], [0, 1/2], [0, 1]], [[1, 0], [1, 1/2], [1, 1]]], _, _⟩, by decide +kernel, by decide +kernel, rfl, rfl⟩⟩

end PyPDP
