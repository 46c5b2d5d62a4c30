/-
C40-C44, C80: ICE curves.
-/
import Verif.Spec.Ice
import Verif.Lemmas.Arrays
import Verif.Lemmas.Grid
import Verif.Lemmas.Linspace
import Verif.Props.Selection

namespace PyPDP
open Spec
variable {K : Type}

/-! ### C40 -/

theorem mem_tuples {α : Type} {axis : List α} {k : Nat} {t : List α} : t ∈ tuples axis k ↔ t.length = k ∧ ∀ v ∈ t, v ∈ axis := by
  induction k generalizing t with
  | zero => cases t <;> simp [tuples]
  | succ k ih =>
    simp only [tuples, List.mem_flatMap, List.mem_map]
    constructor
    · rintro ⟨v, hv, r, hr, rfl⟩
      obtain ⟨h1, h2⟩ := ih.1 hr
      refine ⟨by simp [h1], fun w hw => ?_⟩
      rcases List.mem_cons.1 hw with rfl | hw
      exacts [hv, h2 w hw]
    · rintro ⟨h1, h2⟩
      cases t with
      | nil => simp at h1
      | cons v r =>
        exact ⟨v, h2 v (by simp), r, ih.2 ⟨by simpa using h1, fun w hw => h2 w (by simp [hw])⟩, rfl⟩

theorem tuples_length {α : Type} (axis : List α) (k : Nat) : (tuples axis k).length = axis.length ^ k := by
  induction k with
  | zero => rfl
  | succ k ih => simp [tuples, List.length_flatMap, ih, pow_succ, mul_comm]

theorem tuples_nodup {α : Type} {axis : List α} (h : axis.Nodup) (k : Nat) : (tuples axis k).Nodup := by
  induction k with
  | zero => simp [tuples]
  | succ k ih =>
    rw [tuples, List.nodup_flatMap]
    refine ⟨fun v _ => ih.map fun a b h => (List.cons.inj h).2, ?_⟩
    apply h.imp
    intro a b hab
    simp only [Function.onFun, List.disjoint_left, List.mem_map]
    rintro t ⟨r, _, rfl⟩ ⟨r', _, hr'⟩
    exact hab (List.cons.inj hr').1.symm

theorem swap01_swap01 {α : Type} (l : List α) : swap01 (swap01 l) = l := by
  match l with
  | [] => rfl
  | [_] => rfl
  | _ :: _ :: _ => rfl

theorem swap01_perm {α : Type} (l : List α) : (swap01 l).Perm l := by
  match l with
  | [] => exact .refl _
  | [_] => exact .refl _
  | _ :: _ :: _ => exact .swap _ _ _

theorem mem_linspace01 [Field K] [LinearOrder K] [IsStrictOrderedRing K] {g : Nat} {v : K} :
    v ∈ linspace (0 : K) 1 g ↔ ∃ i < g, v = if g = 1 then 0 else (i : K) / ((g : K) - 1) := by
  rcases Nat.lt_trichotomy g 1 with h | h | h
  · have : g = 0 := by omega
    subst this; simp [linspace]
  · subst h; simp [linspace]
  · rw [List.mem_iff_getElem?]
    constructor
    · rintro ⟨i, hi⟩
      have hlt : i < g := by simpa using (List.getElem?_eq_some_iff.1 hi).1
      rw [linspace_getElem? _ _ hlt h] at hi
      refine ⟨i, hlt, ?_⟩
      rw [if_neg (by omega), ← Option.some.inj hi]; ring
    · rintro ⟨i, hlt, rfl⟩
      refine ⟨i, ?_⟩
      rw [linspace_getElem? _ _ hlt h, if_neg (by omega)]; congr 1; ring

/-- **C40** `g ^ k` rows, each `k`-tuple over the evenly spaced axis exactly once; no grid for an empty selection. -/
theorem C40_grid [Field K] [LinearOrder K] [IsStrictOrderedRing K] {k : Nat} (hk : 1 ≤ k) (g : Nat) :
    ∃ grid : List (List K), gridPoints k g = .ok grid ∧ grid.length = g ^ k ∧ IsFullGrid k g grid := by
  refine ⟨(tuples (linspace 0 1 g) k).map swap01, ?_, ?_, ?_, ?_⟩
  · rw [gridPoints, if_neg (by omega)]
  · rw [List.length_map, tuples_length, linspace_length]
  · apply (tuples_nodup (linspace_nodup one_pos g |> id) k).map
    intro a b hab
    rw [← swap01_swap01 a, hab, swap01_swap01]
  · intro t
    rw [List.mem_map]
    constructor
    · rintro ⟨r, hr, rfl⟩
      obtain ⟨h1, h2⟩ := mem_tuples.1 hr
      refine ⟨by rw [(swap01_perm r).length_eq, h1], fun v hv => ?_⟩
      exact mem_linspace01.1 (h2 v ((swap01_perm r).mem_iff.1 hv))
    · rintro ⟨h1, h2⟩
      refine ⟨swap01 t, mem_tuples.2 ⟨by rw [(swap01_perm t).length_eq, h1], fun v hv => ?_⟩, swap01_swap01 t⟩
      exact mem_linspace01.2 (h2 v ((swap01_perm t).mem_iff.1 hv))

theorem C40_nothing_selected [Field K] (g : Nat) : gridPoints (K := K) 0 g = .error .value := rfl

/-- order of the rows: with two axes the *first* coordinate runs fastest (meshgrid's "xy") -/
example : gridPoints (K := ℚ) 2 2 = .ok [[0, 0], [1, 0], [0, 1], [1, 1]] := by decide +kernel

example : gridPoints (K := ℚ) 1 3 = .ok [[0], [1/2], [1]] := by decide +kernel

/-! ### C41, C42 -/

theorem assignRow_length (idx : List Nat) (vals row : List K) : (assignRow idx vals row).length = row.length := by
  unfold assignRow
  generalize idx.zip vals = l
  induction l generalizing row with
  | nil => rfl
  | cons p ps ih => rw [List.foldl_cons, ih]; simp

theorem assignRow_other {idx : List Nat} {f : Nat} (h : f ∉ idx) (vals row : List K) : (assignRow idx vals row)[f]? = row[f]? := by
  unfold assignRow
  have h' : ∀ p ∈ idx.zip vals, p.1 ≠ f := fun p hp e => h (e ▸ (List.of_mem_zip hp).1)
  generalize idx.zip vals = l at h'
  induction l generalizing row with
  | nil => rfl
  | cons p ps ih =>
    rw [List.foldl_cons, ih _ (fun q hq => h' q (by simp [hq])), List.getElem?_set_ne (h' p (by simp))]

theorem assignRow_selected {idx : List Nat} (hnd : idx.Nodup) {vals row : List K} {j f : Nat} {v : K} (hj : idx[j]? = some f)
    (hv : vals[j]? = some v) (hf : f < row.length) : (assignRow idx vals row)[f]? = some v := by
  induction idx generalizing vals row j with
  | nil => simp at hj
  | cons i is ih =>
    rw [List.nodup_cons] at hnd
    cases vals with
    | nil => simp at hv
    | cons w ws =>
      have e : assignRow (i :: is) (w :: ws) row = assignRow is ws (row.set i w) := rfl
      rw [e]
      cases j with
      | zero =>
        simp only [List.getElem?_cons_zero, Option.some.injEq] at hj hv
        subst hj hv
        rw [assignRow_other hnd.1, List.getElem?_set_self hf]
      | succ j =>
        rw [List.getElem?_cons_succ] at hj hv
        exact ih hnd.2 hj hv (by simpa using hf)

theorem map_replicate_zip {β γ : Type} (F : β → γ → γ) (grid : List β) (r : γ) :
    List.zipWith F grid (List.replicate grid.length r) = grid.map fun g => F g r := by
  induction grid with
  | nil => rfl
  | cons g gs ih => simp [List.replicate_succ, ih]

theorem Spec.ValidCfg.idx {c : IceCfg K} (h : ValidCfg c) : ∃ idx, getSelectedIdx c.selected c.space = .ok idx ∧ idx.Nodup ∧
    List.Forall₂ (fun hp i => IsFeature c.space hp i) c.selected idx := by
  have hall : ∀ sel : List (Hp K), (∀ hp ∈ sel, hp ∈ c.space) →
      ∃ idx, List.Forall₂ (fun hp i => IsFeature c.space hp i) sel idx := by
    intro sel
    induction sel with
    | nil => intro _; exact ⟨[], .nil⟩
    | cons a as ih =>
      intro hm
      obtain ⟨is, his⟩ := ih fun hp hhp => hm hp (by simp [hhp])
      obtain ⟨i, hi⟩ := List.mem_iff_getElem?.1 (hm a (by simp))
      exact ⟨i :: is, .cons ⟨a, hi, rfl⟩ his⟩
  obtain ⟨idx, hidx⟩ := hall c.selected h.sel_mem
  have hok := (C06_positions h.wf c.selected idx).2 hidx
  exact ⟨idx, hok, C06_distinct h.wf hok h.sel_distinct, hidx⟩

/-- the array of `_calculate` -/
def iceX (idx : List Nat) (samples grid : List (List K)) : List (List (List K)) :=
  samples.map fun r => grid.map fun g => assignRow idx g r

/-- `_calculate` in closed form -/
theorem iceCalc_eq [Field K] {c : IceCfg K} (hc : ValidCfg c) {idx : List Nat} (hidx : getSelectedIdx c.selected c.space = .ok idx)
    {grid : List (List K)} (hg : grid.length = c.numGrid) :
    iceCalc c grid = (do
      let (means, stds) ← c.predict (iceX idx c.samples grid).flatten
      let y ← reshape2 c.numSamples c.numGrid means
      let s ← reshape2 c.numSamples c.numGrid stds
      let v := s.map fun row => row.map fun t => t ^ 2
      let y ← maybeCenter c.centered c.numGrid y
      if y.length = c.numSamples ∧ v.length = c.numSamples then .ok ⟨iceX idx c.samples grid, y, v⟩ else .error .assertion) := by
  obtain ⟨x, h1, h2⟩ := repeat_reshape_transpose c.numGrid hc.rows
  have hx : assignGrid c.numGrid idx grid (c.samples.map fun r => List.replicate c.numGrid r) = .ok (iceX idx c.samples grid) := by
    unfold assignGrid
    rw [if_pos hg, List.map_map]
    congr 1
    apply List.map_congr_left
    intro r _
    simp only [Function.comp]
    rw [← hg, map_replicate_zip]
  unfold iceCalc
  rw [hidx, Py.ok_bind]
  dsimp only
  rw [hc.num_samples, h1, Py.ok_bind, h2, hx, Py.ok_bind]

theorem iceX_shape (idx : List Nat) {samples grid : List (List K)} {F : Nat} (h : ∀ r ∈ samples, r.length = F) :
    Shape3 samples.length grid.length F (iceX idx samples grid) := by
  refine ⟨by simp [iceX], fun m hm => ?_⟩
  obtain ⟨r, hr, rfl⟩ := List.mem_map.1 hm
  refine ⟨by simp, fun q hq => ?_⟩
  obtain ⟨g, _, rfl⟩ := List.mem_map.1 hq
  rw [assignRow_length, h r hr]

theorem iceX_at {idx : List Nat} {samples grid : List (List K)} {s p : Nat} {r g : List K} (hr : samples[s]? = some r)
    (hg : grid[p]? = some g) (f : Nat) : at3 (iceX idx samples grid) s p f = (assignRow idx g r)[f]? := by
  simp [at3, iceX, List.getElem?_map, hr, hg]

/-- what the calculation returns with a row-wise surrogate -/
theorem iceCalc_ok [Field K] {c : IceCfg K} (hc : ValidCfg c) {mu sd : List K → K} (hp : RowWise c.space.length c.predict mu sd)
    (hn : c.samples ≠ []) {grid : List (List K)} (hg : grid.length = c.numGrid) (hP : c.numGrid ≠ 0)
    {idx : List Nat} (hidx : getSelectedIdx c.selected c.space = .ok idx) :
    iceCalc c grid = .ok ⟨iceX idx c.samples grid,
      (iceX idx c.samples grid).map (fun m => m.map fun r =>
        if c.centered then mu r - ((m.map mu).getD 0 0) else mu r),
      (iceX idx c.samples grid).map fun m => m.map fun r => sd r ^ 2⟩ := by
  rw [iceCalc_eq hc hidx hg]
  obtain ⟨x, hx⟩ : ∃ x, x = iceX idx c.samples grid := ⟨_, rfl⟩
  have hsh : Shape3 c.numSamples c.numGrid c.space.length x := by
    rw [hx, hc.num_samples, ← hg]; exact iceX_shape idx hc.rows
  rw [← hx]
  have hne : x.flatten ≠ [] := by
    intro h0
    have h1 := flatten_length_of (m := x) (c := c.numGrid) (fun r hr => (hsh.2 r hr).1)
    rw [h0, hsh.1] at h1
    have : c.samples.length ≠ 0 := by simpa using hn
    rw [hc.num_samples] at h1
    have := Nat.mul_ne_zero this hP
    rw [List.length_nil] at h1
    exact this h1.symm
  rw [hp _ hne (fun r hr => by
    obtain ⟨m, hm, hrm⟩ := List.mem_flatten.1 hr
    exact (hsh.2 m hm).2 r hrm), Py.ok_bind]
  dsimp only
  have hre : ∀ f : List K → K, reshape2 c.numSamples c.numGrid (x.flatten.map f) = .ok (x.map fun m => m.map f) := by
    intro f
    rw [map_flatten_map]
    have h1 : ∀ r ∈ (x.map fun m => m.map f), r.length = c.numGrid := by
      intro r hr
      obtain ⟨m, hm, rfl⟩ := List.mem_map.1 hr
      rw [List.length_map, (hsh.2 m hm).1]
    have := reshape2_flatten h1
    rw [List.length_map, hsh.1] at this
    exact this
  rw [hre, Py.ok_bind, hre, Py.ok_bind]
  cases hcen : c.centered with
  | false =>
    rw [maybeCenter, if_neg (by simp), Py.ok_bind, if_pos (by simp [hsh.1])]
    simp [Function.comp_def]
  | true =>
    rw [maybeCenter, if_pos rfl, centerRows, if_neg hP, Py.ok_bind, if_pos (by simp [hsh.1])]
    simp only [List.map_map, Function.comp_def, if_true]

/-- **C41** `x_ice` has shape `(samples, grid points, features)`; the selected features carry the grid point, all others the sample's
own value. -/
theorem C41_x_ice [Field K] {c : IceCfg K} (hc : ValidCfg c) {grid : List (List K)} (hg : grid.length = c.numGrid)
    (hgk : ∀ t ∈ grid, t.length = c.selected.length) {d : IceData K} (h : iceCalc c grid = .ok d) :
    Shape3 c.samples.length c.numGrid c.space.length d.x ∧
    ∀ (s : Nat) (r : List K) (p : Nat) (t : List K), c.samples[s]? = some r → grid[p]? = some t →
      (∀ (j : Nat) hp f, c.selected[j]? = some hp → IsFeature c.space hp f → at3 d.x s p f = t[j]?) ∧
      (∀ f : Nat, (∀ hp ∈ c.selected, ¬ IsFeature c.space hp f) → at3 d.x s p f = r[f]?) := by
  obtain ⟨idx, hidx, hnd, hfeat⟩ := hc.idx
  rw [iceCalc_eq hc hidx hg] at h
  obtain ⟨⟨means, stds⟩, _, h⟩ := Py.bind_eq_ok.1 h
  obtain ⟨y, _, h⟩ := Py.bind_eq_ok.1 h
  obtain ⟨sv, _, h⟩ := Py.bind_eq_ok.1 h
  obtain ⟨y', _, h⟩ := Py.bind_eq_ok.1 h
  split at h
  · obtain rfl := Except.ok.inj h
    refine ⟨by rw [← hg]; exact iceX_shape idx hc.rows, ?_⟩
    intro s r p t hr ht
    constructor
    · intro j hp f hj hf
      obtain ⟨i, hi, hfi⟩ : ∃ i, idx[j]? = some i ∧ IsFeature c.space hp i := by
        have hlen := hfeat.length_eq
        have hjl := (List.getElem?_eq_some_iff.1 hj).1
        refine ⟨idx[j]'(by omega), List.getElem?_eq_getElem _, ?_⟩
        have := hfeat.get hjl (by omega)
        simp only [List.get_eq_getElem] at this
        rw [List.getElem?_eq_getElem hjl] at hj
        rw [← Option.some.inj hj]
        exact this
      have hfe : f = i := by
        obtain ⟨h1, h1a, h1b⟩ := hf
        obtain ⟨h2, h2a, h2b⟩ := hfi
        have hnm := hc.wf
        rw [ConfigSpace.WF, List.nodup_iff_getElem?_ne_getElem?] at hnm
        by_contra hne
        have e : (c.space.map Hp.name)[f]? = (c.space.map Hp.name)[i]? := by
          rw [List.getElem?_map, List.getElem?_map, h1a, h2a]; simp [h1b, h2b]
        have hl1 : f < c.space.length := (List.getElem?_eq_some_iff.1 h1a).1
        have hl2 : i < c.space.length := (List.getElem?_eq_some_iff.1 h2a).1
        rcases Nat.lt_or_gt_of_ne hne with hlt | hlt
        · exact hnm f i hlt (by simpa using hl2) e
        · exact hnm i f hlt (by simpa using hl1) e.symm
      subst hfe
      have hrl : f < r.length := by
        rw [hc.rows r (List.mem_of_getElem? hr)]
        obtain ⟨h1, h1a, _⟩ := hf
        exact (List.getElem?_eq_some_iff.1 h1a).1
      have htl : j < t.length := by
        rw [hgk t (List.mem_of_getElem? ht)]
        exact (List.getElem?_eq_some_iff.1 hj).1
      rw [iceX_at hr ht, List.getElem?_eq_getElem htl]
      exact assignRow_selected hnd hi (List.getElem?_eq_getElem htl) hrl
    · intro f hf
      rw [iceX_at hr ht]
      apply assignRow_other
      intro hmem
      obtain ⟨j, hj⟩ := List.mem_iff_getElem?.1 hmem
      have hjl := (List.getElem?_eq_some_iff.1 hj).1
      have hlen := hfeat.length_eq
      have := hfeat.get (i := j) (by omega) hjl
      simp only [List.get_eq_getElem] at this
      rw [List.getElem?_eq_getElem hjl] at hj
      rw [Option.some.inj hj] at this
      exact hf _ (List.getElem_mem _) this
  · cases h

/-- the calculation succeeds -/
theorem C41_succeeds [Field K] {c : IceCfg K} (hc : ValidCfg c) {mu sd : List K → K} (hp : RowWise c.space.length c.predict mu sd)
    (hn : c.samples ≠ []) {grid : List (List K)} (hg : grid.length = c.numGrid) (hP : c.numGrid ≠ 0) :
    ∃ d, iceCalc c grid = .ok d := by
  obtain ⟨idx, hidx, _⟩ := hc.idx
  exact ⟨_, iceCalc_ok hc hp hn hg hP hidx⟩

/-- **C42** entry by entry, `y_ice` is the surrogate's mean at that row of `x_ice` and `y_variances` the square of its standard
deviation there (hence not negative), both of shape `(samples, grid points)`. -/
theorem C42_predictions [Field K] [LinearOrder K] [IsStrictOrderedRing K] {c : IceCfg K} (hc : ValidCfg c)
    (hcen : c.centered = false) {mu sd : List K → K}
    (hp : RowWise c.space.length c.predict mu sd) (hn : c.samples ≠ []) {grid : List (List K)} (hg : grid.length = c.numGrid)
    (hP : c.numGrid ≠ 0) {d : IceData K} (h : iceCalc c grid = .ok d) :
    Shape2 c.samples.length c.numGrid d.y ∧ Shape2 c.samples.length c.numGrid d.v ∧
    (∀ s p row, (d.x[s]?.bind (·[p]?)) = some row → at2 d.y s p = some (mu row) ∧ at2 d.v s p = some (sd row ^ 2)) ∧
    (∀ s p v, at2 d.v s p = some v → 0 ≤ v) := by
  obtain ⟨idx, hidx, _⟩ := hc.idx
  rw [iceCalc_ok hc hp hn hg hP hidx] at h
  obtain rfl := Except.ok.inj h
  have hsh := iceX_shape (grid := grid) idx hc.rows
  rw [hg] at hsh
  refine ⟨⟨by simp [hsh.1], ?_⟩, ⟨by simp [hsh.1], ?_⟩, ?_, ?_⟩
  · intro r hr
    obtain ⟨m, hm, rfl⟩ := List.mem_map.1 hr
    rw [List.length_map, (hsh.2 m hm).1]
  · intro r hr
    obtain ⟨m, hm, rfl⟩ := List.mem_map.1 hr
    rw [List.length_map, (hsh.2 m hm).1]
  · intro s p row hrow
    obtain ⟨m, hm, hrow⟩ := Option.bind_eq_some_iff.1 hrow
    simp only at hm hrow
    simp [at2, hm, hrow, hcen]
  · intro s p v hv
    obtain ⟨m, hm, hv⟩ := Option.bind_eq_some_iff.1 hv
    rw [List.getElem?_map] at hm
    obtain ⟨m', _, rfl⟩ := Option.map_eq_some_iff.1 hm
    rw [List.getElem?_map] at hv
    obtain ⟨r, _, rfl⟩ := Option.map_eq_some_iff.1 hv
    exact sq_nonneg _

/-- **C43** with `centered = True`: every curve starts at 0, its differences are those of the uncentered curve, and `x_ice` and the
variances are the same. -/
theorem C43_centered [Field K] {c : IceCfg K} (hc : ValidCfg c) {mu sd : List K → K} (hp : RowWise c.space.length c.predict mu sd)
    (hn : c.samples ≠ []) {grid : List (List K)} (hg : grid.length = c.numGrid) (hP : c.numGrid ≠ 0) :
    ∃ d d', iceCalc { c with centered := false } grid = .ok d ∧ iceCalc { c with centered := true } grid = .ok d' ∧
      d'.x = d.x ∧ d'.v = d.v ∧ d'.y.length = d.y.length ∧
      ∀ s, s < c.samples.length → at2 d'.y s 0 = some 0 ∧
        ∀ p q a b, at2 d.y s p = some a → at2 d.y s q = some b →
          ∃ a' b', at2 d'.y s p = some a' ∧ at2 d'.y s q = some b' ∧ a' - b' = a - b := by
  obtain ⟨idx, hidx, _⟩ := hc.idx
  have hc1 : ∀ b, ValidCfg { c with centered := b } := fun b =>
    ⟨hc.wf, hc.sel_mem, hc.sel_distinct, hc.sel_ne, hc.rows, hc.num_samples, hc.num_grid⟩
  refine ⟨_, _, iceCalc_ok (hc1 false) hp hn hg hP hidx, iceCalc_ok (hc1 true) hp hn hg hP hidx, rfl, rfl, by simp, ?_⟩
  intro s hs
  have hsh := iceX_shape (grid := grid) idx hc.rows
  rw [hg] at hsh
  have hs' : s < (iceX idx c.samples grid).length := by rw [hsh.1]; exact hs
  obtain ⟨m, hm⟩ : ∃ m, (iceX idx c.samples grid)[s]? = some m := ⟨_, List.getElem?_eq_getElem hs'⟩
  have hml := (hsh.2 m (List.mem_of_getElem? hm)).1
  have key : ∀ p, at2 ((iceX idx c.samples grid).map (fun m => m.map fun r =>
        if true = true then mu r - ((m.map mu).getD 0 0) else mu r)) s p = (m[p]?).map fun r => mu r - (m.map mu).getD 0 0 := by
    intro p; simp [at2, hm]
  have key0 : ∀ p, at2 ((iceX idx c.samples grid).map (fun m => m.map fun r =>
        if false = true then mu r - ((m.map mu).getD 0 0) else mu r)) s p = (m[p]?).map mu := by
    intro p; simp [at2, hm]
  constructor
  · dsimp only
    rw [key]
    have h0 : 0 < m.length := by rw [hml]; omega
    rw [List.getElem?_eq_getElem h0]
    simp [List.getD_eq_getElem?_getD, List.getElem?_eq_getElem h0]
  · intro p q a b ha hb
    dsimp only at ha hb ⊢
    rw [key0] at ha hb
    obtain ⟨ra, hra, rfl⟩ := Option.map_eq_some_iff.1 ha
    obtain ⟨rb, hrb, rfl⟩ := Option.map_eq_some_iff.1 hb
    refine ⟨_, _, by rw [key, hra]; rfl, by rw [key, hrb]; rfl, by ring⟩

/-- constructors give valid attributes -/
theorem algorithmInit_valid {space : ConfigSpace K} (hwf : space.WF) {predict : Predict K} {sel : Selection K}
    {samples : List (List K)} (hrows : ∀ r ∈ samples, r.length = space.length) {perAxis : Nat} {c : IceCfg K}
    (h : algorithmInit space predict sel samples perAxis = .ok c) (hne : c.selected ≠ [])
    (hmem : ∀ hp ∈ c.selected, hp ∈ space) (hd : (c.selected.map Hp.name).Nodup) :
    ValidCfg c ∧ c.space = space ∧ c.samples = samples ∧ c.perAxis = perAxis ∧ c.centered = false := by
  obtain ⟨hps, _, h⟩ := Py.bind_eq_ok.1 h
  obtain rfl := Except.ok.inj h
  exact ⟨⟨hwf, hmem, hd, hne, hrows, rfl, rfl⟩, rfl, rfl, rfl, rfl⟩

/-- two features, the second one selected, two samples, two grid points; the surrogate predicts `x₀ + 2 x₁` with deviation `x₁` -/
def exIce (centered : Bool) : IceCfg ℚ :=
  ⟨[⟨"x1", .float (-5) 5 false⟩, ⟨"x2", .float 0 1 false⟩], [⟨"x2", .float 0 1 false⟩], [[1/4, 1/3], [1/2, 1/5]], 2, 2, 2, centered,
   fun rows => .ok (rows.map fun r => r.getD 0 0 + 2 * r.getD 1 0, rows.map fun r => r.getD 1 0)⟩

/-- non-vacuity of C41-C43 -/
example : ValidCfg (exIce false) ∧
    RowWise (exIce false).space.length (exIce false).predict (fun r => r.getD 0 0 + 2 * r.getD 1 0) (fun r => r.getD 1 0) := by
  refine ⟨⟨by decide, ?_, by decide, by simp [exIce], ?_, rfl, rfl⟩, ?_⟩
  · intro hp h
    simp only [exIce, List.mem_singleton] at h
    simp [exIce, h]
  · intro r hr
    simp only [exIce, List.mem_cons, List.not_mem_nil, or_false] at hr
    rcases hr with rfl | rfl <;> rfl
  · intro rows _ _
    rfl

example : (gridPoints 1 2).bind (iceCalc (exIce false)) =
    .ok ⟨[[[1/4, 0], [1/4, 1]], [[1/2, 0], [1/2, 1]]], [[1/4, 9/4], [1/2, 5/2]], [[0, 1], [0, 1]]⟩ := by decide +kernel

example : (gridPoints 1 2).bind (iceCalc (exIce true)) =
    .ok ⟨[[[1/4, 0], [1/4, 1]], [[1/2, 0], [1/2, 1]]], [[0, 2], [0, 2]], [[0, 1], [0, 1]]⟩ := by decide +kernel

end PyPDP
