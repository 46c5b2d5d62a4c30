/-
C119: an ICE object as a Python sequence of its curves.
-/
import Verif.Model.IceSeq
import Verif.Props.IceObject

namespace PyPDP
open Spec
variable {K : Type}

section
variable [Field K]

/-- the first access computes (or finds) the arrays; from then on nothing changes -/
theorem iceGet_state {s : IceState K} {d : IceData K} (hs : Stored s d ∨ (Fresh s ∧ calcNow s = .ok d)) (i : Int) :
    Stored (iceGet s i).1 d ∧ (iceGet s i).1.cfg = s.cfg := by
  obtain ⟨s1, hr1, hs1, hc1⟩ : ∃ s1, readX s = (s1, .ok d.x) ∧ Stored s1 d ∧ s1.cfg = s.cfg := by
    rcases hs with hs | ⟨hf, hc⟩
    · exact ⟨s, (reads_of_stored hs).1, hs, rfl⟩
    · obtain ⟨h1, h2, h3⟩ := (iceCalculate_eq s).1 d hc
      exact ⟨(iceCalculate s).1, by rw [(reads_of_fresh hf).1, h1]; rfl, h2, h3⟩
  obtain ⟨_, hr2, hr3⟩ := reads_of_stored hs1
  have : (iceGet s i).1 = s1 := by
    unfold iceGet
    rw [hr1]
    dsimp only
    rw [hr2]
    dsimp only
    rw [hr3]
    cases npIndex d.x i with
    | error e => rfl
    | ok x =>
      cases npIndex d.y i with
      | error e => rfl
      | ok y => cases hv' : npIndex d.v i <;> simp [hv']
  rw [this]
  exact ⟨hs1, hc1⟩

/-- curve number `k` of the arrays `d` -/
def Spec.IsCurve (s : IceState K) (d : IceData K) (k : Nat) (c : IceCurve K) : Prop :=
  c.space = s.cfg.space ∧ c.selected = s.cfg.selected ∧ d.x[k]? = some c.x ∧ d.y[k]? = some c.y ∧ d.v[k]? = some c.v

theorem iceGet_curve {s : IceState K} {d : IceData K} (hs : Stored s d ∨ (Fresh s ∧ calcNow s = .ok d)) {n : Nat}
    (hx : d.x.length = n) (hy : d.y.length = n) (hv : d.v.length = n) (k : Nat) :
    (k < n → ∃ t c, iceGet s k = (t, .ok c) ∧ Stored t d ∧ t.cfg = s.cfg ∧ IsCurve s d k c) ∧
    (n ≤ k → ∃ t, iceGet s k = (t, .error .index) ∧ Stored t d ∧ t.cfg = s.cfg) := by
  obtain ⟨h1, h2⟩ := C47_curve hs hx hy hv (k : Int)
  obtain ⟨hst, hcfg⟩ := iceGet_state hs (k : Int)
  constructor
  · intro hk
    obtain ⟨x, y, v, hx', hy', hv', hg⟩ := h1 k hk (Or.inl rfl)
    exact ⟨(iceGet s k).1, ⟨s.cfg.space, s.cfg.selected, x, y, v⟩, by rw [← hg], hst, hcfg, rfl, rfl, hx', hy', hv'⟩
  · intro hk
    have := h2 (by omega)
    exact ⟨(iceGet s k).1, by rw [← this], hst, hcfg⟩

theorem iterFrom_stored {d : IceData K} {n : Nat} (hx : d.x.length = n) (hy : d.y.length = n) (hv : d.v.length = n) :
    ∀ (m k : Nat), k + m = n → ∀ (fuel : Nat), m < fuel → ∀ s : IceState K, (Stored s d ∨ (Fresh s ∧ calcNow s = .ok d)) →
      ∃ t cs, iterFrom iceGet fuel s k = (t, cs, .finished) ∧ Stored t d ∧ t.cfg = s.cfg ∧ cs.length = m ∧
        ∀ (j : Nat) c, cs[j]? = some c → IsCurve s d (k + j) c := by
  intro m
  induction m with
  | zero =>
    intro k hk fuel hf s hs
    obtain ⟨fuel, rfl⟩ := Nat.exists_eq_succ_of_ne_zero (by omega : fuel ≠ 0)
    obtain ⟨t, hg, ht, hc⟩ := (iceGet_curve hs hx hy hv k).2 (by omega)
    exact ⟨t, [], by simp [iterFrom, hg], ht, hc, rfl, by simp⟩
  | succ m ih =>
    intro k hk fuel hf s hs
    obtain ⟨fuel, rfl⟩ := Nat.exists_eq_succ_of_ne_zero (by omega : fuel ≠ 0)
    obtain ⟨t, c, hg, ht, hc, hcur⟩ := (iceGet_curve hs hx hy hv k).1 (by omega)
    obtain ⟨t', cs, h1, h2, h3, h4, h5⟩ := ih (k + 1) (by omega) fuel (by omega) t (Or.inl ht)
    refine ⟨t', c :: cs, by simp [iterFrom, hg, h1], h2, h3.trans hc, by simp [h4], ?_⟩
    intro j c' hj
    cases j with
    | zero => simp only [List.getElem?_cons_zero, Option.some.injEq] at hj; subst hj; exact hcur
    | succ j =>
      have := h5 j c' (by simpa using hj)
      simp only [IsCurve, hc] at this ⊢
      rwa [show k + (j + 1) = k + 1 + j by omega]

theorem iterFuel_eq {s : IceState K} {d : IceData K} (hs : Stored s d ∨ (Fresh s ∧ calcNow s = .ok d)) : iterFuel s = d.x.length + 1 := by
  unfold iterFuel
  rcases hs with hs | ⟨hf, hc⟩
  · rw [(reads_of_stored hs).1]
  · rw [((C44_first_read hf).1 d hc).1]

/-- **C119** `list(ice)` and `for curve in ice`: one curve per row of the arrays, in order, each carrying its row of `x_ice`, `y_ice` and
`y_variances` - the same as `ice[0]`, `ice[1]`, ...; afterwards the arrays are stored and the attributes unchanged. -/
theorem C119_iteration {s : IceState K} {d : IceData K} (hs : Stored s d ∨ (Fresh s ∧ calcNow s = .ok d)) {n : Nat}
    (hx : d.x.length = n) (hy : d.y.length = n) (hv : d.v.length = n) :
    ∃ t cs, iceList s = (t, .ok cs) ∧ Stored t d ∧ t.cfg = s.cfg ∧ cs.length = n ∧
      ∀ (k : Nat) c, cs[k]? = some c → IsCurve s d k c ∧ (iceGet s k).2 = .ok c := by
  obtain ⟨t, cs, h1, h2, h3, h4, h5⟩ := iterFrom_stored hx hy hv n 0 (by omega) (iterFuel s) (by rw [iterFuel_eq hs]; omega) s hs
  refine ⟨t, cs, by simp only [iceList, h1], h2, h3, h4, fun k c hk => ?_⟩
  have hc := h5 k c hk
  rw [Nat.zero_add] at hc
  refine ⟨hc, ?_⟩
  have hlt : k < n := h4 ▸ (List.getElem?_eq_some_iff.1 hk).1
  obtain ⟨t', c', hg, _, _, hc'⟩ := (iceGet_curve hs hx hy hv k).1 hlt
  rw [hg]
  obtain ⟨sp, sel, x, y, v⟩ := c
  obtain ⟨sp', sel', x', y', v'⟩ := c'
  obtain ⟨a1, a2, a3, a4, a5⟩ := hc
  obtain ⟨b1, b2, b3, b4, b5⟩ := hc'
  dsimp only at *
  rw [a3] at b3; rw [a4] at b4; rw [a5] at b5
  cases b3; cases b4; cases b5
  rw [a1, a2, b1, b2]

/-- **C119** for a new ICE object over at least one sample and one grid point per axis, with any surrogate that predicts row by row:
`list(ice)` has `len(ice)` curves, and curve `k` shows at each grid point the surrogate's mean and squared deviation at sample `k` with
the selected hyperparameters set to that grid point. -/
theorem C119_new_object [LinearOrder K] [IsStrictOrderedRing K] {c : IceCfg K} (hc : ValidCfg c) (hcen : c.centered = false)
    {mu sd : List K → K} (hp : RowWise c.space.length c.predict mu sd) (hn : c.samples ≠ []) (hg1 : 1 ≤ c.perAxis) :
    ∃ grid t cs, IsFullGrid c.selected.length c.perAxis grid ∧ iceList (iceInit c) = (t, .ok cs) ∧ cs.length = iceLen (iceInit c) ∧
      ∀ (k : Nat) (cur : IceCurve K) (r : List K), cs[k]? = some cur → c.samples[k]? = some r →
        cur.x.length = grid.length ∧ cur.y = cur.x.map mu ∧ cur.v = cur.x.map (fun a => sd a ^ 2) ∧
        ∀ (p : Nat) row g, cur.x[p]? = some row → grid[p]? = some g → row.length = c.space.length ∧
          (∀ (j : Nat) hp f, c.selected[j]? = some hp → IsFeature c.space hp f → row[f]? = g[j]?) ∧
          (∀ f : Nat, (∀ hp ∈ c.selected, ¬ IsFeature c.space hp f) → row[f]? = r[f]?) := by
  obtain ⟨idx, hidx, _⟩ := hc.idx
  obtain ⟨grid, hgrid, hgl, hfull⟩ := C40_grid (K := K) (List.length_pos_iff.2 hc.sel_ne) c.perAxis
  have hg : grid.length = c.numGrid := hgl.trans hc.num_grid.symm
  have hgk : ∀ t ∈ grid, t.length = c.selected.length := fun t ht => ((hfull.2 t).1 ht).1
  have hP : c.numGrid ≠ 0 := by rw [hc.num_grid]; exact pow_ne_zero _ (by omega)
  have hcalc := iceCalc_ok hc hp hn hg hP hidx
  obtain ⟨d, hd⟩ : ∃ d, iceCalc c grid = .ok d := ⟨_, hcalc⟩
  obtain ⟨hshape, hentries⟩ := C41_x_ice hc hg hgk hd
  rw [hcalc] at hd
  have hd' := Except.ok.inj hd
  have hxl : d.x.length = c.samples.length := hshape.1
  have hy : d.y = d.x.map (fun m => m.map mu) := by rw [← hd']; simp [hcen]
  have hv : d.v = d.x.map (fun m => m.map fun a => sd a ^ 2) := by rw [← hd']
  have hnow : calcNow (iceInit c) = .ok d := by
    simp only [calcNow, iceInit, hgrid, Py.ok_bind, hcalc, hd']
  obtain ⟨t, cs, h1, _, _, h4, h5⟩ := C119_iteration (s := iceInit c) (Or.inr ⟨fresh_init c, hnow⟩) hxl (by rw [hy]; simpa using hxl)
    (by rw [hv]; simpa using hxl)
  refine ⟨grid, t, cs, hfull, h1, by rw [h4]; exact hc.num_samples.symm, fun k cur r hk hr => ?_⟩
  obtain ⟨_, _, hcx, hcy, hcv⟩ := (h5 k cur hk).1
  rw [hy, List.getElem?_map, hcx] at hcy
  rw [hv, List.getElem?_map, hcx] at hcv
  have hsh := hshape.2 cur.x (List.mem_of_getElem? hcx)
  refine ⟨hsh.1.trans hg.symm, (Option.some.inj hcy).symm, (Option.some.inj hcv).symm, fun p row g hrow hgp => ?_⟩
  obtain ⟨e1, e2⟩ := hentries k r p g hr hgp
  have hat : ∀ f, at3 d.x k p f = row[f]? := fun f => by simp [at3, hcx, hrow]
  refine ⟨hsh.2 row (List.mem_of_getElem? hrow), fun j hp' f hj hf => ?_, fun f hf => ?_⟩
  · rw [← hat]; exact e1 j hp' f hj hf
  · rw [← hat]; exact e2 f hf

/-- **C119** when the calculation raises: an IndexError (from the surrogate, say) is taken for the end of the sequence, so `list(ice)` is
empty although `ice[0]` raises; every other exception reaches the caller. -/
theorem C119_errors {s : IceState K} (hs : Fresh s) {e : PyErr} (he : calcNow s = .error e) :
    (e = .index → (iceList s).2 = .ok []) ∧ (e ≠ .index → (iceList s).2 = .error e) ∧ (iceGet s 0).2 = .error e := by
  obtain ⟨hr, _⟩ := (C44_first_read hs).2 e he
  have hfuel : iterFuel s = 1 := by unfold iterFuel; rw [hr]
  obtain ⟨s1, hrx⟩ : ∃ s1, readX s = (s1, .error e) := ⟨(readX s).1, by rw [← hr]⟩
  have hg : ∀ i, iceGet s i = (s1, .error e) := fun i => by unfold iceGet; rw [hrx]
  refine ⟨?_, ?_, by rw [hg]⟩
  · rintro rfl
    simp [iceList, hfuel, iterFrom, hg]
  · intro hne
    cases e <;> simp_all [iceList, iterFrom]

/-- **C119** so a surrogate that raises IndexError makes the length of `list(ice)` differ from `len(ice)` without any exception. -/
theorem C119_length_counterexample [LinearOrder K] [IsStrictOrderedRing K] {c : IceCfg K} (hc : ValidCfg c) (hn : c.samples ≠ [])
    (hp : ∀ X, c.predict X = .error .index) :
    (iceList (iceInit c)).2 = .ok [] ∧ 0 < iceLen (iceInit c) := by
  obtain ⟨idx, hidx, _⟩ := hc.idx
  obtain ⟨grid, hgrid, hgl, _⟩ := C40_grid (K := K) (List.length_pos_iff.2 hc.sel_ne) c.perAxis
  have hg : grid.length = c.numGrid := hgl.trans hc.num_grid.symm
  have hnow : calcNow (iceInit c) = .error .index := by
    simp only [calcNow, iceInit, hgrid, Py.ok_bind]
    rw [iceCalc_eq hc hidx hg, hp]
    rfl
  refine ⟨(C119_errors (fresh_init c) hnow).1 rfl, ?_⟩
  show 0 < c.numSamples
  rw [hc.num_samples]
  exact List.length_pos_iff.2 hn

end

section
variable [DecidableEq K]

/-- **C119** any two curves compare equal, whatever they show, and no curve can be hashed. -/
theorem C119_equality_counterexample (a b : IceCurve K) : curveEq a b = true ∧ curveHash a = .error .type :=
  ⟨by simp [curveEq, curveFields], rfl⟩

/-- **C119** exactly: `c in ice` holds for every curve `c` as soon as the ICE has one curve, and for none otherwise. -/
theorem C119_contains_exact [Field K] {s : IceState K} {d : IceData K} (hs : Stored s d ∨ (Fresh s ∧ calcNow s = .ok d)) {n : Nat}
    (hx : d.x.length = n) (hy : d.y.length = n) (hv : d.v.length = n) (c : IceCurve K) :
    (iceContains s c).2 = .ok (decide (0 < n)) := by
  unfold iceContains
  rw [iterFuel_eq hs]
  by_cases h : 0 < n
  · obtain ⟨t, c', hg, _⟩ := (iceGet_curve hs hx hy hv 0).1 h
    simp only [searchFrom, hg, (C119_equality_counterexample c' c).1, h, if_true, decide_true]
  · obtain ⟨t, hg, _⟩ := (iceGet_curve hs hx hy hv 0).2 (by omega)
    simp only [searchFrom, hg, h, decide_false]

/-- **C119** membership is sound in one direction only: a curve of `list(ice)` is `in` the ICE. -/
theorem C119_contains_partial [Field K] {s : IceState K} {d : IceData K} (hs : Stored s d ∨ (Fresh s ∧ calcNow s = .ok d)) {n : Nat}
    (hx : d.x.length = n) (hy : d.y.length = n) (hv : d.v.length = n) {cs : List (IceCurve K)} (hl : (iceList s).2 = .ok cs) {c : IceCurve K}
    (hc : c ∈ cs) : (iceContains s c).2 = .ok true := by
  rw [C119_contains_exact hs hx hy hv]
  obtain ⟨t, cs', h1, _, _, h4, _⟩ := C119_iteration hs hx hy hv
  rw [h1] at hl
  cases hl
  have := List.length_pos_of_mem hc
  simp only [← h4, this, decide_true]

end

/-- two features, two samples, two grid points; the surrogate adds the features -/
def seqCfg : IceCfg ℚ :=
  ⟨[⟨"a", .float 0 1 false⟩, ⟨"b", .float 0 1 false⟩], [⟨"b", .float 0 1 false⟩], [[1/2, 3], [5, 6]], 2, 2, 2, false,
    fun X => .ok (X.map fun r => r.sum, X.map fun _ => 2)⟩

example : (iceList (iceInit seqCfg)).2 = .ok
    [⟨seqCfg.space, seqCfg.selected, [[1/2, 0], [1/2, 1]], [1/2, 3/2], [4, 4]⟩,
     ⟨seqCfg.space, seqCfg.selected, [[5, 0], [5, 1]], [5, 6], [4, 4]⟩] := by decide +kernel

/-- a curve with other values is "in" that object -/
example : (iceContains (iceInit seqCfg) ⟨[], [], [[7]], [8], [9]⟩).2 = .ok true := by decide +kernel

end PyPDP
