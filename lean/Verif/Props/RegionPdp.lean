/-
C62, C65: partitioners made from an ICE object, and the PDPs of regions.
-/
import Verif.Props.ImpliedSpace
import Verif.Props.IceHistory

namespace PyPDP
open Spec
variable {K : Type}

/-! ### C62 -/

/-- reading an ICE object or resetting it (no attribute is changed, the surrogate is not fitted again) -/
def IsRead : IceOp K → Prop
  | .setCentered _ => False
  | .setSamples _ => False
  | .setPerAxis _ => False
  | .refit _ => False
  | _ => True

section fromIce
variable [Field K]

/-- an ICE object that was only read and reset: same attributes, and the stored arrays, if any, are those of the calculation -/
def OnlyRead (c : IceCfg K) (i : IceState K) : Prop :=
  i.cfg = c ∧ (∀ g, i.grid = some g → gridPoints c.selected.length c.perAxis = .ok g) ∧
    (Fresh i ∨ ∃ d, calcNow (iceInit c) = .ok d ∧ Stored i d)

theorem onlyRead_calcNow {c : IceCfg K} {i : IceState K} (h : OnlyRead c i) : calcNow i = calcNow (iceInit c) := by
  obtain ⟨h1, h2, -⟩ := h
  unfold calcNow
  cases hg : i.grid with
  | none => simp [h1, iceInit]
  | some g => simp [h1, iceInit, h2 g hg]

theorem onlyRead_calculate {c : IceCfg K} {i : IceState K} (h : OnlyRead c i) : OnlyRead c (iceCalculate i).1 := by
  have hc := onlyRead_calcNow h
  obtain ⟨h1, h2, h3⟩ := h
  have hgrid : ∀ g, (iceCalculate i).1.grid = some g → gridPoints c.selected.length c.perAxis = .ok g := by
    intro g
    unfold iceCalculate readGrid
    cases hg : i.grid with
    | some g' =>
      dsimp only
      cases iceCalc i.cfg g' <;> (intro h; exact h2 g (by simpa [hg] using h))
    | none =>
      dsimp only
      cases hgp : (gridPoints i.cfg.selected.length i.cfg.perAxis : Py (List (List K))) with
      | error e => dsimp only; intro h; simp [hg] at h
      | ok g' =>
        dsimp only
        rw [h1] at hgp
        cases iceCalc i.cfg g' <;> (intro h; rw [hgp]; simpa using h)
  cases hd : calcNow i with
  | ok d =>
    obtain ⟨-, e2, e3⟩ := (iceCalculate_eq i).1 d hd
    exact ⟨by rw [e3, h1], hgrid, .inr ⟨d, by rw [← hc, hd], e2⟩⟩
  | error e =>
    obtain ⟨-, e2, e3⟩ := (iceCalculate_eq i).2 e hd
    refine ⟨by rw [e2, h1], hgrid, .inl (e3 ?_)⟩
    rcases h3 with h3 | ⟨d, h3, -⟩
    · exact h3
    · rw [← hc, hd] at h3; cases h3

theorem onlyRead_step {c : IceCfg K} {i : IceState K} (h : OnlyRead c i) {op : IceOp K} (hop : IsRead op) : OnlyRead c (iceStep i op) := by
  have hcal := onlyRead_calculate h
  cases op with
  | readX => simp only [iceStep, readX]; cases i.x <;> [exact hcal; exact h]
  | readY => simp only [iceStep, readY]; cases i.y <;> [exact hcal; exact h]
  | readV => simp only [iceStep, readV]; cases i.v <;> [exact hcal; exact h]
  | readGrid =>
    obtain ⟨h1, h2, h3⟩ := h
    simp only [iceStep, readGrid]
    cases hg : i.grid with
    | some g => exact ⟨h1, h2, h3⟩
    | none =>
      dsimp only
      cases hgp : (gridPoints i.cfg.selected.length i.cfg.perAxis : Py (List (List K))) with
      | error e => exact ⟨h1, h2, h3⟩
      | ok g =>
        refine ⟨h1, ?_, h3⟩
        intro g' hg'
        rw [h1] at hgp
        rw [hgp]; simpa using hg'
  | reset => exact ⟨h.1, h.2.1, .inl (fresh_reset i)⟩
  | setCentered b => exact hop.elim
  | setSamples a => exact hop.elim
  | setPerAxis g => exact hop.elim
  | refit f => exact hop.elim

theorem onlyRead_run {c : IceCfg K} {ops : List (IceOp K)} (hops : ∀ op ∈ ops, IsRead op) : OnlyRead c (iceRun (iceInit c) ops) := by
  have key : ∀ (ops : List (IceOp K)) (i : IceState K), OnlyRead c i → (∀ op ∈ ops, IsRead op) → OnlyRead c (iceRun i ops) := by
    intro ops
    induction ops with
    | nil => exact fun i h _ => h
    | cons op ops ih =>
      intro i h hops
      exact ih _ (onlyRead_step h (hops op (by simp))) fun o ho => hops o (by simp [ho])
  exact key ops _ ⟨rfl, by simp [iceInit], .inl (fresh_init c)⟩ hops

/-- the constructor called by `from_ICE` -/
theorem dtFromIce_eq {ice : IceState K} {numSplits minPoints : Nat} {ns : Option (Selection K)} {p : DT K}
    (h : dtFromIce ice numSplits minPoints ns = .ok p) :
    p.ice = ice ∧ ∃ c d, algorithmInit ice.cfg.space ice.cfg.predict (.many (ice.cfg.selected.map .hp)) ice.cfg.samples ice.cfg.perAxis = .ok c ∧
      calcNow (iceInit c) = .ok d ∧ p.root = ⟨0, d.x, d.y, d.v, []⟩ ∧ p.cfg = c := by
  unfold dtFromIce at h
  obtain ⟨q, hq, h⟩ := Py.bind_eq_ok.1 h
  obtain rfl := Except.ok.inj h
  obtain ⟨c, _, i, d, hc, -, hcalc, -, -, rfl⟩ := dtInit_ok hq
  exact ⟨rfl, c, d, hc, hcalc, rfl, rfl⟩

omit [Field K] in
theorem algorithmInit_self {c : IceCfg K} (h1 : c.numSamples = c.samples.length) (h2 : c.numGrid = c.perAxis ^ c.selected.length) :
    algorithmInit c.space c.predict (.many (c.selected.map .hp)) c.samples c.perAxis = .ok { c with centered := false } := by
  have := ownIce_eq (c := { c with centered := false }) h1 h2 rfl
  unfold ownIce at this
  cases h : algorithmInit c.space c.predict (.many (c.selected.map .hp)) c.samples c.perAxis with
  | error e => dsimp only at this; rw [h] at this; cases this
  | ok c' =>
    dsimp only at this
    rw [h] at this
    have := Except.ok.inj this
    exact congrArg Except.ok (congrArg IceState.cfg this)

/-- **C62** (ICE objects that are not centered, whose attributes were not changed) The root of `from_ICE(ice)` holds exactly the arrays
that reading `ice` gives, whatever was read or reset before, and the partitioner keeps that very object. Missing: centered ICE objects,
for which this is false, see `C62_centered_counterexample`. -/
theorem C62_from_ice_partial {c : IceCfg K} (h1 : c.numSamples = c.samples.length) (h2 : c.numGrid = c.perAxis ^ c.selected.length)
    (hcen : c.centered = false) {ops : List (IceOp K)} (hops : ∀ op ∈ ops, IsRead op) {numSplits minPoints : Nat} {ns : Option (Selection K)} {p : DT K}
    (h : dtFromIce (iceRun (iceInit c) ops) numSplits minPoints ns = .ok p) :
    p.ice = iceRun (iceInit c) ops ∧ (readX p.ice).2 = .ok p.root.x ∧ (readY p.ice).2 = .ok p.root.y ∧ (readV p.ice).2 = .ok p.root.v ∧
      p.root.depth = 0 ∧ p.root.conds = [] ∧ p.cfg = c := by
  have ho := onlyRead_run (c := c) hops
  obtain ⟨e1, c', d, hc', hcalc, hroot, hpc⟩ := dtFromIce_eq h
  rw [ho.1, algorithmInit_self h1 h2] at hc'
  have hcc : c' = c := by
    rw [← Except.ok.inj hc']
    obtain ⟨⟩ := c
    dsimp only at hcen
    subst hcen; rfl
  subst hcc
  have hg : Gives (iceRun (iceInit c') ops) d := by
    have hcn := onlyRead_calcNow ho
    rcases ho.2.2 with hf | ⟨d', hd', hs⟩
    · exact .inr ⟨hf, by rw [hcn, hcalc]⟩
    · rw [hcalc] at hd'
      obtain rfl := Except.ok.inj hd'
      exact .inl hs
  obtain ⟨⟨_, r1, _⟩, ⟨_, r2, _⟩, ⟨_, r3, _⟩⟩ := reads_of_gives hg
  rw [e1, r1, r2, r3, hroot]
  exact ⟨rfl, rfl, rfl, rfl, rfl, rfl, hpc⟩

/-- What does hold for a centered ICE object: x values and variances (so every loss and every split) are those of the ICE, and the y
values of the ICE are those of the root minus the first one of each curve. -/
theorem C62_centered_partial {c : IceCfg K} (h1 : c.numSamples = c.samples.length) (h2 : c.numGrid = c.perAxis ^ c.selected.length)
    (hcen : c.centered = true) {numSplits minPoints : Nat} {ns : Option (Selection K)} {p : DT K}
    (h : dtFromIce (iceInit c) numSplits minPoints ns = .ok p) {d : IceData K} (hd : calcNow (iceInit c) = .ok d) :
    p.root.x = d.x ∧ p.root.v = d.v ∧ d.y = p.root.y.map fun row => row.map fun v => v - row.getD 0 0 := by
  obtain ⟨e1, c', d', hc', hcalc, hroot, -⟩ := dtFromIce_eq h
  simp only [iceInit] at hc'
  rw [algorithmInit_self h1 h2] at hc'
  obtain rfl := Except.ok.inj hc'
  rw [hroot]
  dsimp only
  cases hg : (gridPoints c.selected.length c.perAxis : Py (List (List K))) with
  | error e => simp [calcNow, iceInit, hg] at hd
  | ok g =>
    rw [calcNow_init _ hg] at hd
    rw [calcNow_init _ (by exact hg)] at hcalc
    unfold iceCalc at hd hcalc
    dsimp only at hcalc
    obtain ⟨idx, q1, hd⟩ := Py.bind_eq_ok.1 hd
    obtain ⟨x0, q2, hd⟩ := Py.bind_eq_ok.1 hd
    obtain ⟨x, q3, hd⟩ := Py.bind_eq_ok.1 hd
    obtain ⟨⟨means, stds⟩, q4, hd⟩ := Py.bind_eq_ok.1 hd
    obtain ⟨y, q5, hd⟩ := Py.bind_eq_ok.1 hd
    obtain ⟨s, q6, hd⟩ := Py.bind_eq_ok.1 hd
    obtain ⟨y', q7, hd⟩ := Py.bind_eq_ok.1 hd
    rw [q1, Py.ok_bind, q2, Py.ok_bind, q3, Py.ok_bind, q4, Py.ok_bind] at hcalc
    dsimp only at hcalc
    rw [q5, Py.ok_bind, q6, Py.ok_bind] at hcalc
    simp only [maybeCenter, Bool.false_eq_true, if_false, Py.ok_bind] at hcalc
    split at hd
    · obtain rfl := Except.ok.inj hd
      split at hcalc
      · obtain rfl := Except.ok.inj hcalc
        refine ⟨rfl, rfl, ?_⟩
        simp only [maybeCenter, hcen, if_true, centerRows] at q7
        split at q7
        · cases q7
        · exact (Except.ok.inj q7).symm
      · cases hcalc
    · cases hd

theorem sub_head_eq_self {l : List (List K)} :
    (l.map fun row => row.map fun v => v - row.getD 0 0) = l ↔ ∀ row ∈ l, row.getD 0 0 = 0 := by
  induction l with
  | nil => simp
  | cons r l ih =>
    simp only [List.map_cons, List.cons.injEq, ih, List.mem_cons, forall_eq_or_imp]
    refine and_congr_left fun _ => ?_
    cases r with
    | nil => simp
    | cons a r =>
      constructor
      · intro h
        have := (List.cons.inj h).1
        simpa using this.symm
      · intro h
        have ha : a = 0 := by simpa using h
        simp [ha]

/-- **C62** for a centered ICE object the statement holds exactly if all curves start at 0 anyway. -/
theorem C62_centered_iff {c : IceCfg K} (h1 : c.numSamples = c.samples.length) (h2 : c.numGrid = c.perAxis ^ c.selected.length)
    (hcen : c.centered = true) {numSplits minPoints : Nat} {ns : Option (Selection K)} {p : DT K}
    (h : dtFromIce (iceInit c) numSplits minPoints ns = .ok p) {d : IceData K} (hd : calcNow (iceInit c) = .ok d) :
    p.root.y = d.y ↔ ∀ row ∈ p.root.y, row.getD 0 0 = 0 := by
  rw [(C62_centered_partial h1 h2 hcen h hd).2.2, eq_comm]
  exact sub_head_eq_self

/-- **C62**, what actually holds, for ICE objects with any history - other samples, another grid size, another surrogate, reads before
or after: the root holds the curves of an uncentered ICE built anew from the attributes the object has now, and the partitioner keeps
the given object (what reading that one gives: `C80_exact`). -/
theorem C62_exact (c : IceCfg K) (ops : List (IceOp K)) {numSplits minPoints : Nat} {ns : Option (Selection K)} {p : DT K}
    (h : dtFromIce (iceRun (iceInit c) ops) numSplits minPoints ns = .ok p) :
    p.ice = iceRun (iceInit c) ops ∧ p.root.depth = 0 ∧ p.root.conds = [] ∧
    p.cfg = { attributes c ops with numSamples := (attributes c ops).samples.length
                                    numGrid := (attributes c ops).perAxis ^ c.selected.length, centered := false } ∧
    calcAfter p.cfg [] = .ok ⟨p.root.x, p.root.y, p.root.v⟩ := by
  obtain ⟨e1, c', d, hc', hcalc, hroot, hpc⟩ := dtFromIce_eq h
  rw [(after_run c ops).cfg] at hc'
  have hself := algorithmInit_self (c := { attributes c ops with numSamples := (attributes c ops).samples.length
                                                                 numGrid := (attributes c ops).perAxis ^ c.selected.length })
    rfl (by simp only [attributes_selected])
  have hcc := Except.ok.inj (hc'.symm.trans hself)
  refine ⟨e1, by rw [hroot], by rw [hroot], by rw [hpc, hcc], ?_⟩
  rw [hpc, hroot, ← (after_run c' []).calcNow]
  exact hcalc

end fromIce

/-- The full statement is false: the root of a partitioner made from a centered ICE object holds the curves that are not centered (the
ICE object is put into place after the root has been built from another one). -/
theorem C62_centered_counterexample :
    ∃ p, dtFromIce (iceInit (exIce true)) 3 1 none = .ok p ∧ p.ice.cfg.centered = true ∧ p.root.y = [[1/4, 9/4], [1/2, 5/2]] ∧
      (readY p.ice).2 = .ok [[0, 2], [0, 2]] := by
  have h1 : (dtFromIce (iceInit (exIce true)) 3 1 none).map (fun p => p.ice.cfg.centered) = .ok true := by decide +kernel
  have h2 : (dtFromIce (iceInit (exIce true)) 3 1 none).map (fun p => p.root.y) = .ok [[1/4, 9/4], [1/2, 5/2]] := by decide +kernel
  have h3 : (dtFromIce (iceInit (exIce true)) 3 1 none).map (fun p => (readY p.ice).2) = .ok (.ok [[0, 2], [0, 2]]) := by decide +kernel
  cases hp : dtFromIce (iceInit (exIce true)) 3 1 none with
  | error e => rw [hp] at h1; cases h1
  | ok p =>
    rw [hp] at h1 h2 h3
    exact ⟨p, rfl, Except.ok.inj h1, Except.ok.inj h2, Except.ok.inj h3⟩

/-- the hypotheses of `C62_from_ice_partial` hold for an ICE object that was read and reset -/
example : (dtFromIce (iceRun (iceInit (exIce false)) [.readY, .reset, .readX]) 3 1 none).map (fun p => p.root.y) =
    .ok [[1/4, 9/4], [1/2, 5/2]] := by decide +kernel

/-- with other samples after the first read, the ICE object still has its old curves and the root has the new ones -/
example : (dtFromIce (iceRun (iceInit (exIce false)) [.readY, .setSamples [[3/4, 0]]]) 3 1 none).map (fun p => (p.root.y, (readY p.ice).2)) =
    .ok ([[3/4, 11/4]], .ok [[1/4, 9/4], [1/2, 5/2]]) := by decide +kernel

/-! ### C65 -/

section pdp
variable [Field K]

theorem pdpCurve_eq {s : PdpState K} (hs : PdpFresh s) {i : IceState K} (hi : pdpIce s = .ok i) {d : IceData K} (hd : Gives i d)
    {x : List (List K)} {y v : List K} (hx : meanAxis0 d.x = .ok x) (hy : meanRows d.y = .ok y) (hv : meanRows d.v = .ok v) :
    (pdpCurve s).2 = .ok ⟨s.cfg.space, s.cfg.selected, x, y, v⟩ := by
  have hX : pdpReadX s = pdpReadX { s with ice := some i } := by
    unfold pdpReadX pdpCached
    dsimp only
    rw [hs.1, hi]
    rfl
  have hb : BelongTo { s with ice := some i } d := ⟨⟨i, rfl, hd⟩, by simp [hs.1], by simp [hs.2.1], by simp [hs.2.2]⟩
  obtain ⟨⟨a1, a2⟩, -, -⟩ := belongTo_reads hb
  rw [← hX] at a1 a2
  obtain ⟨-, ⟨b1, b2⟩, -⟩ := belongTo_reads a2
  obtain ⟨-, -, ⟨c1, -⟩⟩ := belongTo_reads b2
  unfold pdpCurve
  rcases h1 : pdpReadX s with ⟨s1, r1⟩
  rw [h1] at a1 b1 b2 c1
  dsimp only at a1 b1 b2 c1 ⊢
  rw [a1, hx]
  dsimp only
  rcases h2 : pdpReadY s1 with ⟨s2, r2⟩
  rw [h2] at b1 c1
  dsimp only at b1 c1 ⊢
  rw [b1, hy]
  dsimp only
  rcases h3 : pdpReadV s2 with ⟨s3, r3⟩
  rw [h3] at c1
  dsimp only at c1 ⊢
  rw [c1, hv]

end pdp

section average
variable [Field K] [LinearOrder K] [IsStrictOrderedRing K]

omit [LinearOrder K] [IsStrictOrderedRing K] in
theorem column_sum {y : List (List K)} {p : Nat} {col : List K} (h : IsColumn y p col) : col.sum = (y.map fun r => r.getD p 0).sum ∨ ∃ r ∈ y, r.length ≤ p := by
  by_cases hall : ∃ r ∈ y, r.length ≤ p
  · exact .inr hall
  · left
    push Not at hall
    congr 1
    refine List.ext_getElem? fun s => ?_
    by_cases hs : s < y.length
    · rw [h.2 s hs, at2, List.getElem?_map, List.getElem?_eq_getElem hs]
      have := hall _ (List.getElem_mem hs)
      simp [this]
    · rw [List.getElem?_eq_none (by rw [h.1]; omega), List.getElem?_eq_none (by simpa using hs)]

/-- a region that is not empty has a PDP; times the number of curves it is the sum of the curves, in every part -/
theorem regionPdp_sum {P : Nat} (space : ConfigSpace K) (selected : List (Hp K)) {F : Nat} {n : Node K} (hn : RegionShape P F n) (hne : curves n ≠ []) :
    ∃ c, regionPdp space selected n = .ok c ∧ c.space = space ∧ c.selected = selected ∧
      IsAverage3 P F n.x c.x ∧ IsAverage P n.y c.y ∧ IsAverage P n.v c.v ∧
      ∀ p < P,
        ((curves n).length : K) * c.y.getD p 0 = ((curves n).map fun cv => cv.2.1.getD p 0).sum ∧
        ((curves n).length : K) * c.v.getD p 0 = ((curves n).map fun cv => cv.2.2.getD p 0).sum ∧
        ∀ f < F, ((curves n).length : K) * entry c.x p f = ((curves n).map fun cv => entry cv.1 p f).sum := by
  have hl := hn.curves_length
  have hxl : n.x.length ≠ 0 := by rw [← hl]; exact fun h => hne (List.length_eq_zero_iff.1 h)
  have hx3 : Shape3 n.x.length P F n.x := ⟨rfl, fun m hm => ⟨(hn.xs m hm).1, (hn.xs m hm).2⟩⟩
  obtain ⟨x, hx, ax⟩ := meanAxis0_spec hxl hx3
  obtain ⟨y, hy, ay⟩ := meanRows_spec (n := n.x.length) hxl (y := n.y) ⟨hn.xy.symm, hn.ys⟩
  obtain ⟨v, hv, av⟩ := meanRows_spec (n := n.x.length) hxl (y := n.v) ⟨by rw [hn.xy, hn.yv], hn.vs⟩
  refine ⟨⟨space, selected, x, y, v⟩, by simp [regionPdp, hx, hy, hv], rfl, rfl, ax, ay, av, fun p hp => ⟨?_, ?_, fun f hf => ?_⟩⟩
  · obtain ⟨col, hc, ho⟩ := ay.2 p hp
    have hs := (column_sum hc).resolve_right (by rintro ⟨r, hr, hle⟩; rw [hn.ys r hr] at hle; omega)
    have : y.getD p 0 = col.sum / (n.y.length : K) := by rw [List.getD_eq_getElem?_getD, ho]; rfl
    dsimp only
    rw [this, hs, ← hn.xy, hl, mul_div_cancel₀ _ (by exact_mod_cast hxl), ← hn.map_y, List.map_map]; rfl
  · obtain ⟨col, hc, ho⟩ := av.2 p hp
    have hs := (column_sum hc).resolve_right (by rintro ⟨r, hr, hle⟩; rw [hn.vs r hr] at hle; omega)
    have : v.getD p 0 = col.sum / (n.v.length : K) := by rw [List.getD_eq_getElem?_getD, ho]; rfl
    dsimp only
    rw [this, hs, ← hn.yv, ← hn.xy, hl, mul_div_cancel₀ _ (by exact_mod_cast hxl), ← hn.map_v, List.map_map]; rfl
  · obtain ⟨col, hc1, hc2, ho⟩ := ax.2 p hp f hf
    have hcol : col = n.x.map fun m => entry m p f := by
      refine List.ext_getElem? fun s => ?_
      by_cases hs : s < n.x.length
      · obtain ⟨m1, m2⟩ := hn.xs _ (List.getElem_mem hs)
        have m3 := m2 _ (List.getElem_mem (show p < (n.x[s]).length by omega))
        rw [hc2 s hs, at3, List.getElem?_map, List.getElem?_eq_getElem hs, Option.bind_some,
          List.getElem?_eq_getElem (by omega), Option.bind_some, List.getElem?_eq_getElem (by omega), Option.map_some, entry,
          getD_lt (l := n.x[s]) (by omega), getD_lt (by omega)]
      · rw [List.getElem?_eq_none (by omega), List.getElem?_eq_none (by simpa using hs)]
    have : entry x p f = col.sum / (n.x.length : K) := by
      rw [at2, Option.bind_eq_some_iff] at ho
      obtain ⟨row, r1, r2⟩ := ho
      simp [entry, List.getD_eq_getElem?_getD, r1, r2]
    dsimp only
    rw [this, hcol, hl, mul_div_cancel₀ _ (by exact_mod_cast hxl)]
    conv_lhs => rw [← hn.map_x, List.map_map]
    rfl

/-- **C65** `pdp_as_ice_curve` of the root of a new partitioner is the PDP that the class `PDP` computes from the same arguments. -/
theorem C65_root_is_pdp {space : ConfigSpace K} (hwf : space.WF) {predict : Predict K} {sel : Selection K}
    {samples : List (List K)} (hrows : ∀ r ∈ samples, r.length = space.length) (hs : samples ≠ []) {perAxis numSplits minPoints : Nat}
    (hg : 1 ≤ perAxis) {notSplittable : Option (Selection K)} {p : DT K}
    (h : dtInit space predict sel samples perAxis numSplits minPoints notSplittable = .ok p)
    (hmem : ∀ hp ∈ p.cfg.selected, hp ∈ space) (hd : (p.cfg.selected.map Hp.name).Nodup) (hne : p.cfg.selected ≠ []) :
    ∃ s curve, pdpInit space predict sel samples perAxis = .ok s ∧ (pdpCurve s).2 = .ok curve ∧
      regionPdp p.cfg.space p.cfg.selected p.root = .ok curve := by
  obtain ⟨hv, -, hlen, -⟩ := dt_valid hwf hrows hg h hmem hd hne
  have hcne : curves p.root ≠ [] := by
    intro h0; rw [h0] at hlen; exact hs (List.length_eq_zero_iff.1 hlen.symm)
  obtain ⟨c, hc, -⟩ := regionPdp_sum p.cfg.space p.cfg.selected hv.shape hcne
  obtain ⟨cf, ns, i, d, hcf, -, hcalc, -, -, rfl⟩ := dtInit_ok h
  dsimp only at *
  obtain ⟨-, -, e3, e4, -, e6, e7, e8⟩ := algorithmInit_eq hcf
  have hice : pdpIce ⟨cf, none, none, none, none⟩ = .ok (iceInit cf) := ownIce_eq (by rw [e6, e3]) (by rw [e7, e4]) e8
  have hc0 := hc
  unfold regionPdp at hc
  obtain ⟨x, hx, hc⟩ := Py.bind_eq_ok.1 hc
  obtain ⟨y, hy, hc⟩ := Py.bind_eq_ok.1 hc
  obtain ⟨v, hvv, hc⟩ := Py.bind_eq_ok.1 hc
  obtain rfl := Except.ok.inj hc
  refine ⟨⟨cf, none, none, none, none⟩, _, by simp [pdpInit, hcf], ?_, hc0⟩
  exact pdpCurve_eq ⟨rfl, rfl, rfl⟩ hice (.inr ⟨fresh_init cf, hcalc⟩) hx hy hvv

variable [Transc K]

omit [LinearOrder K] [IsStrictOrderedRing K] [Transc K] in
/-- the sum over all leaves of a sum over curves is the sum over the curves of the root -/
theorem leaves_sum {L : List (Node K)} {n : Node K} (h : (L.flatMap curves).Perm (curves n)) (φ : Curve K → K) :
    ((L.filter fun m => decide (curves m ≠ [])).map fun m => ((curves m).map φ).sum).sum = ((curves n).map φ).sum := by
  rw [← (h.map φ).sum_eq]
  clear h
  induction L with
  | nil => rfl
  | cons m L ih =>
    rw [List.flatMap_cons, List.map_append, List.sum_append, ← ih]
    by_cases hm : curves m = []
    · simp [hm]
    · simp [hm]

/-- **C65** the PDP of the root is the average of the PDPs of the leaves, weighted with their numbers of curves (a leaf without curves,
possible for `min_points_per_node = 0` only, has no PDP and no weight). -/
theorem C65_weighted_average {P : Nat} {p : DT K} (hv : ValidDT P p) (hne : curves p.root ≠ []) {d : Int} (hd : 0 < d) :
    ∃ leaves rootPdp, (dtPartition p d).2 = .ok leaves ∧ regionPdp p.cfg.space p.cfg.selected p.root = .ok rootPdp ∧
      ∃ pdp : Node K → IceCurve K, (∀ m ∈ leaves, curves m ≠ [] → regionPdp p.cfg.space p.cfg.selected m = .ok (pdp m)) ∧
        ∀ q < P,
          (((leaves.filter fun m => decide (curves m ≠ [])).map fun m => ((curves m).length : K) * (pdp m).y.getD q 0).sum =
            ((curves p.root).length : K) * rootPdp.y.getD q 0) ∧
          (((leaves.filter fun m => decide (curves m ≠ [])).map fun m => ((curves m).length : K) * (pdp m).v.getD q 0).sum =
            ((curves p.root).length : K) * rootPdp.v.getD q 0) ∧
          ∀ f < p.cfg.space.length,
            (((leaves.filter fun m => decide (curves m ≠ [])).map fun m => ((curves m).length : K) * entry (pdp m).x q f).sum =
              ((curves p.root).length : K) * entry rootPdp.x q f) := by
  obtain ⟨L, h1, -, hperm, hsh⟩ := C50_leaves_partition hv hd
  obtain ⟨c, hc, -, -, -, -, -, hsum⟩ := regionPdp_sum p.cfg.space p.cfg.selected hv.shape hne
  classical
  have hex : ∀ m, ∃ c, (m ∈ L ∧ curves m ≠ []) → regionPdp p.cfg.space p.cfg.selected m = .ok c ∧
      ∀ q < P,
        ((curves m).length : K) * c.y.getD q 0 = ((curves m).map fun cv => cv.2.1.getD q 0).sum ∧
        ((curves m).length : K) * c.v.getD q 0 = ((curves m).map fun cv => cv.2.2.getD q 0).sum ∧
        ∀ f < p.cfg.space.length, ((curves m).length : K) * entry c.x q f = ((curves m).map fun cv => entry cv.1 q f).sum := by
    intro m
    by_cases hm : m ∈ L ∧ curves m ≠ []
    · obtain ⟨c, hc, -, -, -, -, -, h⟩ := regionPdp_sum p.cfg.space p.cfg.selected (hsh m hm.1).1 hm.2
      exact ⟨c, fun _ => ⟨hc, h⟩⟩
    · exact ⟨c, fun h => absurd h hm⟩
  choose pdp hpdp using hex
  have hmem : ∀ m ∈ L.filter fun m => decide (curves m ≠ []), m ∈ L ∧ curves m ≠ [] := by
    intro m hm
    simpa using List.mem_filter.1 hm
  refine ⟨L, c, h1, hc, pdp, fun m hm hn => (hpdp m ⟨hm, hn⟩).1, fun q hq => ⟨?_, ?_, fun f hf => ?_⟩⟩
  · rw [(hsum q hq).1, ← leaves_sum hperm]
    exact congrArg List.sum (List.map_congr_left fun m hm => ((hpdp m (hmem m hm)).2 q hq).1)
  · rw [(hsum q hq).2.1, ← leaves_sum hperm]
    exact congrArg List.sum (List.map_congr_left fun m hm => ((hpdp m (hmem m hm)).2 q hq).2.1)
  · rw [(hsum q hq).2.2 f hf, ← leaves_sum hperm]
    exact congrArg List.sum (List.map_congr_left fun m hm => ((hpdp m (hmem m hm)).2 q hq).2.2 f hf)

end average

section concrete
local instance : Transc ℚ := ⟨id, id⟩

/-- the root PDP of `exDt` and the two leaf PDPs: (2 · 17/20 + 2 · 3/20) / 4 = 1/2 -/
example : (exDt.bind fun p => regionPdp p.cfg.space p.cfg.selected p.root).map (fun c => c.y) = .ok [1/2, 5/2] := by decide +kernel
example : (exDt.bind fun p => (dtPartition p 1).2.bind fun L => L.mapM fun m => (regionPdp p.cfg.space p.cfg.selected m).map fun c => c.y) =
    .ok [[17/20, 57/20], [3/20, 43/20]] := by decide +kernel

end concrete

end PyPDP
