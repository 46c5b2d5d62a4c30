/-
C44, C47, C48, C80: the ICE object over its life, single curves, random samples.
-/
import Verif.Props.Ice
import Verif.Props.Unscale
import Verif.Props.Scaling

namespace PyPDP
open Spec
variable {K : Type}

/-! ### C44 -/

section history
variable [Field K]

omit [Field K] in
theorem fresh_init (c : IceCfg K) : Fresh (iceInit c) := ⟨rfl, rfl, rfl⟩
omit [Field K] in
theorem fresh_reset (s : IceState K) : Fresh (iceReset s) := ⟨rfl, rfl, rfl⟩

theorem iceCalculate_eq (s : IceState K) :
    (∀ d, calcNow s = .ok d → (iceCalculate s).2 = .ok d ∧ Stored (iceCalculate s).1 d ∧ (iceCalculate s).1.cfg = s.cfg) ∧
    (∀ e, calcNow s = .error e → (iceCalculate s).2 = .error e ∧ (iceCalculate s).1.cfg = s.cfg ∧
      (Fresh s → Fresh (iceCalculate s).1)) := by
  unfold calcNow iceCalculate readGrid
  cases hg : s.grid with
  | some g =>
    simp only [Py.ok_bind]
    cases hd : iceCalc s.cfg g with
    | error e => exact ⟨by simp, fun e' he => ⟨by simpa using he, rfl, id⟩⟩
    | ok d => exact ⟨fun d' hd' => by cases hd'; exact ⟨rfl, ⟨rfl, rfl, rfl⟩, rfl⟩, by simp⟩
  | none =>
    dsimp only
    cases hgp : (gridPoints s.cfg.selected.length s.cfg.perAxis : Py (List (List K))) with
    | error e =>
      simp only [Py.error_bind]
      exact ⟨by simp, fun e' he => ⟨by simpa using he, by simp, fun h => by simpa using h⟩⟩
    | ok g =>
      simp only [Py.ok_bind]
      cases hd : iceCalc s.cfg g with
      | error e =>
        refine ⟨by simp, fun e' he => ?_⟩
        exact ⟨by simpa using he, by simp, fun h => by simpa [Fresh] using h⟩
      | ok d =>
        refine ⟨fun d' hd' => ?_, by simp⟩
        cases hd'
        simp [Stored]

theorem reads_of_stored {s : IceState K} {d : IceData K} (h : Stored s d) :
    readX s = (s, .ok d.x) ∧ readY s = (s, .ok d.y) ∧ readV s = (s, .ok d.v) := by
  simp [readX, readY, readV, h.1, h.2.1, h.2.2]

theorem reads_of_fresh {s : IceState K} (h : Fresh s) :
    readX s = ((iceCalculate s).1, (iceCalculate s).2.map IceData.x) ∧
    readY s = ((iceCalculate s).1, (iceCalculate s).2.map IceData.y) ∧
    readV s = ((iceCalculate s).1, (iceCalculate s).2.map IceData.v) := by
  simp [readX, readY, readV, h.1, h.2.1, h.2.2]

theorem stored_step {s : IceState K} {d : IceData K} (h : Stored s d) {op : IceOp K} (hop : ¬ IsReset op) : Stored (iceStep s op) d := by
  obtain ⟨h1, h2, h3⟩ := reads_of_stored h
  cases op with
  | readX => simpa [iceStep, h1] using h
  | readY => simpa [iceStep, h2] using h
  | readV => simpa [iceStep, h3] using h
  | readGrid =>
    simp only [iceStep, readGrid]
    split
    · exact h
    · split <;> exact h
  | reset => exact absurd trivial hop
  | setCentered b => exact h
  | setSamples a => exact h
  | setPerAxis g => exact h
  | refit p => exact h

theorem stored_run {s : IceState K} {d : IceData K} (h : Stored s d) {ops : List (IceOp K)} (hops : ∀ op ∈ ops, ¬ IsReset op) :
    Stored (iceRun s ops) d := by
  induction ops generalizing s with
  | nil => exact h
  | cons op ops ih => exact ih (stored_step h (hops op (by simp))) fun o ho => hops o (by simp [ho])

theorem fresh_step {s : IceState K} (h : Fresh s) {op : IceOp K} (hop : ¬ IsDataRead op) : Fresh (iceStep s op) := by
  cases op with
  | readX => exact absurd trivial hop
  | readY => exact absurd trivial hop
  | readV => exact absurd trivial hop
  | readGrid =>
    simp only [iceStep, readGrid]
    split
    · exact h
    · split <;> exact h
  | reset => exact fresh_reset s
  | setCentered b => exact h
  | setSamples a => exact h
  | setPerAxis g => exact h
  | refit p => exact h

theorem fresh_run {s : IceState K} (h : Fresh s) {ops : List (IceOp K)} (hops : ∀ op ∈ ops, ¬ IsDataRead op) :
    Fresh (iceRun s ops) := by
  induction ops generalizing s with
  | nil => exact h
  | cons op ops ih => exact ih (fresh_step h (hops op (by simp))) fun o ho => hops o (by simp [ho])

/-- **C44** After creation or a reset, let anything but reads of the arrays happen (`mid`), then one of the arrays be read; from
that read until the next reset - whatever else happens, in particular changes of `centered`, refits and further reads - every read
returns the arrays of the one calculation made with the attributes in force at that first read. -/
theorem C44_one_calculation {s : IceState K} (hs : Fresh s) {mid : List (IceOp K)} (hmid : ∀ op ∈ mid, ¬ IsDataRead op)
    {first : IceOp K} (hfirst : IsDataRead first) {d : IceData K} (hd : calcNow (iceRun s mid) = .ok d)
    {post : List (IceOp K)} (hpost : ∀ op ∈ post, ¬ IsReset op) :
    (readX (iceRun s (mid ++ first :: post))).2 = .ok d.x ∧ (readY (iceRun s (mid ++ first :: post))).2 = .ok d.y ∧
    (readV (iceRun s (mid ++ first :: post))).2 = .ok d.v := by
  have hf := fresh_run hs hmid
  have hst : Stored (iceStep (iceRun s mid) first) d := by
    obtain ⟨r1, r2, r3⟩ := reads_of_fresh hf
    have hc := ((iceCalculate_eq (iceRun s mid)).1 d hd).2.1
    cases first with
    | readX => simpa [iceStep, r1] using hc
    | readY => simpa [iceStep, r2] using hc
    | readV => simpa [iceStep, r3] using hc
    | _ => exact absurd hfirst (by simp [IsDataRead])
  have : iceRun s (mid ++ first :: post) = iceRun (iceStep (iceRun s mid) first) post := by
    simp [iceRun, List.foldl_append]
  rw [this]
  obtain ⟨r1, r2, r3⟩ := reads_of_stored (stored_run hst hpost)
  rw [r1, r2, r3]
  exact ⟨rfl, rfl, rfl⟩

/-- **C44** that first read itself returns the same arrays; if the calculation raises, every read raises and nothing is stored. -/
theorem C44_first_read {s : IceState K} (hs : Fresh s) :
    (∀ d, calcNow s = .ok d → (readX s).2 = .ok d.x ∧ (readY s).2 = .ok d.y ∧ (readV s).2 = .ok d.v) ∧
    (∀ e, calcNow s = .error e → (readX s).2 = .error e ∧ (readY s).2 = .error e ∧ (readV s).2 = .error e ∧
      Fresh (readX s).1 ∧ Fresh (readY s).1 ∧ Fresh (readV s).1) := by
  obtain ⟨r1, r2, r3⟩ := reads_of_fresh hs
  obtain ⟨h1, h2⟩ := iceCalculate_eq s
  constructor
  · intro d hd
    obtain ⟨h, _⟩ := h1 d hd
    rw [r1, r2, r3]
    simp [h]
  · intro e he
    obtain ⟨h, _, hf⟩ := h2 e he
    rw [r1, r2, r3]
    simp [h, hf hs]

/-- **C44** reading never changes the attributes (in particular not the samples). -/
theorem C44_read_keeps_attributes (s : IceState K) (hs : Fresh s ∨ ∃ d, Stored s d) :
    (readX s).1.cfg = s.cfg ∧ (readY s).1.cfg = s.cfg ∧ (readV s).1.cfg = s.cfg := by
  rcases hs with hs | ⟨d, hs⟩
  · obtain ⟨r1, r2, r3⟩ := reads_of_fresh hs
    rw [r1, r2, r3]
    obtain ⟨h1, h2⟩ := iceCalculate_eq s
    have : (iceCalculate s).1.cfg = s.cfg := by
      cases h : calcNow s with
      | ok d => exact (h1 d h).2.2
      | error e => exact (h2 e h).2.1
    exact ⟨this, this, this⟩
  · obtain ⟨r1, r2, r3⟩ := reads_of_stored hs
    rw [r1, r2, r3]
    exact ⟨rfl, rfl, rfl⟩

/-- for an object as constructed (and until its grid size is changed), the calculation is the one on the full grid -/
theorem calcNow_init (c : IceCfg K) {g : List (List K)} (hg : gridPoints c.selected.length c.perAxis = .ok g) :
    calcNow (iceInit c) = iceCalc c g := by
  simp [calcNow, iceInit, hg]

/-- `centered` switched on after the first read has no effect before a reset -/
example (c : IceCfg K) {d d' : IceData K} {g : List (List K)} (hg : gridPoints c.selected.length c.perAxis = .ok g)
    (h : iceCalc c g = .ok d) (h' : iceCalc { c with centered := true } g = .ok d') :
    (readY (iceRun (iceInit c) [.readX, .setCentered true])).2 = .ok d.y ∧
    (readY (iceRun (iceInit c) [.readX, .setCentered true, .reset])).2 = .ok d'.y := by
  have h1 : calcNow (iceInit c) = .ok d := by rw [calcNow_init c hg, h]
  constructor
  · exact (C44_one_calculation (mid := []) (first := .readX) (post := [.setCentered true]) (fresh_init c) (by simp) trivial h1
      (by simp [IsReset])).2.1
  · have hfresh : Fresh (iceRun (iceInit c) [.readX, .setCentered true, .reset]) := fresh_reset _
    refine ((C44_first_read hfresh).1 d' ?_).2.1
    simp only [iceRun, List.foldl_cons, List.foldl_nil, iceStep, iceReset, readX, iceInit, iceCalculate, readGrid, hg, h, calcNow]
    exact h'

/-! ### C80 -/

/-- **C80** is false when the number of samples changes: the stored `num_samples` is not updated, every read after the reset
raises. -/
theorem C80_samples_counterexample {c : IceCfg K} (hc : ValidCfg c) {a : List (List K)} (ha : ∀ r ∈ a, r.length = c.space.length)
    (hlen : a.length ≠ c.samples.length) (hP : c.numGrid ≠ 0) {g : List (List K)}
    (hg : gridPoints c.selected.length c.perAxis = .ok g) :
    (readX (iceRun (iceInit c) [.setSamples a, .reset])).2 = .error .value ∧
    (readY (iceRun (iceInit c) [.setSamples a, .reset])).2 = .error .value := by
  have hF : c.space.length ≠ 0 := by
    intro h0
    obtain ⟨hp, rest, hs⟩ := List.exists_cons_of_ne_nil hc.sel_ne
    have := hc.sel_mem hp (by simp [hs])
    rw [List.length_eq_zero_iff.1 h0] at this
    simp at this
  have hfresh : Fresh (iceRun (iceInit c) [.setSamples a, .reset]) := fresh_reset _
  have hcalc : calcNow (iceRun (iceInit c) [.setSamples a, .reset]) = .error .value := by
    obtain ⟨idx, hidx, _⟩ := hc.idx
    have hre : reshape3 c.numSamples c.space.length c.numGrid (repeatFlat c.numGrid a.flatten) = .error .value := by
      rw [reshape3, if_neg]
      rw [repeatFlat_length, flatten_length_of ha, hc.num_samples]
      intro h
      exact hlen (Nat.eq_of_mul_eq_mul_right (Nat.pos_of_ne_zero hF) (Nat.eq_of_mul_eq_mul_right (Nat.pos_of_ne_zero hP) h))
    simp only [iceRun, List.foldl_cons, List.foldl_nil, iceStep, iceReset, iceInit, calcNow, hg, Py.ok_bind, iceCalc, hidx, hre]
    rfl
  obtain ⟨_, h2⟩ := C44_first_read hfresh
  exact ⟨(h2 _ hcalc).1, (h2 _ hcalc).2.1⟩

/-- **C80** is false for the grid size: after a read, changing it has no effect even after a reset. -/
theorem C80_grid_counterexample {c : IceCfg K} {g : List (List K)} (hg : gridPoints c.selected.length c.perAxis = .ok g)
    {d : IceData K} (hd : iceCalc c g = .ok d) (g' : Nat) :
    (readX (iceRun (iceInit c) [.readX, .setPerAxis g', .reset])).2 = .ok d.x := by
  have hfresh : Fresh (iceRun (iceInit c) [.readX, .setPerAxis g', .reset]) := fresh_reset _
  refine ((C44_first_read hfresh).1 d ?_).1
  simp only [iceRun, List.foldl_cons, List.foldl_nil, iceStep, iceReset, readX, iceInit, iceCalculate, readGrid, hg, hd, calcNow]
  exact hd

/-- **C80**, partial: after replacing the samples by equally many others, or changing `centered`, and a reset, reads give what a
newly built object with these attributes gives - in any state of the object whose grid points are the original ones. Missing
(false): a different number of samples, a different grid size. -/
theorem C80_reset_partial {s : IceState K} {c : IceCfg K} (hcfg : s.cfg = c) {g : List (List K)}
    (hg : gridPoints c.selected.length c.perAxis = .ok g) (hgrid : s.grid = none ∨ s.grid = some g)
    {a : List (List K)} (hlen : a.length = c.numSamples) (b : Bool) {c' : IceCfg K} {sel : Selection K}
    (hc' : algorithmInit c.space c.predict sel a c.perAxis = .ok c') (hsel : c'.selected = c.selected)
    (hnum : c.numGrid = c.perAxis ^ c.selected.length) {d : IceData K}
    (hd : calcNow (iceInit { c' with centered := b }) = .ok d) :
    (readX (iceRun s [.setSamples a, .setCentered b, .reset])).2 = .ok d.x ∧
    (readY (iceRun s [.setSamples a, .setCentered b, .reset])).2 = .ok d.y ∧
    (readV (iceRun s [.setSamples a, .setCentered b, .reset])).2 = .ok d.v := by
  have hfresh : Fresh (iceRun s [.setSamples a, .setCentered b, .reset]) := fresh_reset _
  refine (C44_first_read hfresh).1 d ?_
  obtain ⟨sl, hsl, hc'⟩ := Py.bind_eq_ok.1 hc'
  obtain rfl := Except.ok.inj hc'
  have hcc : ({ s.cfg with samples := a, centered := b } : IceCfg K) =
      ⟨c.space, sl, a, a.length, c.perAxis, c.perAxis ^ sl.length, b, c.predict⟩ := by
    simp only at hsel
    rw [hcfg, hlen, hsel, ← hnum]
  have hd2 : iceCalc ⟨c.space, sl, a, a.length, c.perAxis, c.perAxis ^ sl.length, b, c.predict⟩ g = .ok d := by
    simp only at hsel
    rw [calcNow_init _ (g := g) (by simp only [hsel]; exact hg)] at hd
    exact hd
  rw [← hcc] at hd2
  rcases hgrid with h | h
  · simp only [iceRun, List.foldl_cons, List.foldl_nil, iceStep, iceReset, calcNow, h]
    rw [hcfg, hg, Py.ok_bind, ← hcfg]
    exact hd2
  · simp only [iceRun, List.foldl_cons, List.foldl_nil, iceStep, iceReset, calcNow, h]
    exact hd2

end history

/-! ### C47 -/

theorem npIndex_nat {α : Type} (a : List α) (k : Nat) : npIndex a (k : Int) = pyGet a k := by
  unfold npIndex
  simp only [show ¬ ((k : Int) < 0) by omega, if_false, Int.toNat_natCast]

theorem npIndex_neg {α : Type} (a : List α) {k : Nat} (hk : 1 ≤ k) (hle : k ≤ a.length) :
    npIndex a (-(k : Int)) = pyGet a (a.length - k) := by
  unfold npIndex
  simp only [show (-(k : Int) < 0) by omega, if_true, show ¬ (-(k : Int) + a.length < 0) by omega, if_false]
  rw [show (-(k : Int) + a.length).toNat = a.length - k by omega]

theorem npIndex_out {α : Type} (a : List α) {i : Int} (h : ¬ (-(a.length : Int) ≤ i ∧ i < a.length)) :
    npIndex a i = .error .index := by
  unfold npIndex
  by_cases hi : i < 0
  · simp only [hi, if_true, show i + a.length < 0 by omega]
  · simp only [hi, if_false]
    unfold pyGet
    rw [List.getElem?_eq_none (by omega)]

theorem pyGet_lt {α : Type} {a : List α} {k : Nat} (h : k < a.length) : pyGet a k = .ok a[k] := by
  unfold pyGet
  rw [List.getElem?_eq_getElem h]

/-- **C47** `ice[i]` for an index in range: row `i` of the three arrays (a negative index counts from the end). -/
theorem C47_curve [Field K] {s : IceState K} {d : IceData K} (hs : Stored s d ∨ (Fresh s ∧ calcNow s = .ok d)) {n : Nat}
    (hx : d.x.length = n) (hy : d.y.length = n) (hv : d.v.length = n) (i : Int) :
    (∀ k : Nat, k < n → (i = k ∨ i = (k : Int) - n) → ∃ x y v, d.x[k]? = some x ∧ d.y[k]? = some y ∧ d.v[k]? = some v ∧
      (iceGet s i).2 = .ok ⟨s.cfg.space, s.cfg.selected, x, y, v⟩) ∧
    (¬ (-(n : Int) ≤ i ∧ i < n) → (iceGet s i).2 = .error .index) := by
  obtain ⟨s1, hr1, hs1⟩ : ∃ s1, readX s = (s1, .ok d.x) ∧ Stored s1 d := by
    rcases hs with hs | ⟨hf, hc⟩
    · exact ⟨s, (reads_of_stored hs).1, hs⟩
    · obtain ⟨h1, h2, _⟩ := (iceCalculate_eq s).1 d hc
      exact ⟨(iceCalculate s).1, by rw [(reads_of_fresh hf).1, h1]; rfl, h2⟩
  obtain ⟨_, hr2, hr3⟩ := reads_of_stored hs1
  have hget : iceGet s i = match npIndex d.x i with
      | .error e => (s1, .error e)
      | .ok x => match npIndex d.y i with
        | .error e => (s1, .error e)
        | .ok y => match npIndex d.v i with
          | .error e => (s1, .error e)
          | .ok v => (s1, .ok ⟨s.cfg.space, s.cfg.selected, x, y, v⟩) := by
    unfold iceGet
    rw [hr1]
    dsimp only
    rw [hr2]
    dsimp only
    rw [hr3]
    cases npIndex d.x i with
    | error e => rfl
    | ok x =>
      cases npIndex d.y i with
      | error e => rfl
      | ok y => cases hv' : npIndex d.v i <;> simp [hv']
  constructor
  · intro k hk hik
    have key : ∀ {α : Type} (a : List α) (ha : a.length = n), ∃ v, a[k]? = some v ∧ npIndex a i = .ok v := by
      intro α a ha
      refine ⟨a[k]'(by omega), List.getElem?_eq_getElem _, ?_⟩
      rcases hik with rfl | hik
      · rw [npIndex_nat, pyGet_lt]
      · rw [show i = -((n - k : Nat) : Int) by omega, npIndex_neg a (by omega) (by omega)]
        simp only [show a.length - (n - k) = k by omega]
        exact pyGet_lt _
    obtain ⟨x, hxk, hx'⟩ := key d.x hx
    obtain ⟨y, hyk, hy'⟩ := key d.y hy
    obtain ⟨v, hvk, hv'⟩ := key d.v hv
    exact ⟨x, y, v, hxk, hyk, hvk, by rw [hget, hx', hy', hv']⟩
  · intro hout
    rw [hget, npIndex_out d.x (by rw [hx]; exact hout)]

/-! #### the implied config space -/

theorem foldl_zipWith_length {K : Type} {op : K → K → K} {n : Nat} (rs : List (List K)) (r : List K) (hr : r.length = n)
    (h : ∀ q ∈ rs, q.length = n) : (rs.foldl (List.zipWith op) r).length = n := by
  induction rs generalizing r with
  | nil => exact hr
  | cons q qs ih =>
    rw [List.foldl_cons]
    exact ih _ (by simp [hr, h q (by simp)]) fun p hp => h p (by simp [hp])

/-- the column-wise extreme: attained, and related to every entry by a transitive relation -/
theorem foldl_zipWith_getElem {K : Type} {op : K → K → K} (le : K → K → Prop) (hrefl : ∀ a, le a a)
    (htrans : ∀ a b c, le a b → le b c → le a c) (hl : ∀ a b, le (op a b) a) (hr' : ∀ a b, le (op a b) b)
    (hch : ∀ a b, op a b = a ∨ op a b = b) {n : Nat} (rs : List (List K)) (r : List K) (hr : r.length = n)
    (h : ∀ q ∈ rs, q.length = n) {f : Nat} {m : K} (hm : (rs.foldl (List.zipWith op) r)[f]? = some m) :
    (∃ q ∈ r :: rs, q[f]? = some m) ∧ ∀ q ∈ r :: rs, ∀ e, q[f]? = some e → le m e := by
  induction rs generalizing r with
  | nil =>
    simp only [List.foldl_nil] at hm
    refine ⟨⟨r, by simp, hm⟩, fun q hq e he => ?_⟩
    simp only [List.mem_singleton] at hq
    subst hq
    rw [hm] at he
    cases he
    exact hrefl _
  | cons q qs ih =>
    rw [List.foldl_cons] at hm
    obtain ⟨⟨p, hp, hpf⟩, hall⟩ := ih (List.zipWith op r q) (by simp [hr, h q (by simp)]) (fun p hp => h p (by simp [hp])) hm
    have hq : q.length = n := h q (by simp)
    have hfn : f < n := by
      have := (List.getElem?_eq_some_iff.1 hpf).1
      rcases List.mem_cons.1 hp with rfl | hp
      · simpa [hr, hq] using this
      · rw [h p (by simp [hp])] at this; exact this
    have hz : (List.zipWith op r q)[f]? = some (op (r[f]'(by omega)) (q[f]'(by omega))) := by
      rw [List.getElem?_zipWith, List.getElem?_eq_getElem (by omega), List.getElem?_eq_getElem (by omega)]
    have hle := hall _ (by simp) _ hz
    constructor
    · rcases List.mem_cons.1 hp with rfl | hp
      · rw [hz] at hpf
        rcases hch (r[f]'(by omega)) (q[f]'(by omega)) with h' | h'
        · exact ⟨r, by simp, by rw [← hpf, h', List.getElem?_eq_getElem]⟩
        · exact ⟨q, by simp, by rw [← hpf, h', List.getElem?_eq_getElem]⟩
      · exact ⟨p, by simp [hp], hpf⟩
    · intro p hp e he
      rcases List.mem_cons.1 hp with rfl | hp
      · rw [List.getElem?_eq_getElem (by omega)] at he
        cases he
        exact htrans _ _ _ hle (hl _ _)
      · rcases List.mem_cons.1 hp with rfl | hp
        · rw [List.getElem?_eq_getElem (by omega)] at he
          cases he
          exact htrans _ _ _ hle (hr' _ _)
        · exact hall p (by simp [hp]) e he

theorem impliedLoop_ok {hps : ConfigSpace ℝ} {los his : List (Val ℝ)} {R : Nat → Hp ℝ → Hp ℝ → Prop}
    (hlo : los.length = hps.length) (hhi : his.length = hps.length)
    (h : ∀ (f : Nat) hp lo hi, hps[f]? = some hp → los[f]? = some lo → his[f]? = some hi → ∃ o, impliedHp hp lo hi = .ok o ∧ R f hp o) :
    ∃ out, impliedLoop hps los his = .ok out ∧ out.length = hps.length ∧
      ∀ (f : Nat) hp, hps[f]? = some hp → ∃ o, out[f]? = some o ∧ R f hp o := by
  induction hps generalizing los his R with
  | nil => exact ⟨[], by simp [impliedLoop], rfl, by simp⟩
  | cons hp hps ih =>
    obtain _ | ⟨lo, los⟩ := los
    · simp at hlo
    obtain _ | ⟨hi, his⟩ := his
    · simp at hhi
    obtain ⟨o, ho, hR⟩ := h 0 hp lo hi (by simp) (by simp) (by simp)
    obtain ⟨out, hout, hlen, hall⟩ := ih (R := fun f => R (f + 1)) (by simpa using hlo) (by simpa using hhi)
      fun f q a b h1 h2 h3 => h (f + 1) q a b (by simpa using h1) (by simpa using h2) (by simpa using h3)
    refine ⟨o :: out, by simp [impliedLoop, ho, hout], by simp [hlen], ?_⟩
    intro f q hq
    cases f with
    | zero => simp at hq; subst hq; exact ⟨o, by simp, hR⟩
    | succ f => simpa using hall f q (by simpa using hq)

theorem colFold_spec {x : List (List ℝ)} {n : Nat} (hne : x ≠ []) (hx : ∀ r ∈ x, r.length = n) :
    ∃ mn mx, colFold min x = .ok mn ∧ colFold max x = .ok mx ∧ mn.length = n ∧ mx.length = n ∧
      ∀ (f : Nat) a b, mn[f]? = some a → mx[f]? = some b → a ∈ colOf x f ∧ b ∈ colOf x f ∧ ∀ e ∈ colOf x f, a ≤ e ∧ e ≤ b := by
  obtain ⟨r, rs, rfl⟩ := List.exists_cons_of_ne_nil hne
  have hr := hx r (by simp)
  have hrs : ∀ q ∈ rs, q.length = n := fun q hq => hx q (by simp [hq])
  refine ⟨_, _, rfl, rfl, foldl_zipWith_length rs r hr hrs, foldl_zipWith_length rs r hr hrs, ?_⟩
  intro f a b ha hb
  obtain ⟨h1, h2⟩ := foldl_zipWith_getElem (op := min) (fun a b => a ≤ b) le_refl (fun _ _ _ => le_trans) min_le_left min_le_right
    min_choice rs r hr hrs ha
  obtain ⟨h3, h4⟩ := foldl_zipWith_getElem (op := max) (fun a b => b ≤ a) le_refl (fun _ _ _ h h' => le_trans h' h) le_max_left
    le_max_right max_choice rs r hr hrs hb
  exact ⟨h1, h3, fun e ⟨q, hq, he⟩ => ⟨h2 q hq e he, h4 q hq e he⟩⟩

/-- **C47** the implied config space of a curve: one hyperparameter per feature, same name, a constant where the curve does not
vary, otherwise the same class of range between the natural values of the smallest and the largest point, inside the original
bounds. (Integer hyperparameters whose extreme natural values are not integral are refused, see below.) -/
theorem C47_implied_config_space {c : IceCurve ℝ} (hcs : AllDeclared c.space) (hne : c.x ≠ [])
    (hx : ∀ r ∈ c.x, r.length = c.space.length ∧ ∀ e ∈ r, 0 ≤ e ∧ e ≤ 1)
    (hint : ∀ (f : Nat) hp l u g, c.space[f]? = some hp → hp.kind = .integer l u g →
      (∃ e, colOf c.x f = {e}) ∨ ∀ e, IsLeast (colOf c.x f) e ∨ IsGreatest (colOf c.x f) e → ∃ z : ℤ, interpolate l u g e = z) :
    ∃ out, impliedConfigSpace c = .ok out ∧ out.length = c.space.length ∧
      ∀ (f : Nat) hp l u g, c.space[f]? = some hp → hp.kind = .float l u g ∨ hp.kind = .integer l u g →
        ∃ o, out[f]? = some o ∧ ImpliedBy hp l u g (colOf c.x f) o := by
  obtain ⟨mn, mx, hmn, hmx, hln, hlx, hext⟩ := colFold_spec hne fun r hr => (hx r hr).1
  have hcol : ∀ f e, e ∈ colOf c.x f → 0 ≤ e ∧ e ≤ 1 := fun f e ⟨r, hr, he⟩ => (hx r hr).2 e (List.mem_of_getElem? he)
  have h01 : ∀ e, e ∈ mn ∨ e ∈ mx → 0 ≤ e ∧ e ≤ 1 := by
    rintro e (he | he)
    · obtain ⟨f, hf, rfl⟩ := List.getElem_of_mem he
      exact hcol f _ (hext f mn[f] (mx[f]'(by omega)) (List.getElem?_eq_getElem _) (List.getElem?_eq_getElem _)).1
    · obtain ⟨f, hf, rfl⟩ := List.getElem_of_mem he
      exact hcol f _ (hext f (mn[f]'(by omega)) (mx[f]) (List.getElem?_eq_getElem _) (List.getElem?_eq_getElem _)).2.1
  obtain ⟨lo, hlo, hlo'⟩ := C04_unscale_float hcs (x := .d1 mn) ⟨hln, fun e he => h01 e (Or.inl he)⟩
  obtain ⟨hi, hhi, hhi'⟩ := C04_unscale_float hcs (x := .d1 mx) ⟨hlx, fun e he => h01 e (Or.inr he)⟩
  cases lo <;> simp only [ArrRel] at hlo'
  cases hi <;> simp only [ArrRel] at hhi'
  rename_i lo hi
  obtain ⟨hlol, hlov⟩ := hlo'
  obtain ⟨hhil, hhiv⟩ := hhi'
  obtain ⟨out, hout, hlen, hall⟩ := impliedLoop_ok (hps := c.space) (los := lo) (his := hi)
    (R := fun f hp o => ∀ l u g, hp.kind = .float l u g ∨ hp.kind = .integer l u g → ImpliedBy hp l u g (colOf c.x f) o)
    (by omega) (by omega) (by
      intro f hp w1 w2 hf hw1 hw2
      have hfl := (List.getElem?_eq_some_iff.1 hf).1
      obtain ⟨l, u, g, hd, hk⟩ := allDeclared_kind hcs (List.mem_of_getElem? hf)
      have ha : mn[f]? = some (mn[f]'(by omega)) := List.getElem?_eq_getElem _
      have hb : mx[f]? = some (mx[f]'(by omega)) := List.getElem?_eq_getElem _
      obtain ⟨a, ha'⟩ : ∃ a, a = mn[f]'(by omega) := ⟨_, rfl⟩
      obtain ⟨b, hb'⟩ : ∃ b, b = mx[f]'(by omega) := ⟨_, rfl⟩
      rw [← ha'] at ha
      rw [← hb'] at hb
      obtain ⟨ha1, hb1, hab⟩ := hext f a b ha hb
      have ha01 := hcol f a ha1
      have hb01 := hcol f b hb1
      obtain ⟨_, hw, v1, hv1, rfl⟩ := hlov f hp a hf ha
      rw [hw1] at hw; cases hw
      obtain ⟨_, hw, v2, hv2, rfl⟩ := hhiv f hp b hf hb
      rw [hw2] at hw; cases hw
      rw [C01_unscale_is_interpolation hd ha01.1 ha01.2] at hv1
      rw [C01_unscale_is_interpolation hd hb01.1 hb01.2] at hv2
      cases hv1; cases hv2
      have hmono := interpolate_strictMono hd
      have hnum : hp.numerical? = some (l, u, g) := by rcases hk with hk | hk <;> simp [Hp.numerical?, hk]
      have hkk : ∀ l' u' g', hp.kind = .float l' u' g' ∨ hp.kind = .integer l' u' g' → l' = l ∧ u' = u ∧ g' = g := by
        intro l' u' g' h
        rcases hk with hk | hk <;> rcases h with h | h <;> rw [hk] at h <;> cases h <;> exact ⟨rfl, rfl, rfl⟩
      by_cases heq : a = b
      · subst heq
        refine ⟨⟨hp.name, .constant (.num (interpolate l u g a))⟩, by simp [impliedHp, hnum], ?_⟩
        intro l' u' g' h
        obtain ⟨rfl, rfl, rfl⟩ := hkk l' u' g' h
        refine ⟨rfl, Or.inl ⟨a, ?_, rfl⟩⟩
        ext e
        constructor
        · intro he; exact le_antisymm (hab e he).2 (hab e he).1
        · rintro rfl; exact ha1
      · have hlt : a < b := lt_of_le_of_ne (hab b hb1).1 heq
        have hvlt := hmono hlt
        have hl : l ≤ interpolate l u g a := by
          have := hmono.monotone ha01.1; rwa [interpolate_zero hd] at this
        have hu : interpolate l u g b ≤ u := by
          have := hmono.monotone hb01.2; rwa [interpolate_one hd] at this
        have hpos : ¬ (g = true ∧ interpolate l u g a ≤ 0) := fun h => absurd (hd.pos h.1) (not_lt.2 (hl.trans h.2))
        rcases hk with hk | hk
        · refine ⟨⟨hp.name, .float (interpolate l u g a) (interpolate l u g b) g⟩, ?_, ?_⟩
          · simp only [impliedHp, hnum, hvlt.ne, if_false, rebuildHp, hk]
            rw [if_neg]
            rintro (h | h)
            · exact absurd hvlt (not_lt.2 h)
            · exact hpos h
          · intro l' u' g' h
            obtain ⟨rfl, rfl, rfl⟩ := hkk l' u' g' h
            exact ⟨rfl, Or.inr ⟨a, b, ha1, hb1, hlt, hab, hl, hvlt, hu, Or.inl ⟨hk, rfl⟩⟩⟩
        · have hz : ∀ e, IsLeast (colOf c.x f) e ∨ IsGreatest (colOf c.x f) e → ∃ z : ℤ, interpolate l u g e = z := by
            rcases hint f hp l u g hf hk with ⟨e, he⟩ | h
            · rw [he] at ha1 hb1
              exact absurd (ha1.trans hb1.symm) heq
            · exact h
          obtain ⟨z1, hz1⟩ := hz a (Or.inl ⟨ha1, fun e he => (hab e he).1⟩)
          obtain ⟨z2, hz2⟩ := hz b (Or.inr ⟨hb1, fun e he => (hab e he).2⟩)
          refine ⟨⟨hp.name, .integer (interpolate l u g a) (interpolate l u g b) g⟩, ?_, ?_⟩
          · simp only [impliedHp, hnum, hvlt.ne, if_false, rebuildHp, hk]
            rw [if_neg]
            rintro (h | h | h | h)
            · rw [hz1] at h; simp at h
            · rw [hz2] at h; simp at h
            · exact absurd hvlt (not_lt.2 h)
            · exact hpos h
          · intro l' u' g' h
            obtain ⟨rfl, rfl, rfl⟩ := hkk l' u' g' h
            exact ⟨rfl, Or.inr ⟨a, b, ha1, hb1, hlt, hab, hl, hvlt, hu, Or.inr ⟨hk, rfl⟩⟩⟩)
  refine ⟨out, ?_, hlen, fun f hp l u g hf hk => ?_⟩
  · simp only [impliedConfigSpace, hmn, hmx, Py.ok_bind, hlo, hhi, NdArr.row]
    exact hout
  · obtain ⟨o, ho, hR⟩ := hall f hp hf
    exact ⟨o, ho, hR l u g hk⟩

/-- **C47** an empty grid has no extremes -/
theorem C47_implied_empty {c : IceCurve ℝ} (h : c.x = []) : impliedConfigSpace c = .error .value := by
  simp [impliedConfigSpace, h, colFold]

/-- **C47** a non-integral extreme of an integer hyperparameter is refused (this cannot happen for curves of an ICE object, see
`C47_implied_of_ice`). -/
theorem C47_implied_integer_refused {name : String} {l u e e' : ℝ} (hlt : e < e') (hlu : l < u)
    (hni : ∀ z : ℤ, (z : ℝ) ≠ interpolate l u false e) (sel : List (Hp ℝ)) (y v : List ℝ) :
    impliedConfigSpace ⟨[⟨name, .integer l u false⟩], sel, [[e], [e']], y, v⟩ = .error .value := by
  have hd : Declares [⟨name, .integer l u false⟩] name l u false :=
    ⟨by simp [ConfigSpace.WF], ⟨_, List.mem_cons_self, rfl, Or.inr rfl⟩, hlu, by simp⟩
  have hi : ∀ t : ℝ, t * (u - l) + l = interpolate l u false t := by intro t; simp [interpolate]; ring
  have hne := (interpolate_strictMono hd hlt).ne
  simp only [impliedConfigSpace, colFold, List.foldl_cons, List.foldl_nil, List.zipWith_cons_cons, List.zipWith_nil_left,
    min_eq_left hlt.le, max_eq_right hlt.le, Py.ok_bind, unscale, unscaleLoop, updArr, updRow, NdArr.map, unscaleEntry, DType.float,
    unscaleNum, List.map_cons, List.map_nil, List.getElem?_cons_zero, List.set_cons_zero, NdArr.row, impliedLoop, impliedHp,
    Hp.numerical?, hi, hne, if_false, rebuildHp, Py.pure_eq, Py.map_ok, id_eq, Bool.false_eq_true]
  rw [if_pos (Or.inl (hni _))]
  rfl

theorem colOf_at3 {x3 : List (List (List ℝ))} {s : Nat} {x : List (List ℝ)} (hx : x3[s]? = some x) (f : Nat) :
    colOf x f = {e | ∃ p, at3 x3 s p f = some e} := by
  ext e
  simp only [colOf, at3, Set.mem_ofPred_eq, hx, Option.bind_some]
  constructor
  · rintro ⟨r, hr, he⟩
    obtain ⟨p, hp, rfl⟩ := List.getElem_of_mem hr
    exact ⟨p, by rw [List.getElem?_eq_getElem hp]; exact he⟩
  · rintro ⟨p, hp⟩
    obtain ⟨r, hr, he⟩ := Option.bind_eq_some_iff.1 hp
    exact ⟨r, List.mem_of_getElem? hr, he⟩

/-- **C47** curves of an ICE object always have an implied config space: the selected hyperparameters keep their whole range (with
at least two grid points), all others become constants with the natural value of the sample. -/
theorem C47_implied_of_ice {c : IceCfg ℝ} (hc : ValidCfg c) (hcs : AllDeclared c.space)
    (hs : ∀ r ∈ c.samples, ∀ e ∈ r, 0 ≤ e ∧ e ≤ 1)
    (hint : ∀ hp ∈ c.space, ∀ l u g, hp.kind = .integer l u g → ∃ a b : ℤ, l = a ∧ u = b)
    {grid : List (List ℝ)} (hg : gridPoints c.selected.length c.perAxis = .ok grid) (hP : 2 ≤ c.perAxis)
    {d : IceData ℝ} (h : iceCalc c grid = .ok d) {s : Nat} {x : List (List ℝ)} {r : List ℝ} (hx : d.x[s]? = some x)
    (hr : c.samples[s]? = some r) (y v : List ℝ) :
    ∃ out, impliedConfigSpace ⟨c.space, c.selected, x, y, v⟩ = .ok out ∧ out.length = c.space.length ∧
      ∀ (f : Nat) hp l u g, c.space[f]? = some hp → hp.kind = .float l u g ∨ hp.kind = .integer l u g →
        ∃ o, out[f]? = some o ∧ o.name = hp.name ∧
          ((∃ q ∈ c.selected, IsFeature c.space q f) → o.kind = hp.kind) ∧
          ((∀ q ∈ c.selected, ¬ IsFeature c.space q f) →
            ∃ e, r[f]? = some e ∧ o.kind = .constant (.num (interpolate l u g e))) := by
  have hk : 1 ≤ c.selected.length := List.length_pos_iff.2 hc.sel_ne
  obtain ⟨grid', hg', hlen, hnd, hfull⟩ := C40_grid (K := ℝ) hk c.perAxis
  rw [hg] at hg'
  obtain rfl := Except.ok.inj hg'
  have hgl : grid.length = c.numGrid := by rw [hlen, hc.num_grid]
  obtain ⟨hshape, hat⟩ := C41_x_ice hc hgl (fun t ht => ((hfull t).1 ht).1) h
  have hxs := hshape.2 x (List.mem_of_getElem? hx)
  have hrl := hc.rows r (List.mem_of_getElem? hr)
  have hg1 : ∀ t ∈ grid, ∀ e ∈ t, 0 ≤ e ∧ e ≤ 1 := by
    intro t ht e he
    obtain ⟨i, hi, rfl⟩ := ((hfull t).1 ht).2 e he
    rw [if_neg (by omega)]
    have h1 : (0 : ℝ) < (c.perAxis : ℝ) - 1 := by
      have : (2 : ℝ) ≤ c.perAxis := by exact_mod_cast hP
      linarith
    refine ⟨div_nonneg (by positivity) h1.le, (div_le_one h1).2 ?_⟩
    have : ((i + 1 : ℕ) : ℝ) ≤ c.perAxis := by exact_mod_cast hi
    push_cast at this
    linarith
  have hconst : ∀ e : ℝ, e = 0 ∨ e = 1 → List.replicate c.selected.length e ∈ grid := by
    intro e he
    refine (hfull _).2 ⟨by simp, fun w hw => ?_⟩
    obtain rfl := (List.mem_replicate.1 hw).2
    simp only [if_neg (show ¬ c.perAxis = 1 by omega)]
    have h1 : (c.perAxis : ℝ) - 1 ≠ 0 := by
      have : (2 : ℝ) ≤ c.perAxis := by exact_mod_cast hP
      linarith
    rcases he with rfl | rfl
    · exact ⟨0, by omega, by simp⟩
    · exact ⟨c.perAxis - 1, by omega, by rw [Nat.cast_sub (by omega)]; simp [h1]⟩
  -- columns
  have hp_lt : ∀ {p f e}, at3 d.x s p f = some e → p < grid.length := by
    intro p f e he
    simp only [at3, hx, Option.bind_some] at he
    obtain ⟨row, hrow, _⟩ := Option.bind_eq_some_iff.1 he
    have := (List.getElem?_eq_some_iff.1 hrow).1
    rw [hxs.1] at this; omega
  have hcolsel : ∀ f, (∃ q ∈ c.selected, IsFeature c.space q f) → IsLeast (colOf x f) 0 ∧ IsGreatest (colOf x f) 1 := by
    rintro f ⟨q, hq, hqf⟩
    obtain ⟨j, hj, rfl⟩ := List.getElem_of_mem hq
    have hin : ∀ e ∈ colOf x f, 0 ≤ e ∧ e ≤ 1 := by
      intro e he
      rw [colOf_at3 hx] at he
      obtain ⟨p, he⟩ := he
      have hpl := hp_lt he
      rw [(hat s r p _ hr (List.getElem?_eq_getElem hpl)).1 j _ f (List.getElem?_eq_getElem hj) hqf] at he
      exact hg1 _ (List.getElem_mem hpl) e (List.mem_of_getElem? he)
    have hatt : ∀ e : ℝ, e = 0 ∨ e = 1 → e ∈ colOf x f := by
      intro e he
      obtain ⟨p, hpl, hpe⟩ := List.getElem_of_mem (hconst e he)
      rw [colOf_at3 hx]
      refine ⟨p, ?_⟩
      rw [(hat s r p _ hr (List.getElem?_eq_getElem hpl)).1 j _ f (List.getElem?_eq_getElem hj) hqf, hpe]
      rw [List.getElem?_replicate, if_pos hj]
    exact ⟨⟨hatt 0 (Or.inl rfl), fun e he => (hin e he).1⟩, ⟨hatt 1 (Or.inr rfl), fun e he => (hin e he).2⟩⟩
  have hgne : 0 < grid.length := List.length_pos_of_mem (hconst 0 (Or.inl rfl))
  have hcolns : ∀ f (hf : f < r.length), (∀ q ∈ c.selected, ¬ IsFeature c.space q f) → colOf x f = {r[f]} := by
    intro f hf hns
    rw [colOf_at3 hx]
    ext e
    constructor
    · rintro ⟨p, he⟩
      rw [(hat s r p _ hr (List.getElem?_eq_getElem (hp_lt he))).2 f hns, List.getElem?_eq_getElem hf] at he
      exact (Option.some.inj he).symm
    · rintro rfl
      exact ⟨0, by rw [(hat s r 0 _ hr (List.getElem?_eq_getElem hgne)).2 f hns, List.getElem?_eq_getElem hf]⟩
  obtain ⟨out, hout, hol, hall⟩ := C47_implied_config_space (c := ⟨c.space, c.selected, x, y, v⟩) hcs
    (by intro h0; have := hxs.1; simp only at h0; rw [h0] at this; simp at this; omega)
    (by
      intro row hrow
      refine ⟨hxs.2 row hrow, fun e he => ?_⟩
      obtain ⟨f, hf, rfl⟩ := List.getElem_of_mem he
      have hfl : f < r.length := by rw [hrl, ← hxs.2 row hrow]; exact hf
      have hmem : row[f] ∈ colOf x f := ⟨row, hrow, List.getElem?_eq_getElem hf⟩
      by_cases hsel : ∃ q ∈ c.selected, IsFeature c.space q f
      · exact ⟨(hcolsel f hsel).1.2 hmem, (hcolsel f hsel).2.2 hmem⟩
      · push Not at hsel
        rw [hcolns f hfl hsel] at hmem
        rw [hmem]
        exact hs r (List.mem_of_getElem? hr) _ (List.getElem_mem _))
    (by
      intro f hp l u g hf hki
      have hfl : f < r.length := by rw [hrl]; exact (List.getElem?_eq_some_iff.1 hf).1
      obtain ⟨l', u', g', hd, hk'⟩ := allDeclared_kind hcs (List.mem_of_getElem? hf)
      have : l' = l ∧ u' = u ∧ g' = g := by
        rcases hk' with hk' | hk' <;> rw [hki] at hk' <;> cases hk'
        exact ⟨rfl, rfl, rfl⟩
      obtain ⟨rfl, rfl, rfl⟩ := this
      by_cases hsel : ∃ q ∈ c.selected, IsFeature c.space q f
      · right
        obtain ⟨a, b, ha, hb⟩ := hint hp (List.mem_of_getElem? hf) _ _ _ hki
        rintro e (he | he)
        · rw [he.unique (hcolsel f hsel).1, interpolate_zero hd]; exact ⟨a, ha⟩
        · rw [he.unique (hcolsel f hsel).2, interpolate_one hd]; exact ⟨b, hb⟩
      · push Not at hsel
        exact Or.inl ⟨_, hcolns f hfl hsel⟩)
  refine ⟨out, hout, hol, fun f hp l u g hf hkind => ?_⟩
  obtain ⟨o, ho, hname, hcase⟩ := hall f hp l u g hf hkind
  have hfl : f < r.length := by rw [hrl]; exact (List.getElem?_eq_some_iff.1 hf).1
  obtain ⟨l', u', g', hd, hk'⟩ := allDeclared_kind hcs (List.mem_of_getElem? hf)
  have : l' = l ∧ u' = u ∧ g' = g := by
    rcases hk' with hk' | hk' <;> rcases hkind with h | h <;> rw [hk'] at h <;> cases h <;> exact ⟨rfl, rfl, rfl⟩
  obtain ⟨rfl, rfl, rfl⟩ := this
  refine ⟨o, ho, hname, fun hsel => ?_, fun hns => ?_⟩
  · obtain ⟨h0, h1⟩ := hcolsel f hsel
    rcases hcase with ⟨e, he, _⟩ | ⟨a, b, ha, hb, hab, hall', _, _, _, hko⟩
    · have e0 := h0.1; have e1 := h1.1
      simp only at he
      rw [he] at e0 e1
      exact absurd (e0.trans e1.symm) zero_ne_one
    · have ha0 : a = 0 := le_antisymm (hall' 0 h0.1).1 (h0.2 ha)
      have hb1 : b = 1 := le_antisymm (h1.2 hb) (hall' 1 h1.1).2
      subst ha0 hb1
      rw [interpolate_zero hd, interpolate_one hd] at hko
      rcases hko with ⟨h1, h2⟩ | ⟨h1, h2⟩ <;> rw [h1, h2]
  · have hcol := hcolns f hfl hns
    refine ⟨r[f], List.getElem?_eq_getElem hfl, ?_⟩
    rcases hcase with ⟨e, he, hko⟩ | ⟨a, b, ha, hb, hab, _⟩
    · simp only at he
      rw [hcol] at he
      rw [hko, Set.singleton_injective he]
    · simp only at ha hb
      rw [hcol] at ha hb
      exact absurd (ha.trans hb.symm) hab.ne

/-- non-vacuity: a two-dimensional space, the first feature varies, the second does not -/
example : ∃ c : IceCurve ℝ, AllDeclared c.space ∧ c.x.length = 2 ∧
    (∀ r ∈ c.x, r.length = c.space.length ∧ ∀ e ∈ r, 0 ≤ e ∧ e ≤ 1) ∧ colOf c.x 0 = {0, 1/2} ∧ colOf c.x 1 = {1/3} := by
  refine ⟨⟨[⟨"x1", .float (-5) 5 false⟩, ⟨"x2", .float 1 10 true⟩], [], [[0, 1/3], [1/2, 1/3]], [], []⟩, ?_, rfl, ?_, ?_, ?_⟩
  · have hw : ConfigSpace.WF ([⟨"x1", .float (-5) 5 false⟩, ⟨"x2", .float 1 10 true⟩] : ConfigSpace ℝ) := by simp [ConfigSpace.WF]
    intro hp hm
    simp only [List.mem_cons, List.not_mem_nil, or_false] at hm
    rcases hm with rfl | rfl
    · exact ⟨_, _, _, hw, ⟨_, by simp, rfl, Or.inl rfl⟩, by norm_num, by simp⟩
    · exact ⟨_, _, _, hw, ⟨⟨"x2", .float 1 10 true⟩, by simp, rfl, Or.inl rfl⟩, by norm_num, by norm_num⟩
  · norm_num
  · ext e; simp [colOf, eq_comm]
  · ext e; simp [colOf, eq_comm]

/-! ### C48 -/

section random
variable {K S : Type} {rng : Rng K S (Draws (Config K))} {md5 : String → Nat}

/-- **C48** the samples depend only on the hyperparameters, the number and the seed - not on what happened before, the class, the
clock or the random state of the surrogate's space. -/
theorem C48_reproducible {w₁ w₂ : World K S} {h₁ h₂ r₁ r₂ : Nat} {sp₁ sp₂ : SpaceObj K S}
    (hh₁ : w₁.handles[h₁]? = some r₁) (hs₁ : w₁.spaces[r₁]? = some sp₁)
    (hh₂ : w₂.handles[h₂]? = some r₂) (hs₂ : w₂.spaces[r₂]? = some sp₂) (hhps : sp₁.hps = sp₂.hps)
    (cls₁ cls₂ : String) (num : Int) (seed : Nat) (t₁ t₂ : Int) :
    (fromRandomPoints rng md5 w₁ h₁ cls₁ num seed t₁).2 = (fromRandomPoints rng md5 w₂ h₂ cls₂ num seed t₂).2 := by
  have key : ∀ {w : World K S} {h r : Nat} {sp : SpaceObj K S} (cls : String) (t : Int), w.handles[h]? = some r →
      w.spaces[r]? = some sp →
      (fromRandomPoints rng md5 w h cls num seed t).2 = samplesOf (rng.draw sp.hps (rng.seed sp.hps seed) num).1 := by
    intro w h r sp cls t hh hs
    simp only [fromRandomPoints, hh, hs]
    cases samplesOf (rng.draw sp.hps (rng.seed sp.hps seed) num).1 <;> rfl
  rw [key cls₁ t₁ hh₁ hs₁, key cls₂ t₂ hh₂ hs₂, hhps]

/-- **C48** every config space object that existed before keeps its hyperparameters and random state, every component its space. -/
theorem C48_undisturbed (w : World K S) (h : Nat) (cls : String) (num : Int) (seed : Nat) (time : Int) :
    (∀ (r : Nat) sp, w.spaces[r]? = some sp → (fromRandomPoints rng md5 w h cls num seed time).1.spaces[r]? = some sp) ∧
    (∀ (k : Nat) r, w.handles[k]? = some r → (fromRandomPoints rng md5 w h cls num seed time).1.handles[k]? = some r) := by
  have app : ∀ {α : Type} {l : List α} {m : List α} {i : Nat} {a : α}, l[i]? = some a → (l ++ m)[i]? = some a := by
    intro α l m i a ha
    rw [List.getElem?_append_left (List.getElem?_eq_some_iff.1 ha).1, ha]
  simp only [fromRandomPoints]
  split
  · exact ⟨fun _ _ h => h, fun _ _ h => h⟩
  · split
    · exact ⟨fun _ _ h => h, fun _ _ h => h⟩
    · split
      · exact ⟨fun _ _ h => app h, fun _ _ h => h⟩
      · simp only [holderInit]
        split
        · exact ⟨fun _ _ h => app h, fun _ _ h => h⟩
        · split
          · exact ⟨fun _ _ h => app h, fun _ _ h => app h⟩
          · split
            · exact ⟨fun _ _ h => app h, fun _ _ h => h⟩
            · exact ⟨fun _ _ h => app (app h), fun _ _ h => app h⟩

/-- **C48**, partial: exactly `num` samples, the vectors of the configurations drawn, for `num ≥ 2`. Missing (false): `num = 1`. -/
theorem C48_size_partial {w : World K S} {h r : Nat} {sp : SpaceObj K S} (hh : w.handles[h]? = some r) (hs : w.spaces[r]? = some sp)
    (cls : String) {num : Int} (seed : Nat) (time : Int) {l : List (Config K)}
    (hdraw : (rng.draw sp.hps (rng.seed sp.hps seed) num).1 = .many l) (hl : (l.length : Int) = num) :
    ∃ x, (fromRandomPoints rng md5 w h cls num seed time).2 = .ok x ∧ (x.length : Int) = num ∧ x = l.map Config.vector := by
  refine ⟨l.map Config.vector, ?_, by simp [hl], rfl⟩
  simp [fromRandomPoints, hh, hs, hdraw, samplesOf]

/-- **C48** is false for a single sample: `sample_configuration(1)` returns a bare configuration, iterating over it yields names:
AttributeError. -/
theorem C48_counterexample {w : World K S} {h r : Nat} {sp : SpaceObj K S} (hh : w.handles[h]? = some r) (hs : w.spaces[r]? = some sp)
    (cls : String) (seed : Nat) (time : Int) {cfg : Config K}
    (hdraw : (rng.draw sp.hps (rng.seed sp.hps seed) 1).1 = .one cfg) :
    (fromRandomPoints rng md5 w h cls 1 seed time).2 = .error .attribute := by
  simp [fromRandomPoints, hh, hs, hdraw, samplesOf]

end random

end PyPDP
