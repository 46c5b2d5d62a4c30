/-
C80, C81: what every read of an ICE object and of a PDP object returns, after every history.
-/
import Verif.Spec.IceHistory
import Verif.Props.Pdp

namespace PyPDP
open Spec
variable {K : Type} [Field K]

theorem iceRun_snoc (s : IceState K) (ops : List (IceOp K)) (op : IceOp K) : iceRun s (ops ++ [op]) = iceStep (iceRun s ops) op := by
  simp [iceRun]

omit [Field K] in
theorem attributes_snoc (c : IceCfg K) (ops : List (IceOp K)) (op : IceOp K) :
    attributes c (ops ++ [op]) = assign (attributes c ops) op := by
  simp [attributes]

omit [Field K] in
theorem attributes_selected (c : IceCfg K) (ops : List (IceOp K)) : (attributes c ops).selected = c.selected := by
  induction ops using List.reverseRecOn with
  | nil => rfl
  | append_singleton ops op ih => rw [attributes_snoc, ← ih]; cases op <;> rfl

omit [Field K] in
theorem takeWhile_snoc_of_any {α : Type} (p : α → Bool) {l : List α} (h : ∃ o ∈ l, p o = false) (x : α) :
    (l ++ [x]).takeWhile p = l.takeWhile p := by
  induction l with
  | nil => simp at h
  | cons a l ih =>
    cases hp : p a with
    | false => simp [hp]
    | true =>
      obtain ⟨o, ho, hpo⟩ := h
      rcases List.mem_cons.1 ho with rfl | ho
      · rw [hp] at hpo; cases hpo
      · simp [hp, ih ⟨o, ho, hpo⟩]

omit [Field K] in
theorem takeWhile_all {α : Type} (p : α → Bool) {l : List α} (h : ∀ o ∈ l, p o = true) : l.takeWhile p = l := by
  induction l with
  | nil => rfl
  | cons a l ih => simp [h a (by simp), ih fun o ho => h o (by simp [ho])]

omit [Field K] in
theorem gridSize_unread (c : IceCfg K) {ops : List (IceOp K)} (h : ∀ o ∈ ops, readsGrid o = false) :
    gridSize c ops = (attributes c ops).perAxis := by
  unfold gridSize; rw [takeWhile_all]; intro o ho; simp [h o ho]

omit [Field K] in
theorem gridSize_read (c : IceCfg K) {ops : List (IceOp K)} (h : ∃ o ∈ ops, readsGrid o = true) (op : IceOp K) :
    gridSize c (ops ++ [op]) = gridSize c ops := by
  unfold gridSize; rw [takeWhile_snoc_of_any]
  obtain ⟨o, ho, hr⟩ := h
  exact ⟨o, ho, by simp [hr]⟩

omit [Field K] in
theorem gridSize_first (c : IceCfg K) {ops : List (IceOp K)} (h : ∀ o ∈ ops, readsGrid o = false) {op : IceOp K}
    (hop : readsGrid op = true) : gridSize c (ops ++ [op]) = (attributes c ops).perAxis := by
  unfold gridSize
  have : (ops ++ [op]).takeWhile (fun o => !readsGrid o) = ops := by
    rw [List.takeWhile_append_of_pos (by intro o ho; simp [h o ho])]
    simp [hop]
  rw [this]

/-- the stored grid points after a history -/
def GridAfter (c : IceCfg K) (ops : List (IceOp K)) (s : IceState K) : Prop :=
  ((∀ o ∈ ops, readsGrid o = false) ∧ s.grid = none) ∨
  ((∃ o ∈ ops, readsGrid o = true) ∧ ((∃ g, gridPoints c.selected.length (gridSize c ops) = .ok g ∧ s.grid = some g) ∨
    ((∃ e, (gridPoints c.selected.length (gridSize c ops) : Py (List (List K))) = .error e) ∧ s.grid = none)))

/-- the state of the object after a history -/
structure After (c : IceCfg K) (ops : List (IceOp K)) (s : IceState K) : Prop where
  cfg : s.cfg = attributes c ops
  grid : GridAfter c ops s
  kept : (NothingKept c ops ∧ Fresh s) ∨ ∃ a d, KeptSince c ops a ∧ calcAfter c a = .ok d ∧ Stored s d

theorem gridPoints_error {k p p' : Nat} {e : PyErr} (h : (gridPoints k p : Py (List (List K))) = .error e) :
    (gridPoints k p' : Py (List (List K))) = .error e := by
  unfold gridPoints at h ⊢
  split at h
  · rename_i hk; rw [if_pos hk]; exact h
  · cases h

theorem After.calcNow {c : IceCfg K} {ops : List (IceOp K)} {s : IceState K} (h : After c ops s) :
    calcNow s = calcAfter c ops := by
  unfold Spec.calcNow calcAfter
  rw [h.cfg, attributes_selected]
  rcases h.grid with ⟨hn, hg⟩ | ⟨_, ⟨g, hok, hg⟩ | ⟨⟨e, he⟩, hg⟩⟩
  · simp only [hg]; rw [gridSize_unread c hn]
  · simp only [hg, hok]
  · simp only [hg, he, gridPoints_error he]

omit [Field K] in
theorem split_snoc {α : Type} {ops a b : List α} {op x : α} (h : ops ++ [x] = a ++ op :: b) :
    (b = [] ∧ a = ops ∧ op = x) ∨ ∃ b', b = b' ++ [x] ∧ ops = a ++ op :: b' := by
  induction b using List.reverseRecOn with
  | nil =>
    have := List.append_inj' h rfl
    left; exact ⟨rfl, this.1.symm, by simpa using this.2.symm⟩
  | append_singleton b y _ =>
    right
    have h' : ops ++ [x] = (a ++ op :: b) ++ [y] := by simpa using h
    have := List.append_inj' h' rfl
    have hxy : x = y := by simpa using this.2
    exact ⟨b, by rw [hxy], this.1⟩

theorem nothingKept_snoc {c : IceCfg K} {ops : List (IceOp K)} {op : IceOp K} (h : NothingKept c ops)
    (hop : IsDataRead op → ∃ e, calcAfter c ops = .error e) : NothingKept c (ops ++ [op]) := by
  intro a o b hs ho
  rcases split_snoc hs with ⟨rfl, rfl, rfl⟩ | ⟨b', rfl, hs'⟩
  · exact Or.inr (hop ho)
  · rcases h a o b' hs' ho with ⟨r, hr, hr'⟩ | h
    · exact Or.inl ⟨r, by simp [hr], hr'⟩
    · exact Or.inr h

theorem nothingKept_reset (c : IceCfg K) (ops : List (IceOp K)) : NothingKept c (ops ++ [.reset]) := by
  intro a o b hs ho
  rcases split_snoc hs with ⟨rfl, rfl, rfl⟩ | ⟨b', rfl, _⟩
  · exact absurd ho (by simp [IsDataRead])
  · exact Or.inl ⟨.reset, by simp, by simp [IsReset]⟩

theorem keptSince_snoc {c : IceCfg K} {ops a : List (IceOp K)} {op : IceOp K} (h : KeptSince c ops a) (hop : ¬ IsReset op) :
    KeptSince c (ops ++ [op]) a := by
  obtain ⟨hn, hd, o, b, rfl, ho, hb⟩ := h
  refine ⟨hn, hd, o, b ++ [op], by simp, ho, ?_⟩
  intro r hr
  rcases List.mem_append.1 hr with hr | hr
  · exact hb r hr
  · rw [List.mem_singleton.1 hr]; exact hop

theorem iceCalculate_grid (s : IceState K) : (iceCalculate s).1.grid = (readGrid s).1.grid ∧ (readGrid s).1.cfg = s.cfg := by
  unfold iceCalculate readGrid
  cases hg : s.grid with
  | some g => dsimp only; cases iceCalc s.cfg g <;> simp [hg]
  | none =>
    dsimp only
    cases (gridPoints s.cfg.selected.length s.cfg.perAxis : Py (List (List K))) with
    | error e => simp
    | ok g => dsimp only; cases iceCalc s.cfg g <;> simp

/-- reading the grid points stores those of the size now in force, unless some are stored -/
theorem gridAfter_read {c : IceCfg K} {ops : List (IceOp K)} {s t : IceState K} (hcfg : s.cfg = attributes c ops)
    (h : GridAfter c ops s) {op : IceOp K} (hop : readsGrid op = true) (ht : t.grid = (readGrid s).1.grid) :
    GridAfter c (ops ++ [op]) t := by
  right
  refine ⟨⟨op, by simp, hop⟩, ?_⟩
  rcases h with ⟨hn, hg⟩ | ⟨hr, ⟨g, hok, hg⟩ | ⟨⟨e, he⟩, hg⟩⟩
  · rw [gridSize_first c hn hop, ht]
    simp only [readGrid, hg, hcfg, attributes_selected]
    cases (gridPoints c.selected.length (attributes c ops).perAxis : Py (List (List K))) with
    | error e => exact Or.inr ⟨⟨e, rfl⟩, hg⟩
    | ok g => exact Or.inl ⟨g, rfl, rfl⟩
  · rw [gridSize_read c hr, ht]
    exact Or.inl ⟨g, hok, by simp [readGrid, hg]⟩
  · rw [gridSize_read c hr, ht]
    refine Or.inr ⟨⟨e, he⟩, ?_⟩
    simp only [readGrid, hg, hcfg, attributes_selected, gridPoints_error he]

/-- a data read with nothing in between keeps the grid points stored before -/
theorem gridAfter_stored {c : IceCfg K} {ops a : List (IceOp K)} {s t : IceState K} (hk : KeptSince c ops a)
    (h : GridAfter c ops s) {op : IceOp K} (ht : t.grid = s.grid) : GridAfter c (ops ++ [op]) t := by
  obtain ⟨_, _, o, b, hs, ho, _⟩ := hk
  have hr : ∃ o ∈ ops, readsGrid o = true := by
    refine ⟨o, by simp [hs], ?_⟩
    cases o <;> first | rfl | exact absurd ho (by simp [IsDataRead])
  obtain ⟨o', ho', hr'⟩ := hr
  rcases h with ⟨hn, _⟩ | ⟨_, h⟩
  · rw [hn o' ho'] at hr'; cases hr'
  · right
    rw [gridSize_read c ⟨o', ho', hr'⟩, ht]
    exact ⟨⟨o', by simp [ho'], hr'⟩, h⟩

/-- an operation that does not read the grid points keeps them -/
theorem gridAfter_other {c : IceCfg K} {ops : List (IceOp K)} {s t : IceState K} (h : GridAfter c ops s) {op : IceOp K}
    (hop : readsGrid op = false) (ht : t.grid = s.grid) : GridAfter c (ops ++ [op]) t := by
  rcases h with ⟨hn, hg⟩ | ⟨⟨o, ho, hr⟩, h⟩
  · left
    refine ⟨?_, by rw [ht, hg]⟩
    intro o ho
    rcases List.mem_append.1 ho with ho | ho
    · exact hn o ho
    · rw [List.mem_singleton.1 ho]; exact hop
  · right
    rw [gridSize_read c ⟨o, ho, hr⟩, ht]
    exact ⟨⟨o, by simp [ho], hr⟩, h⟩

theorem after_data_read {c : IceCfg K} {ops : List (IceOp K)} {s : IceState K} (h : After c ops s) {op : IceOp K}
    (hop : IsDataRead op) : After c (ops ++ [op]) (iceStep s op) := by
  have hatt : assign (attributes c ops) op = attributes c ops := by
    cases op <;> first | rfl | exact absurd hop (by simp [IsDataRead])
  have hrg : readsGrid op = true := by cases op <;> first | rfl | exact absurd hop (by simp [IsDataRead])
  have hres : ¬ IsReset op := by cases op <;> simp_all [IsReset, IsDataRead]
  rcases h.kept with ⟨hn, hf⟩ | ⟨a, d, hk, hd, hs⟩
  · have hstep : iceStep s op = (iceCalculate s).1 := by
      obtain ⟨h1, h2, h3⟩ := reads_of_fresh hf
      cases op with
      | readX => simp [iceStep, h1]
      | readY => simp [iceStep, h2]
      | readV => simp [iceStep, h3]
      | _ => exact absurd hop (by simp [IsDataRead])
    rw [hstep]
    have hnow := h.calcNow
    have hgrid := gridAfter_read h.cfg h.grid hrg (iceCalculate_grid s).1
    cases hc : calcAfter c ops with
    | ok d =>
      obtain ⟨_, hst, hcfg⟩ := (iceCalculate_eq s).1 d (hnow.trans hc)
      refine ⟨by rw [hcfg, h.cfg, attributes_snoc, hatt], hgrid, Or.inr ⟨ops, d, ⟨hn, ⟨d, hc⟩, op, [], rfl, hop, by simp⟩, hc, hst⟩⟩
    | error e =>
      obtain ⟨_, hcfg, hfr⟩ := (iceCalculate_eq s).2 e (hnow.trans hc)
      exact ⟨by rw [hcfg, h.cfg, attributes_snoc, hatt], hgrid, Or.inl ⟨nothingKept_snoc hn fun _ => ⟨e, hc⟩, hfr hf⟩⟩
  · have hstep : iceStep s op = s := by
      obtain ⟨h1, h2, h3⟩ := reads_of_stored hs
      cases op with
      | readX => simp [iceStep, h1]
      | readY => simp [iceStep, h2]
      | readV => simp [iceStep, h3]
      | _ => exact absurd hop (by simp [IsDataRead])
    rw [hstep]
    exact ⟨by rw [h.cfg, attributes_snoc, hatt], gridAfter_stored hk h.grid rfl, Or.inr ⟨a, d, keptSince_snoc hk hres, hd, hs⟩⟩

theorem after_step {c : IceCfg K} {ops : List (IceOp K)} {s : IceState K} (h : After c ops s) (op : IceOp K) :
    After c (ops ++ [op]) (iceStep s op) := by
  have keep : ∀ {t : IceState K}, t.x = s.x → t.y = s.y → t.v = s.v → ¬ IsReset op → ¬ IsDataRead op →
      ((NothingKept c (ops ++ [op]) ∧ Fresh t) ∨ ∃ a d, KeptSince c (ops ++ [op]) a ∧ calcAfter c a = .ok d ∧ Stored t d) := by
    intro t hx hy hv hr hd
    rcases h.kept with ⟨hn, hf⟩ | ⟨a, d, hk, hok, hs⟩
    · exact Or.inl ⟨nothingKept_snoc hn fun h => absurd h hd, by rw [hx]; exact hf.1, by rw [hy]; exact hf.2.1, by rw [hv]; exact hf.2.2⟩
    · exact Or.inr ⟨a, d, keptSince_snoc hk hr, hok, by rw [hx]; exact hs.1, by rw [hy]; exact hs.2.1, by rw [hv]; exact hs.2.2⟩
  cases op with
  | readX => exact after_data_read h trivial
  | readY => exact after_data_read h trivial
  | readV => exact after_data_read h trivial
  | readGrid =>
    have hx : (readGrid s).1.x = s.x ∧ (readGrid s).1.y = s.y ∧ (readGrid s).1.v = s.v := by
      unfold readGrid
      cases s.grid with
      | some g => simp
      | none => dsimp only; cases (gridPoints s.cfg.selected.length s.cfg.perAxis : Py (List (List K))) <;> simp
    refine ⟨?_, gridAfter_read h.cfg h.grid rfl rfl, keep hx.1 hx.2.1 hx.2.2 (by simp [IsReset]) (by simp [IsDataRead])⟩
    rw [attributes_snoc]
    exact (iceCalculate_grid s).2.trans h.cfg
  | reset =>
    refine ⟨?_, gridAfter_other h.grid rfl rfl, Or.inl ⟨nothingKept_reset c ops, fresh_reset s⟩⟩
    rw [attributes_snoc]; exact h.cfg
  | setCentered b =>
    refine ⟨?_, gridAfter_other h.grid rfl rfl, keep rfl rfl rfl (by simp [IsReset]) (by simp [IsDataRead])⟩
    rw [attributes_snoc, ← h.cfg]; rfl
  | setSamples a =>
    refine ⟨?_, gridAfter_other h.grid rfl rfl, keep rfl rfl rfl (by simp [IsReset]) (by simp [IsDataRead])⟩
    rw [attributes_snoc, ← h.cfg]; rfl
  | setPerAxis g =>
    refine ⟨?_, gridAfter_other h.grid rfl rfl, keep rfl rfl rfl (by simp [IsReset]) (by simp [IsDataRead])⟩
    rw [attributes_snoc, ← h.cfg]; rfl
  | refit p =>
    refine ⟨?_, gridAfter_other h.grid rfl rfl, keep rfl rfl rfl (by simp [IsReset]) (by simp [IsDataRead])⟩
    rw [attributes_snoc, ← h.cfg]; rfl

theorem after_run (c : IceCfg K) (ops : List (IceOp K)) : After c ops (iceRun (iceInit c) ops) := by
  induction ops using List.reverseRecOn with
  | nil =>
    refine ⟨rfl, Or.inl ⟨by simp, rfl⟩, Or.inl ⟨?_, fresh_init c⟩⟩
    intro a o b hs
    simp at hs
  | append_singleton ops op ih => rw [iceRun_snoc]; exact after_step ih op

/-- no history has a kept calculation and none -/
theorem not_kept_and_nothing {c : IceCfg K} {ops a : List (IceOp K)} (h : KeptSince c ops a) : ¬ NothingKept c ops := by
  obtain ⟨_, ⟨d, hd⟩, o, b, hs, ho, hb⟩ := h
  intro hn
  rcases hn a o b hs ho with ⟨r, hr, hr'⟩ | ⟨e, he⟩
  · exact hb r hr hr'
  · rw [hd] at he; cases he

/-- the calculation kept is unique -/
theorem keptSince_unique {c : IceCfg K} {ops a a' : List (IceOp K)} (h : KeptSince c ops a) (h' : KeptSince c ops a') : a = a' := by
  obtain ⟨hn, ⟨d, hd⟩, o, b, hs, ho, hb⟩ := h
  obtain ⟨hn', ⟨d', hd'⟩, o', b', hs', ho', hb'⟩ := h'
  have key : ∀ {a a' b b' : List (IceOp K)} {o o' : IceOp K} {d : IceData K}, NothingKept c a' → calcAfter c a = .ok d →
      IsDataRead o → (∀ r ∈ b, ¬ IsReset r) → a ++ o :: b = a' ++ o' :: b' → a'.length ≤ a.length := by
    intro a a' b b' o o' d hn' hd ho hb hs
    by_contra hlt
    push Not at hlt
    rcases List.append_eq_append_iff.1 hs with ⟨m, h1, h2⟩ | ⟨m, h1, h2⟩
    · cases m with
      | nil => simp at h1; subst h1; omega
      | cons y m =>
        have hy : o = y := by simpa using (List.cons.inj h2).1
        subst hy
        have hb2 : b = m ++ o' :: b' := (List.cons.inj h2).2
        rcases hn' a o m h1 ho with ⟨r, hr, hr'⟩ | ⟨e, he⟩
        · exact hb r (by simp [hb2, hr]) hr'
        · rw [hd] at he; cases he
    · have := congrArg List.length h1
      simp at this; omega
  have hs2 : a ++ o :: b = a' ++ o' :: b' := hs.symm.trans hs'
  have h1 := key hn' hd ho hb hs2
  have h2 := key hn hd' ho' hb' hs2.symm
  exact (List.append_inj hs2 (by omega)).1

/-- **C80**, what actually holds, for every life of an ICE object: if a calculation is kept (there was a successful read since the
last reset), every read returns the arrays of that calculation - with the attributes in force at that first read; otherwise the read
calculates with the attributes now in force. The grid points are in both cases those of the grid size at the first read of the
whole life, and the sizes are those of the constructor. -/
theorem C80_exact (c : IceCfg K) (ops : List (IceOp K)) :
    (∀ a, KeptSince c ops a →
      (readX (iceRun (iceInit c) ops)).2 = (calcAfter c a).map IceData.x ∧
      (readY (iceRun (iceInit c) ops)).2 = (calcAfter c a).map IceData.y ∧
      (readV (iceRun (iceInit c) ops)).2 = (calcAfter c a).map IceData.v) ∧
    ((¬ ∃ a, KeptSince c ops a) →
      (readX (iceRun (iceInit c) ops)).2 = (calcAfter c ops).map IceData.x ∧
      (readY (iceRun (iceInit c) ops)).2 = (calcAfter c ops).map IceData.y ∧
      (readV (iceRun (iceInit c) ops)).2 = (calcAfter c ops).map IceData.v) ∧
    (readGrid (iceRun (iceInit c) ops)).2 = gridPoints c.selected.length (gridSize c ops) := by
  have h := after_run c ops
  refine ⟨?_, ?_, ?_⟩
  · intro a ha
    rcases h.kept with ⟨hn, _⟩ | ⟨a', d, hk, hd, hs⟩
    · exact absurd hn (not_kept_and_nothing ha)
    · rw [keptSince_unique ha hk, hd]
      obtain ⟨h1, h2, h3⟩ := reads_of_stored hs
      rw [h1, h2, h3]
      exact ⟨rfl, rfl, rfl⟩
  · intro hno
    rcases h.kept with ⟨_, hf⟩ | ⟨a', d, hk, _⟩
    · obtain ⟨h1, h2, h3⟩ := reads_of_fresh hf
      have hc : (iceCalculate (iceRun (iceInit c) ops)).2 = calcAfter c ops := by
        rw [← h.calcNow]
        cases hn : calcNow (iceRun (iceInit c) ops) with
        | ok d => exact ((iceCalculate_eq _).1 d hn).1
        | error e => exact ((iceCalculate_eq _).2 e hn).1
      rw [h1, h2, h3, hc]
      exact ⟨rfl, rfl, rfl⟩
    · exact absurd ⟨a', hk⟩ hno
  · unfold readGrid
    rcases h.grid with ⟨hn, hg⟩ | ⟨_, ⟨g, hok, hg⟩ | ⟨⟨e, he⟩, hg⟩⟩
    · rw [hg, h.cfg, attributes_selected, gridSize_unread c hn]
      dsimp only
      cases (gridPoints c.selected.length (attributes c ops).perAxis : Py (List (List K))) <;> rfl
    · rw [hg, hok]
    · rw [hg, h.cfg, attributes_selected, gridPoints_error he, he]

/-- after a reset nothing is kept: every read calculates anew -/
theorem C80_after_reset (c : IceCfg K) (ops : List (IceOp K)) :
    (readX (iceRun (iceInit c) (ops ++ [.reset]))).2 = (calcAfter c (ops ++ [.reset])).map IceData.x ∧
    (readY (iceRun (iceInit c) (ops ++ [.reset]))).2 = (calcAfter c (ops ++ [.reset])).map IceData.y ∧
    (readV (iceRun (iceInit c) (ops ++ [.reset]))).2 = (calcAfter c (ops ++ [.reset])).map IceData.v :=
  (C80_exact c (ops ++ [.reset])).2.1 fun ⟨_, h⟩ => not_kept_and_nothing h (nothingKept_reset c ops)

omit [Field K] in
theorem attributes_fixed (c : IceCfg K) (ops : List (IceOp K)) : (attributes c ops).space = c.space ∧
    (attributes c ops).numSamples = c.numSamples ∧ (attributes c ops).numGrid = c.numGrid := by
  induction ops using List.reverseRecOn with
  | nil => exact ⟨rfl, rfl, rfl⟩
  | append_singleton ops op ih => rw [attributes_snoc]; cases op <;> exact ih

/-- **C80**, partial, for every life of the object: after a reset the reads give exactly what an object newly built from the
attributes now in force gives - error for error - if the number of samples and the grid size are those of the constructor now, and
the grid size was so at the first read. Missing (false): other numbers of samples, other grid sizes. -/
theorem C80_life_partial {space : ConfigSpace K} {predict : Predict K} {sel : Selection K} {samples : List (List K)} {perAxis : Nat}
    {c c' : IceCfg K} (hc : algorithmInit space predict sel samples perAxis = .ok c) (ops : List (IceOp K))
    (hc' : algorithmInit space (attributes c ops).predict sel (attributes c ops).samples (attributes c ops).perAxis = .ok c')
    (hlen : (attributes c ops).samples.length = samples.length) (hper : (attributes c ops).perAxis = perAxis)
    (hgrid : gridSize c (ops ++ [.reset]) = perAxis) :
    (readX (iceRun (iceInit c) (ops ++ [.reset]))).2 = (readX (iceInit { c' with centered := (attributes c ops).centered })).2 ∧
    (readY (iceRun (iceInit c) (ops ++ [.reset]))).2 = (readY (iceInit { c' with centered := (attributes c ops).centered })).2 ∧
    (readV (iceRun (iceInit c) (ops ++ [.reset]))).2 = (readV (iceInit { c' with centered := (attributes c ops).centered })).2 := by
  obtain ⟨sl, hsl, hc⟩ := Py.bind_eq_ok.1 hc
  obtain rfl := Except.ok.inj hc
  obtain ⟨c, hcd⟩ : ∃ c : IceCfg K, c = ⟨space, sl, samples, samples.length, perAxis, perAxis ^ sl.length, false, predict⟩ := ⟨_, rfl⟩
  rw [← hcd] at hc' hlen hper hgrid ⊢
  obtain ⟨sl', hsl', hc'⟩ := Py.bind_eq_ok.1 hc'
  obtain rfl := Except.ok.inj hc'
  obtain rfl : sl' = sl := Except.ok.inj (hsl'.symm.trans hsl)
  obtain ⟨f1, f2, f3⟩ := attributes_fixed c ops
  have f4 := attributes_selected c ops
  have hnew : (⟨space, sl', (attributes c ops).samples, (attributes c ops).samples.length, (attributes c ops).perAxis,
      (attributes c ops).perAxis ^ sl'.length, (attributes c ops).centered, (attributes c ops).predict⟩ : IceCfg K) =
      attributes c ops := by
    obtain ⟨A, hA⟩ : ∃ A, A = attributes c ops := ⟨_, rfl⟩
    rw [← hA] at f1 f2 f3 f4 hlen hper ⊢
    subst hcd
    obtain ⟨a1, a2, a3, a4, a5, a6, a7, a8⟩ := A
    simp only at f1 f2 f3 f4 hlen hper ⊢
    subst f1 f2 f3 f4 hper
    rw [hlen]
  have hcalc : calcAfter c (ops ++ [.reset]) = calcAfter (attributes c ops) [] := by
    have hsel : (attributes c ops).selected = c.selected := f4
    unfold calcAfter
    rw [hgrid, attributes_snoc, hsel]
    have : gridSize (attributes c ops) [] = perAxis := hper
    rw [this]
    rfl
  have h1 := C80_after_reset c ops
  have h2 := (C80_exact (attributes c ops) []).2.1 (by
    rintro ⟨a, _, _, o, b, hs, _⟩
    simp at hs)
  simp only [hnew]
  rw [hcalc] at h1
  exact ⟨h1.1.trans h2.1.symm, h1.2.1.trans h2.2.1.symm, h1.2.2.trans h2.2.2.symm⟩

/-- a life of an object: reading `y_ice`, then switching `centered` on - the uncentered curves are kept (`KeptSince … []`); a reset
and the centered ones appear; a changed grid size stays without effect (`gridSize` is still 2) -/
example :
    KeptSince (exIce false) [.readY, .setCentered true] [] ∧
    (readY (iceRun (iceInit (exIce false)) [.readY, .setCentered true])).2 = .ok [[1/4, 9/4], [1/2, 5/2]] ∧
    (readY (iceRun (iceInit (exIce false)) ([.readY, .setCentered true, .setPerAxis 5] ++ [.reset]))).2 = .ok [[0, 2], [0, 2]] ∧
    gridSize (exIce false) ([.readY, .setCentered true, .setPerAxis 5] ++ [.reset]) = 2 := by
  have hcalc : calcAfter (exIce false) [] = .ok ⟨[[[1/4, 0], [1/4, 1]], [[1/2, 0], [1/2, 1]]], [[1/4, 9/4], [1/2, 5/2]],
      [[0, 1], [0, 1]]⟩ := by decide +kernel
  refine ⟨⟨?_, ⟨_, hcalc⟩, .readY, [.setCentered true], rfl, trivial, by simp [IsReset]⟩, ?_, ?_, ?_⟩
  · intro a o b h; simp at h
  all_goals decide +kernel

/-! ### C81 -/

theorem pdpRun_snoc (s : PdpState K) (ops : List (PdpOp K)) (op : PdpOp K) : pdpRun s (ops ++ [op]) = pdpStep (pdpRun s ops) op := by
  simp [pdpRun]

omit [Field K] in
theorem pdpIce_ok (s : PdpState K) : ∃ i, pdpIce s = .ok i := by
  cases h : s.ice with
  | some i => exact ⟨i, by simp [pdpIce, h]⟩
  | none => exact ⟨_, pdpIce_own h⟩

omit [Field K] in
/-- the read of a cached property of a PDP -/
theorem pdpCached_cases {α β : Type} (s : PdpState K) (cached : Option β) (read : IceState K → IceState K × Py α) (avg : α → Py β)
    (store : PdpState K → β → PdpState K) :
    (∃ b, cached = some b ∧ pdpCached s cached read avg store = (s, .ok b)) ∨
    (cached = none ∧ ∃ i, pdpIce s = .ok i ∧
      ((∃ e, ((read i).2 >>= avg) = .error e ∧ pdpCached s cached read avg store = ({ s with ice := some (read i).1 }, .error e)) ∨
       ∃ b, ((read i).2 >>= avg) = .ok b ∧
        pdpCached s cached read avg store = (store { s with ice := some (read i).1 } b, .ok b))) := by
  cases cached with
  | some b => exact Or.inl ⟨b, rfl, rfl⟩
  | none =>
    right
    obtain ⟨i, hi⟩ := pdpIce_ok s
    refine ⟨rfl, i, hi, ?_⟩
    unfold pdpCached
    simp only [hi]
    obtain ⟨⟨i', r⟩, hr⟩ : ∃ q, q = read i := ⟨_, rfl⟩
    rw [← hr]
    cases r with
    | error e => exact Or.inl ⟨e, rfl, rfl⟩
    | ok a =>
      simp only [Py.ok_bind]
      cases ha : avg a with
      | error e => exact Or.inl ⟨e, rfl, rfl⟩
      | ok b => exact Or.inr ⟨b, rfl, rfl⟩

/-- what one step does to the stored arrays of a PDP: only the read of an array itself can store it -/
theorem pdpStep_stored (s : PdpState K) (op : PdpOp K) :
    ((pdpStep s op).x = s.x ∨ op = .readX) ∧ ((pdpStep s op).y = s.y ∨ op = .readY) ∧ ((pdpStep s op).v = s.v ∨ op = .readV) := by
  cases op with
  | readX =>
    refine ⟨Or.inr rfl, Or.inl ?_, Or.inl ?_⟩ <;>
    · simp only [pdpStep, pdpReadX]
      rcases pdpCached_cases s s.x readX meanAxis0 (fun s b => { s with x := some b }) with
        ⟨b, _, h⟩ | ⟨_, i, _, ⟨e, _, h⟩ | ⟨b, _, h⟩⟩ <;> rw [h]
  | readY =>
    refine ⟨Or.inl ?_, Or.inr rfl, Or.inl ?_⟩ <;>
    · simp only [pdpStep, pdpReadY]
      rcases pdpCached_cases s s.y readY meanRows (fun s b => { s with y := some b }) with
        ⟨b, _, h⟩ | ⟨_, i, _, ⟨e, _, h⟩ | ⟨b, _, h⟩⟩ <;> rw [h]
  | readV =>
    refine ⟨Or.inl ?_, Or.inl ?_, Or.inr rfl⟩ <;>
    · simp only [pdpStep, pdpReadV]
      rcases pdpCached_cases s s.v readV meanRows (fun s b => { s with v := some b }) with
        ⟨b, _, h⟩ | ⟨_, i, _, ⟨e, _, h⟩ | ⟨b, _, h⟩⟩ <;> rw [h]
  | readGrid =>
    obtain ⟨i, hi⟩ := pdpIce_ok s
    simp [pdpStep, pdpGrid, hi]
  | onIce o =>
    obtain ⟨i, hi⟩ := pdpIce_ok s
    simp [pdpStep, hi]

/-- a property that is stored at its first successful read: `val s` is the stored value, `now s` what a read returns -/
theorem cached_history {α : Type} (readOp : PdpOp K) (val : PdpState K → Option α) (now : PdpState K → Py α)
    (fresh : PdpState K → Py α) (hnow : ∀ s, (∃ b, val s = some b ∧ now s = .ok b) ∨ (val s = none ∧ now s = fresh s))
    (hread : ∀ s b, now s = .ok b → val (pdpStep s readOp) = some b) (hfail : ∀ s e, now s = .error e → val (pdpStep s readOp) = none)
    (hother : ∀ s op, val (pdpStep s op) = val s ∨ op = readOp) (s : PdpState K) (hs : val s = none) (ops : List (PdpOp K)) :
    (∀ a b, ops = a ++ readOp :: b → ∀ x, now (pdpRun s a) = .ok x → now (pdpRun s ops) = .ok x) ∧
    ((∀ a b, ops = a ++ readOp :: b → ∃ e, now (pdpRun s a) = .error e) → now (pdpRun s ops) = fresh (pdpRun s ops)) := by
  have hval : ∀ t x, val t = some x → now t = .ok x := by
    intro t x h
    rcases hnow t with ⟨b, hb, hb'⟩ | ⟨hn, _⟩
    · rw [h] at hb; cases hb; exact hb'
    · rw [h] at hn; cases hn
  have hkeep : ∀ (l : List (PdpOp K)) t x, val t = some x → val (pdpRun t l) = some x := by
    intro l
    induction l with
    | nil => intro t x h; exact h
    | cons o l ih =>
      intro t x h
      refine ih (pdpStep t o) x ?_
      rcases hother t o with h' | rfl
      · rw [h', h]
      · exact hread t x (hval t x h)
  constructor
  · rintro a b rfl x hx
    have : pdpRun s (a ++ readOp :: b) = pdpRun (pdpStep (pdpRun s a) readOp) b := by simp [pdpRun]
    rw [this]
    exact hval _ _ (hkeep b _ x (hread _ x hx))
  · intro h
    have hnone : val (pdpRun s ops) = none := by
      induction ops using List.reverseRecOn with
      | nil => exact hs
      | append_singleton ops op ih =>
        rw [pdpRun_snoc]
        rcases hother (pdpRun s ops) op with h' | rfl
        · rw [h']
          exact ih fun a b hab => h a (b ++ [op]) (by simp [hab])
        · obtain ⟨e, he⟩ := h ops [] rfl
          exact hfail _ e he
    rcases hnow (pdpRun s ops) with ⟨b, hb, _⟩ | ⟨_, h⟩
    · rw [hnone] at hb; cases hb
    · exact h

/-- **C81**, what actually holds, for every history of a PDP and its ICE object: each of the three arrays is the mean of what the
ICE object gave when this array was first read successfully; the three moments may differ. -/
theorem C81_exact {s : PdpState K} (hs : PdpFresh s) (ops : List (PdpOp K)) :
    ((∀ a b, ops = a ++ .readX :: b → ∀ x, (pdpReadX (pdpRun s a)).2 = .ok x → (pdpReadX (pdpRun s ops)).2 = .ok x) ∧
     ((∀ a b, ops = a ++ .readX :: b → ∃ e, (pdpReadX (pdpRun s a)).2 = .error e) →
      (pdpReadX (pdpRun s ops)).2 = meanOfIce (pdpRun s ops) readX meanAxis0)) ∧
    ((∀ a b, ops = a ++ .readY :: b → ∀ y, (pdpReadY (pdpRun s a)).2 = .ok y → (pdpReadY (pdpRun s ops)).2 = .ok y) ∧
     ((∀ a b, ops = a ++ .readY :: b → ∃ e, (pdpReadY (pdpRun s a)).2 = .error e) →
      (pdpReadY (pdpRun s ops)).2 = meanOfIce (pdpRun s ops) readY meanRows)) ∧
    ((∀ a b, ops = a ++ .readV :: b → ∀ v, (pdpReadV (pdpRun s a)).2 = .ok v → (pdpReadV (pdpRun s ops)).2 = .ok v) ∧
     ((∀ a b, ops = a ++ .readV :: b → ∃ e, (pdpReadV (pdpRun s a)).2 = .error e) →
      (pdpReadV (pdpRun s ops)).2 = meanOfIce (pdpRun s ops) readV meanRows)) := by
  refine ⟨?_, ?_, ?_⟩
  · refine cached_history .readX PdpState.x (fun s => (pdpReadX s).2) (fun s => meanOfIce s readX meanAxis0) ?_ ?_ ?_
      (fun s op => (pdpStep_stored s op).1) s hs.1 ops
    all_goals intro t
    · rcases pdpCached_cases t t.x readX meanAxis0 (fun s b => { s with x := some b }) with
        ⟨b, hb, h⟩ | ⟨hn, i, hi, ⟨e, he, h⟩ | ⟨b, hb, h⟩⟩
      · exact Or.inl ⟨b, hb, by simp only [pdpReadX]; rw [h]⟩
      · exact Or.inr ⟨hn, by simp only [pdpReadX, meanOfIce]; rw [h, hi, Py.ok_bind, he]⟩
      · exact Or.inr ⟨hn, by simp only [pdpReadX, meanOfIce]; rw [h, hi, Py.ok_bind, hb]⟩
    · intro b' hb'
      simp only [pdpStep]
      simp only [pdpReadX] at hb' ⊢
      rcases pdpCached_cases t t.x readX meanAxis0 (fun s b => { s with x := some b }) with
        ⟨b, hb, h⟩ | ⟨hn, i, hi, ⟨e, he, h⟩ | ⟨b, hb, h⟩⟩ <;> rw [h] at hb' ⊢
      · rw [hb, Except.ok.inj hb']
      · cases hb'
      · rw [← Except.ok.inj hb']
    · intro e' he'
      simp only [pdpStep]
      simp only [pdpReadX] at he' ⊢
      rcases pdpCached_cases t t.x readX meanAxis0 (fun s b => { s with x := some b }) with
        ⟨b, hb, h⟩ | ⟨hn, i, hi, ⟨e, he, h⟩ | ⟨b, hb, h⟩⟩ <;> rw [h] at he' ⊢
      · cases he'
      · exact hn
      · cases he'
  · refine cached_history .readY PdpState.y (fun s => (pdpReadY s).2) (fun s => meanOfIce s readY meanRows) ?_ ?_ ?_
      (fun s op => (pdpStep_stored s op).2.1) s hs.2.1 ops
    all_goals intro t
    · rcases pdpCached_cases t t.y readY meanRows (fun s b => { s with y := some b }) with
        ⟨b, hb, h⟩ | ⟨hn, i, hi, ⟨e, he, h⟩ | ⟨b, hb, h⟩⟩
      · exact Or.inl ⟨b, hb, by simp only [pdpReadY]; rw [h]⟩
      · exact Or.inr ⟨hn, by simp only [pdpReadY, meanOfIce]; rw [h, hi, Py.ok_bind, he]⟩
      · exact Or.inr ⟨hn, by simp only [pdpReadY, meanOfIce]; rw [h, hi, Py.ok_bind, hb]⟩
    · intro b' hb'
      simp only [pdpStep]
      simp only [pdpReadY] at hb' ⊢
      rcases pdpCached_cases t t.y readY meanRows (fun s b => { s with y := some b }) with
        ⟨b, hb, h⟩ | ⟨hn, i, hi, ⟨e, he, h⟩ | ⟨b, hb, h⟩⟩ <;> rw [h] at hb' ⊢
      · rw [hb, Except.ok.inj hb']
      · cases hb'
      · rw [← Except.ok.inj hb']
    · intro e' he'
      simp only [pdpStep]
      simp only [pdpReadY] at he' ⊢
      rcases pdpCached_cases t t.y readY meanRows (fun s b => { s with y := some b }) with
        ⟨b, hb, h⟩ | ⟨hn, i, hi, ⟨e, he, h⟩ | ⟨b, hb, h⟩⟩ <;> rw [h] at he' ⊢
      · cases he'
      · exact hn
      · cases he'
  · refine cached_history .readV PdpState.v (fun s => (pdpReadV s).2) (fun s => meanOfIce s readV meanRows) ?_ ?_ ?_
      (fun s op => (pdpStep_stored s op).2.2) s hs.2.2 ops
    all_goals intro t
    · rcases pdpCached_cases t t.v readV meanRows (fun s b => { s with v := some b }) with
        ⟨b, hb, h⟩ | ⟨hn, i, hi, ⟨e, he, h⟩ | ⟨b, hb, h⟩⟩
      · exact Or.inl ⟨b, hb, by simp only [pdpReadV]; rw [h]⟩
      · exact Or.inr ⟨hn, by simp only [pdpReadV, meanOfIce]; rw [h, hi, Py.ok_bind, he]⟩
      · exact Or.inr ⟨hn, by simp only [pdpReadV, meanOfIce]; rw [h, hi, Py.ok_bind, hb]⟩
    · intro b' hb'
      simp only [pdpStep]
      simp only [pdpReadV] at hb' ⊢
      rcases pdpCached_cases t t.v readV meanRows (fun s b => { s with v := some b }) with
        ⟨b, hb, h⟩ | ⟨hn, i, hi, ⟨e, he, h⟩ | ⟨b, hb, h⟩⟩ <;> rw [h] at hb' ⊢
      · rw [hb, Except.ok.inj hb']
      · cases hb'
      · rw [← Except.ok.inj hb']
    · intro e' he'
      simp only [pdpStep]
      simp only [pdpReadV] at he' ⊢
      rcases pdpCached_cases t t.v readV meanRows (fun s b => { s with v := some b }) with
        ⟨b, hb, h⟩ | ⟨hn, i, hi, ⟨e, he, h⟩ | ⟨b, hb, h⟩⟩ <;> rw [h] at he' ⊢
      · cases he'
      · exact hn
      · cases he'

/-- **C81** the ICE object of a PDP has a history of its own: what was done to it directly and the reads of the PDP, in this order -/
theorem C81_ice_history {s : PdpState K} {i : IceState K} (hi : pdpIce s = .ok i) (ops : List (PdpOp K)) :
    ∃ iops, List.Forall₂ Induces ops iops ∧ pdpIce (pdpRun s ops) = .ok (iceRun i iops.flatten) := by
  induction ops generalizing s i with
  | nil => exact ⟨[], .nil, hi⟩
  | cons op ops ih =>
    have hstep : ∃ l, Induces op l ∧ pdpIce (pdpStep s op) = .ok (iceRun i l) := by
      cases op with
      | readX =>
        rcases pdpCached_cases s s.x PyPDP.readX meanAxis0 (fun s b => { s with x := some b }) with
          ⟨b, hb, h⟩ | ⟨hn, j, hj, ⟨e, he, h⟩ | ⟨b, hb, h⟩⟩
        · exact ⟨[], .readX_stored, by simp only [pdpStep, pdpReadX]; rw [h]; exact hi⟩
        · obtain rfl := Except.ok.inj (hi.symm.trans hj)
          exact ⟨_, .readX, by simp only [pdpStep, pdpReadX]; rw [h]; rfl⟩
        · obtain rfl := Except.ok.inj (hi.symm.trans hj)
          exact ⟨_, .readX, by simp only [pdpStep, pdpReadX]; rw [h]; rfl⟩
      | readY =>
        rcases pdpCached_cases s s.y PyPDP.readY meanRows (fun s b => { s with y := some b }) with
          ⟨b, hb, h⟩ | ⟨hn, j, hj, ⟨e, he, h⟩ | ⟨b, hb, h⟩⟩
        · exact ⟨[], .readY_stored, by simp only [pdpStep, pdpReadY]; rw [h]; exact hi⟩
        · obtain rfl := Except.ok.inj (hi.symm.trans hj)
          exact ⟨_, .readY, by simp only [pdpStep, pdpReadY]; rw [h]; rfl⟩
        · obtain rfl := Except.ok.inj (hi.symm.trans hj)
          exact ⟨_, .readY, by simp only [pdpStep, pdpReadY]; rw [h]; rfl⟩
      | readV =>
        rcases pdpCached_cases s s.v PyPDP.readV meanRows (fun s b => { s with v := some b }) with
          ⟨b, hb, h⟩ | ⟨hn, j, hj, ⟨e, he, h⟩ | ⟨b, hb, h⟩⟩
        · exact ⟨[], .readV_stored, by simp only [pdpStep, pdpReadV]; rw [h]; exact hi⟩
        · obtain rfl := Except.ok.inj (hi.symm.trans hj)
          exact ⟨_, .readV, by simp only [pdpStep, pdpReadV]; rw [h]; rfl⟩
        · obtain rfl := Except.ok.inj (hi.symm.trans hj)
          exact ⟨_, .readV, by simp only [pdpStep, pdpReadV]; rw [h]; rfl⟩
      | readGrid => exact ⟨_, .readGrid, by simp only [pdpStep, pdpGrid, hi]; rfl⟩
      | onIce o => exact ⟨_, .onIce o, by simp only [pdpStep, hi]; rfl⟩
    obtain ⟨l, hl, hi'⟩ := hstep
    obtain ⟨iops, hf, hr⟩ := ih hi'
    exact ⟨l :: iops, .cons hl hf, by rw [List.flatten_cons]; simpa [pdpRun, iceRun] using hr⟩

end PyPDP
