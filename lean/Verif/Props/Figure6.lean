/-
C113: `figure_6_drawing` of examples/main_paper.py.
-/
import Verif.Props.Tables

namespace PyPDP
open Spec
set_option linter.unusedSectionVars false

section figure
variable {K : Type} [Field K] [LinearOrder K] [IsStrictOrderedRing K]

/-- the columns that can be drawn -/
def valueColumns : List String := ["mmd", "base_mc", "base_nll", "mc", "nll"]

/-- the position of a column -/
def columnAt (name : String) : Nat :=
  if name = "mmd" then 4 else if name = "base_mc" then 5 else if name = "base_nll" then 6 else if name = "mc" then 7 else 8

/-- the panel of one `tau`, given the groups -/
def panelOf (parsed : List ((Int × K) × List (List (Entry K)))) (columns : List String) (t : K) : Py (BoxPanel K) := do
  axesColumn columns.length (sortedSet (parsed.map (·.1.2))).length
  let data ← (sortedSet (parsed.map (·.1.1))).mapM fun d => rowsFor (d, t) parsed
  let boxes ← (columns.map columnAt).mapM fun j => data.mapM (numbersOf j)
  return ⟨t, boxes⟩

/-- the figure, given the groups -/
def figureLoop (parsed : List ((Int × K) × List (List (Entry K)))) (columns : List String) : Py (List Int × List (BoxPanel K)) :=
  if columns.length = 0 ∨ (sortedSet (parsed.map (·.1.2))).length = 0 then .error .value
  else do
    let panels ← (sortedSet (parsed.map (·.1.2))).mapM (panelOf parsed columns)
    return (sortedSet (parsed.map (·.1.1)), panels)

theorem columnAt_value {rows : List (List (Entry K))} {c : String} (hc : c ∈ valueColumns) :
    (⟨paperNames, rows⟩ : Frame K).column .value c = .ok (columnAt c) := by
  have h : paperNames.findIdx? (· == c) = some (columnAt c) := by
    simp only [valueColumns, List.mem_cons, List.not_mem_nil, or_false] at hc
    rcases hc with rfl | rfl | rfl | rfl | rfl <;> decide
  unfold Frame.column
  dsimp only
  rw [h]

theorem figure6_eq {file : List (List (Cell K))} {rows : List (List (Entry K))} (h : readCsv file = .ok ⟨paperNames, rows⟩) {columns : List String}
    (hc : ∀ c ∈ columns, c ∈ valueColumns) :
    figure6 file columns = (do
      let parsed ← parseGroups parseKey2 ((⟨paperNames, rows⟩ : Frame K).groups [1, 2])
      figureLoop parsed columns) := by
  have c : ∀ (e : PyErr) (n : String) (j : Nat), paperNames.findIdx? (· == n) = some j → (⟨paperNames, rows⟩ : Frame K).column e n = .ok j := by
    intro e n j hj
    unfold Frame.column
    dsimp only
    rw [hj]
  unfold figure6
  rw [h, Py.ok_bind, c .key "dimension" 1 (by decide), Py.ok_bind, c .key "tau" 2 (by decide), Py.ok_bind,
    mapM_all (f := (⟨paperNames, rows⟩ : Frame K).column .value) (g := columnAt) fun n hn => columnAt_value (hc n hn)]
  rfl

/-- the groups of a file with one header -/
theorem figure_groups {lines : List (PaperLine K)} (h : ∀ l ∈ lines, IsNumber l.tau) :
    ∃ k P, readCsv (paperLog lines) = .ok ⟨paperNames, lines.map (PaperLine.entries k)⟩ ∧
      parseGroups parseKey2 ((⟨paperNames, lines.map (PaperLine.entries k)⟩ : Frame K).groups [1, 2]) = .ok P ∧
      (∀ d t, (d, t) ∈ P.map (·.1) ↔ ∃ l ∈ lines, l.dimension = d ∧ cellValue l.tau = t) ∧
      ∀ d t, ((d, t) ∉ P.map (·.1) → rowsFor (d, t) P = .error .key) ∧
        ((d, t) ∈ P.map (·.1) → rowsFor (d, t) P = .ok ((linesFor lines d t).map (PaperLine.entries k))) := by
  obtain ⟨k, hk⟩ : ∃ k, k = kindOf (lines.map PaperLine.tau) := ⟨_, rfl⟩
  obtain ⟨h1, h2⟩ := tau_entries h k hk
  obtain ⟨P, p1, p2, p3⟩ := parseGroups_items lines (PaperLine.entries k) (fun l => [.int l.dimension, l.tau.entry k])
    (fun l => (l.dimension, cellValue l.tau)) parseKey2 paperNames [1, 2] (fun l _ => rfl) (fun l hl _ => by
      unfold parseKey2
      dsimp only
      rw [(h1 l hl).1]
      rfl)
  have hm : ∀ l ∈ lines, ([.int l.dimension, l.tau.entry k] : List (Entry K)).any Entry.mentionsDimension = false := by
    intro l hl
    have e : ∀ n : Int, (Entry.int n : Entry K).mentionsDimension = false := fun _ => rfl
    simp only [List.any_cons, List.any_nil, (h1 l hl).2, e, Bool.or_false]
  refine ⟨k, P, by rw [hk]; exact readCsv_paper lines, p1, ?_, ?_⟩
  · intro d t
    rw [p2]
    constructor
    · rintro ⟨l, hl, -, e⟩
      simp only [Prod.mk.injEq] at e
      exact ⟨l, hl, e⟩
    · rintro ⟨l, hl, rfl, rfl⟩
      exact ⟨l, hl, hm l hl, rfl⟩
  · intro d t
    refine ⟨(p3 (d, t)).1, fun hx => ?_⟩
    obtain ⟨i, hi, -, e, hr⟩ := (p3 (d, t)).2 hx
    rw [hr]
    simp only [Prod.mk.injEq] at e
    obtain ⟨rfl, rfl⟩ := e
    congr 2
    unfold linesFor
    apply List.filter_congr
    intro l hl
    rw [decide_eq_decide]
    simp only [List.cons.injEq, Entry.int.injEq, and_true, h2 l hl i hi]

theorem pairKeys_spec {lines : List (PaperLine K)} {P : List ((Int × K) × List (List (Entry K)))}
    (hP : ∀ d t, (d, t) ∈ P.map (·.1) ↔ ∃ l ∈ lines, l.dimension = d ∧ cellValue l.tau = t) :
    SortedValues (· < ·) PaperLine.dimension lines (sortedSet (P.map (·.1.1))) ∧
      SortedValues (· < ·) (fun l => cellValue l.tau) lines (sortedSet (P.map (·.1.2))) := by
  have hex : ∀ p ∈ P, ∃ l ∈ lines, l.dimension = p.1.1 ∧ cellValue l.tau = p.1.2 := fun p hp =>
    (hP p.1.1 p.1.2).1 (List.mem_map.2 ⟨p, hp, rfl⟩)
  have hin : ∀ l ∈ lines, ∃ p ∈ P, p.1 = (l.dimension, cellValue l.tau) := fun l hl => List.mem_map.1 ((hP _ _).2 ⟨l, hl, rfl, rfl⟩)
  refine ⟨⟨(sortedSet_spec _).1, fun x => ?_⟩, ⟨(sortedSet_spec _).1, fun x => ?_⟩⟩
  · rw [(sortedSet_spec _).2, List.mem_map]
    constructor
    · rintro ⟨p, hp, rfl⟩
      obtain ⟨l, hl, h, -⟩ := hex p hp
      exact ⟨l, hl, h⟩
    · rintro ⟨l, hl, rfl⟩
      obtain ⟨p, hp, e⟩ := hin l hl
      exact ⟨p, hp, by rw [e]⟩
  · rw [(sortedSet_spec _).2, List.mem_map]
    constructor
    · rintro ⟨p, hp, rfl⟩
      obtain ⟨l, hl, -, h⟩ := hex p hp
      exact ⟨l, hl, h⟩
    · rintro ⟨l, hl, rfl⟩
      obtain ⟨p, hp, e⟩ := hin l hl
      exact ⟨p, hp, by rw [e]⟩

theorem column_number (k : ColKind) {c : String} (hc : c ∈ valueColumns) (l : PaperLine K) :
    ((l.entries k).getD (columnAt c) .nan).number = .ok (lineValue c l) := by
  simp only [valueColumns, List.mem_cons, List.not_mem_nil, or_false] at hc
  rcases hc with rfl | rfl | rfl | rfl | rfl
  · exact optEntry_number l.mmd
  all_goals rfl

/-- two different values in a list without repetitions -/
theorem two_values {α : Type} {l : List α} {a b : α} (ha : a ∈ l) (hb : b ∈ l) (h : a ≠ b) : 2 ≤ l.length := by
  match l, ha, hb with
  | [], ha, _ => simp at ha
  | [x], ha, hb => simp at ha hb; exact absurd (ha.trans hb.symm) h
  | _ :: _ :: _, _, _ => simp

/-- **C113** `figure_6_drawing` on the log of one run with at least two values of `tau` and for at least two columns: one panel for each `tau`, in
increasing order, in it for each column and each dimension, in increasing order, a box with the values of that column in exactly the lines of that
dimension and `tau`. -/
theorem C113_figure {lines : List (PaperLine K)} (h : ∀ l ∈ lines, IsNumber l.tau) (hfull : CompletePairs lines) {columns : List String}
    (hc : ∀ c ∈ columns, c ∈ valueColumns) (h2 : 2 ≤ columns.length) (ht : ∃ a ∈ lines, ∃ b ∈ lines, cellValue a.tau ≠ cellValue b.tau) :
    ∃ (dims : List Int) (taus : List K) (panels : List (BoxPanel K)), figure6 (paperLog lines) columns = .ok (dims, panels) ∧
      SortedValues (· < ·) PaperLine.dimension lines dims ∧ SortedValues (· < ·) (fun l => cellValue l.tau) lines taus ∧
      panels.map BoxPanel.tau = taus ∧
      ∀ p ∈ panels, p.boxes = columns.map fun c => dims.map fun d => (linesFor lines d p.tau).map (lineValue c) := by
  obtain ⟨k, P, hread, hparse, hP, hrows⟩ := figure_groups h
  obtain ⟨k1, k2⟩ := pairKeys_spec hP
  obtain ⟨dims, hd⟩ : ∃ dims, dims = sortedSet (P.map (·.1.1)) := ⟨_, rfl⟩
  obtain ⟨taus, hta⟩ : ∃ taus, taus = sortedSet (P.map (·.1.2)) := ⟨_, rfl⟩
  obtain ⟨a, ha, b, hb, hab⟩ := ht
  rw [← hd] at k1
  rw [← hta] at k2
  have hlen : 2 ≤ taus.length := two_values ((k2.2 _).2 ⟨a, ha, rfl⟩) ((k2.2 _).2 ⟨b, hb, rfl⟩) hab
  refine ⟨dims, taus, taus.map fun t => ⟨t, columns.map fun c => dims.map fun d => (linesFor lines d t).map (lineValue c)⟩, ?_, k1, k2, ?_, ?_⟩
  · rw [figure6_eq hread hc, hparse, Py.ok_bind]
    unfold figureLoop
    rw [← hta, if_neg (by omega)]
    rw [mapM_all (g := fun t => (⟨t, columns.map fun c => dims.map fun d => (linesFor lines d t).map (lineValue c)⟩ : BoxPanel K))]
    · rw [← hd]
      rfl
    · intro t ht
      unfold panelOf
      rw [← hd, ← hta]
      have hax : axesColumn columns.length taus.length = .ok () := by
        unfold axesColumn
        rw [if_pos ⟨h2, hlen⟩]
      obtain ⟨b, hb, rfl⟩ := (k2.2 t).1 ht
      rw [hax, Py.ok_bind, mapM_all (g := fun d => (linesFor lines d (cellValue b.tau)).map (PaperLine.entries k)), Py.ok_bind, mapM_map,
        mapM_all (g := fun c => dims.map fun d => (linesFor lines d (cellValue b.tau)).map (lineValue c))]
      · rfl
      · intro c hc'
        rw [mapM_map]
        exact mapM_all fun d _ => numbersOf_map fun l _ => column_number k (hc c hc') l
      · intro d hd'
        obtain ⟨a, ha, rfl⟩ := (k1.2 d).1 hd'
        exact (hrows _ _).2 ((hP _ _).2 (hfull a ha b hb))
  · rw [List.map_map]
    exact List.map_id _
  · intro p hp
    obtain ⟨t, -, rfl⟩ := List.mem_map.1 hp
    rfl

/-- what happens for the first `tau` decides, if it is an error -/
theorem figureLoop_first {P : List ((Int × K) × List (List (Entry K)))} {columns : List String} (hc : columns ≠ []) {e : PyErr}
    (hne : sortedSet (P.map (·.1.2)) ≠ []) (h : ∀ t ∈ sortedSet (P.map (·.1.2)), panelOf P columns t = .error e) : figureLoop P columns = .error e := by
  unfold figureLoop
  rw [if_neg]
  · obtain ⟨t, ts, ht⟩ := List.exists_cons_of_ne_nil hne
    rw [mapM_fails (e := e) (fun t ht => .inr (h t ht)) ⟨t, by rw [ht]; simp, h t (by rw [ht]; simp)⟩]
    rfl
  · rintro (h0 | h0)
    · exact hc (List.length_eq_zero_iff.1 h0)
    · exact hne (List.length_eq_zero_iff.1 h0)

/-- **C113** With a single column, or if only one value of `tau` occurs, the array of axes has no second dimension: IndexError (TypeError if both). -/
theorem C113_single {lines : List (PaperLine K)} (hl : lines ≠ []) (h : ∀ l ∈ lines, IsNumber l.tau) {columns : List String}
    (hc : ∀ c ∈ columns, c ∈ valueColumns) (h0 : columns ≠ []) (h1 : columns.length = 1 ∨ ∀ a ∈ lines, ∀ b ∈ lines, cellValue a.tau = cellValue b.tau) :
    figure6 (paperLog lines) columns =
      .error (if columns.length = 1 ∧ (∀ a ∈ lines, ∀ b ∈ lines, cellValue a.tau = cellValue b.tau) then .type else .index) := by
  classical
  obtain ⟨k, P, hread, hparse, hP, -⟩ := figure_groups h
  obtain ⟨k1, k2⟩ := pairKeys_spec hP
  obtain ⟨l, hl'⟩ := List.exists_mem_of_ne_nil _ hl
  have hne : sortedSet (P.map (·.1.2)) ≠ [] := List.ne_nil_of_mem ((k2.2 _).2 ⟨l, hl', rfl⟩)
  have hone : (sortedSet (P.map (·.1.2))).length = 1 ↔ ∀ a ∈ lines, ∀ b ∈ lines, cellValue a.tau = cellValue b.tau := by
    constructor
    · intro h a ha b hb
      by_contra hab
      have := two_values ((k2.2 _).2 ⟨a, ha, rfl⟩) ((k2.2 _).2 ⟨b, hb, rfl⟩) hab
      omega
    · intro h
      match hs : sortedSet (P.map (·.1.2)) with
      | [] => exact absurd hs hne
      | [_] => simp [hs]
      | x :: y :: rest =>
        rw [hs] at k2
        obtain ⟨a, ha, e1⟩ := (k2.2 x).1 (by simp)
        obtain ⟨b, hb, e2⟩ := (k2.2 y).1 (by simp)
        have h' := (List.pairwise_cons.1 k2.1).1 y (by simp)
        dsimp only at e1 e2
        rw [← e1, ← e2, h a ha b hb] at h'
        exact absurd h' (lt_irrefl _)
  rw [figure6_eq hread hc, hparse, Py.ok_bind]
  refine figureLoop_first h0 hne fun t _ => ?_
  have hax : axesColumn columns.length (sortedSet (P.map (·.1.2))).length =
      .error (if columns.length = 1 ∧ (∀ a ∈ lines, ∀ b ∈ lines, cellValue a.tau = cellValue b.tau) then .type else .index) := by
    unfold axesColumn
    rw [← hone] at h1
    rw [if_neg (by omega)]
    by_cases hb : columns.length = 1 ∧ (sortedSet (P.map (·.1.2))).length = 1
    · rw [if_pos hb, if_pos ⟨hb.1, hone.1 hb.2⟩]
    · rw [if_neg hb, if_neg fun hx => hb ⟨hx.1, hone.2 hx.2⟩]
  unfold panelOf
  rw [hax]
  rfl

/-- **C113** If a combination of a dimension and a `tau` that occur is missing: a KeyError. -/
theorem C113_missing {lines : List (PaperLine K)} (h : ∀ l ∈ lines, IsNumber l.tau) (hfull : ¬ CompletePairs lines) {columns : List String}
    (hc : ∀ c ∈ columns, c ∈ valueColumns) (h2 : 2 ≤ columns.length) (ht : ∃ a ∈ lines, ∃ b ∈ lines, cellValue a.tau ≠ cellValue b.tau) :
    figure6 (paperLog lines) columns = .error .key := by
  obtain ⟨k, P, hread, hparse, hP, hrows⟩ := figure_groups h
  obtain ⟨k1, k2⟩ := pairKeys_spec hP
  obtain ⟨a, ha, b, hb, hab⟩ := ht
  have hlen : 2 ≤ (sortedSet (P.map (·.1.2))).length := two_values ((k2.2 _).2 ⟨a, ha, rfl⟩) ((k2.2 _).2 ⟨b, hb, rfl⟩) hab
  have hax : axesColumn columns.length (sortedSet (P.map (·.1.2))).length = .ok () := by
    unfold axesColumn
    rw [if_pos ⟨h2, hlen⟩]
  unfold CompletePairs at hfull
  push Not at hfull
  obtain ⟨a, ha, b, hb, hno⟩ := hfull
  rw [figure6_eq hread hc, hparse, Py.ok_bind]
  unfold figureLoop
  rw [if_neg (by omega), mapM_fails (e := .key)]
  · rfl
  · intro t _
    by_cases hx : ∃ d ∈ sortedSet (P.map (·.1.1)), rowsFor (d, t) P = .error .key
    · refine .inr ?_
      unfold panelOf
      rw [hax, Py.ok_bind, mapM_fails (e := .key) ?_ hx]
      · rfl
      · intro d _
        by_cases hm : (d, t) ∈ P.map (·.1)
        · exact .inl ⟨_, (hrows d t).2 hm⟩
        · exact .inr ((hrows d t).1 hm)
    · push Not at hx
      refine .inl ⟨⟨t, columns.map fun c => (sortedSet (P.map (·.1.1))).map fun d => (linesFor lines d t).map (lineValue c)⟩, ?_⟩
      unfold panelOf
      rw [hax, Py.ok_bind, mapM_all (g := fun d => (linesFor lines d t).map (PaperLine.entries k)), Py.ok_bind, mapM_map,
        mapM_all (g := fun c => (sortedSet (P.map (·.1.1))).map fun d => (linesFor lines d t).map (lineValue c))]
      · rfl
      · intro c hc'
        rw [mapM_map]
        exact mapM_all fun d _ => numbersOf_map fun l _ => column_number k (hc c hc') l
      · intro d hd
        by_cases hm : (d, t) ∈ P.map (·.1)
        · exact (hrows d t).2 hm
        · exact absurd ((hrows d t).1 hm) (hx d hd)
  · refine ⟨cellValue b.tau, (k2.2 _).2 ⟨b, hb, rfl⟩, ?_⟩
    unfold panelOf
    rw [hax, Py.ok_bind, mapM_fails (e := .key)]
    · rfl
    · intro d _
      by_cases hm : (d, cellValue b.tau) ∈ P.map (·.1)
      · exact .inl ⟨_, (hrows _ _).2 hm⟩
      · exact .inr ((hrows _ _).1 hm)
    · refine ⟨a.dimension, (k1.2 _).2 ⟨a, ha, rfl⟩, (hrows _ _).1 fun hx => ?_⟩
      obtain ⟨l, hl, e1, e2⟩ := (hP _ _).1 hx
      exact hno l hl e1 e2

/-- the groups of a file with several headers -/
theorem figure_groups_again {items : List (Option (PaperLine K))} (h : ∀ l, some l ∈ items → IsNumber l.tau) :
    ∃ P, parseGroups parseKey2 ((⟨paperNames, items.map textsOf⟩ : Frame K).groups [1, 2]) = .ok P ∧
      (∀ d t, (d, t) ∈ P.map (·.1) ↔ ∃ l, some l ∈ items ∧ l.dimension = d ∧ cellValue l.tau = t) ∧
      ∀ d t, ((d, t) ∉ P.map (·.1) → rowsFor (d, t) P = .error .key) ∧
        ((d, t) ∈ P.map (·.1) → ∃ l rest, rowsFor (d, t) P = .ok rest ∧ PaperLine.texts l ∈ rest) := by
  have hobj : ∀ l, some l ∈ items → l.tau.entry .object = .str l.tau := by
    intro l hl
    obtain ⟨t, ⟨n, hn, -⟩ | ht⟩ := h l hl
    · rw [hn]; rfl
    · rw [ht]; rfl
  have hval : ∀ l, some l ∈ items → (Entry.str l.tau).toFloat = .ok (cellValue l.tau) ∧ (Entry.str l.tau).mentionsDimension = false := by
    intro l hl
    obtain ⟨t, ⟨n, hn, -⟩ | ht⟩ := h l hl
    · rw [hn]; exact ⟨rfl, rfl⟩
    · rw [ht]; exact ⟨rfl, rfl⟩
  have hnone : ([.str (.text "dimension"), .str (.text "tau")] : List (Entry K)).any Entry.mentionsDimension = true := by
    have : (Entry.str (.text "dimension") : Entry K).mentionsDimension = true := by
      unfold Entry.mentionsDimension
      exact decide_eq_true (List.infix_refl _)
    rw [List.any_cons, this, Bool.true_or]
  have hm : ∀ l, some l ∈ items → ([.str (.int l.dimension), .str l.tau] : List (Entry K)).any Entry.mentionsDimension = false := by
    intro l hl
    have e : ∀ n : Int, (Entry.str (.int n) : Entry K).mentionsDimension = false := fun _ => rfl
    simp only [List.any_cons, List.any_nil, (hval l hl).2, e, Bool.or_false]
  obtain ⟨P, p1, p2, p3⟩ := parseGroups_items items textsOf
    (fun i => match i with
      | some l => [.str (.int l.dimension), .str l.tau]
      | none => [.str (.text "dimension"), .str (.text "tau")])
    (fun i => match i with
      | some l => (l.dimension, cellValue l.tau)
      | none => (0, 0)) parseKey2 paperNames [1, 2]
    (fun i hi => by
      cases i with
      | none => rfl
      | some l =>
        have : ([1, 2].map fun j => (textsOf (some l)).getD j .nan) = [.str (.int l.dimension), l.tau.entry .object] := rfl
        rw [this, hobj l hi])
    (fun i hi hs => by
      cases i with
      | none => dsimp only at hs; rw [hnone] at hs; cases hs
      | some l =>
        dsimp only
        unfold parseKey2
        dsimp only
        rw [(hval l hi).1]
        rfl)
  refine ⟨P, p1, ?_, ?_⟩
  · intro d t
    rw [p2]
    constructor
    · rintro ⟨i, hi, hs, e⟩
      cases i with
      | none => dsimp only at hs; rw [hnone] at hs; cases hs
      | some l =>
        simp only [Prod.mk.injEq] at e
        exact ⟨l, hi, e⟩
    · rintro ⟨l, hl, rfl, rfl⟩
      exact ⟨some l, hl, hm l hl, rfl⟩
  · intro d t
    refine ⟨(p3 (d, t)).1, fun hx => ?_⟩
    obtain ⟨i, hi, hs, -, hr⟩ := (p3 (d, t)).2 hx
    cases i with
    | none => dsimp only at hs; rw [hnone] at hs; cases hs
    | some l =>
      refine ⟨l, _, hr, ?_⟩
      exact List.mem_map.2 ⟨some l, List.mem_filter.2 ⟨hi, by simp⟩, rfl⟩

/-- **C113** If two or more runs have written to the file, there is no figure for any columns that are not all the discrepancy; a TypeError, if nothing
else is wrong. -/
theorem C113_appended {runs : List (List (PaperLine K))} (h2 : 2 ≤ runs.length) (h : ∀ l ∈ runs.flatten, IsNumber l.tau) {columns : List String}
    (hc : ∀ c ∈ columns, c ∈ valueColumns) (hmc : ∃ c ∈ columns, c ≠ "mmd") :
    (∀ out, figure6 (runs.flatMap paperLog) columns ≠ .ok out) ∧
      (CompletePairs runs.flatten → 2 ≤ columns.length → (∃ a ∈ runs.flatten, ∃ b ∈ runs.flatten, cellValue a.tau ≠ cellValue b.tau) →
        figure6 (runs.flatMap paperLog) columns = .error .type) := by
  obtain ⟨items, hf, hn, hmem⟩ := runs_file h2
  obtain ⟨P, hparse, hP, hrows⟩ := figure_groups_again (items := items) fun l hl => h l ((hmem l).1 hl)
  have hP' : ∀ d t, (d, t) ∈ P.map (·.1) ↔ ∃ l ∈ runs.flatten, l.dimension = d ∧ cellValue l.tau = t := by
    intro d t
    rw [hP]
    simp only [hmem]
  obtain ⟨k1, k2⟩ := pairKeys_spec hP'
  rw [hf, figure6_eq (readCsv_paper_again hn) hc, hparse, Py.ok_bind]
  have hne : columns ≠ [] := by
    obtain ⟨c, hc, -⟩ := hmc
    exact List.ne_nil_of_mem hc
  -- a list of rows with a line in it has no numbers
  have hbox : ∀ rest : List (List (Entry K)), ∀ l, PaperLine.texts l ∈ rest → ∀ c ∈ columns, c ≠ "mmd" → numbersOf (columnAt c) rest = .error .type := by
    intro rest l hl c hc' hcm
    have := hc c hc'
    simp only [valueColumns, List.mem_cons, List.not_mem_nil, or_false] at this
    refine numbersOf_fails ⟨_, hl, ?_⟩
    rcases this with rfl | rfl | rfl | rfl | rfl
    · exact absurd rfl hcm
    all_goals exact ⟨_, rfl⟩
  have hboxes : ∀ t, ∀ data : List (List (List (Entry K))), (∃ rest ∈ data, ∃ l, PaperLine.texts l ∈ rest) →
      ((columns.map columnAt).mapM fun j => data.mapM (numbersOf j)) >>= (fun boxes => pure (⟨t, boxes⟩ : BoxPanel K)) = (.error .type : Py _) := by
    rintro t data ⟨rest, hr, l, hl⟩
    rw [mapM_fails (e := .type)]
    · rfl
    · intro j _
      by_cases hx : ∃ rows ∈ data, numbersOf j rows = .error .type
      · exact .inr (mapM_fails (fun rows _ => numbersOf_or rows j) hx)
      · refine .inl ?_
        have : ∀ rows ∈ data, ∃ v, numbersOf j rows = .ok v := fun rows hrows => (numbersOf_or rows j).resolve_right fun e => hx ⟨rows, hrows, e⟩
        choose! g hg using this
        exact ⟨_, mapM_all hg⟩
    · obtain ⟨c, hc', hcm⟩ := hmc
      exact ⟨columnAt c, List.mem_map.2 ⟨c, hc', rfl⟩, mapM_fails (fun rows _ => numbersOf_or rows _) ⟨rest, hr, hbox rest l hl c hc' hcm⟩⟩
  refine ⟨fun out => ?_, fun hfull hlen htwo => ?_⟩
  · unfold figureLoop
    by_cases h0 : columns.length = 0 ∨ (sortedSet (P.map (·.1.2))).length = 0
    · rw [if_pos h0]; simp
    · rw [if_neg h0]
      push Not at h0
      intro hok
      obtain ⟨panels, hp, -⟩ := Py.bind_eq_ok.1 hok
      rw [Py.mapM_eq_ok] at hp
      obtain ⟨t, ts, hts⟩ := List.exists_cons_of_ne_nil (l := sortedSet (P.map (·.1.2))) fun e => h0.2 (by rw [e]; rfl)
      have ht : t ∈ sortedSet (P.map (·.1.2)) := by rw [hts]; simp
      obtain ⟨b, hb, -⟩ := (k2.2 t).1 ht
      rw [hts] at hp
      obtain ⟨p, ps, hpp, -, -⟩ := List.forall₂_cons_left_iff.1 hp
      unfold panelOf at hpp
      obtain ⟨_, -, hpp⟩ := Py.bind_eq_ok.1 hpp
      obtain ⟨data, hdata, hpp⟩ := Py.bind_eq_ok.1 hpp
      rw [hboxes t data] at hpp
      · cases hpp
      · rw [Py.mapM_eq_ok] at hdata
        have hb' : b.dimension ∈ sortedSet (P.map (·.1.1)) := (k1.2 _).2 ⟨b, hb, rfl⟩
        obtain ⟨rest, hrest, he⟩ : ∃ rest ∈ data, rowsFor (b.dimension, t) P = .ok rest := by
          revert hb' hdata
          generalize sortedSet (P.map (·.1.1)) = dims
          intro hdata hb'
          clear hpp
          induction hdata with
          | nil => simp at hb'
          | cons h _ ih =>
            rcases List.mem_cons.1 hb' with rfl | hb'
            · exact ⟨_, by simp, h⟩
            · obtain ⟨rest, hr, he⟩ := ih hb'
              exact ⟨rest, by simp [hr], he⟩
        have hin : (b.dimension, t) ∈ P.map (·.1) := by
          by_contra hx
          rw [(hrows _ _).1 hx] at he
          cases he
        obtain ⟨l, rest', h1, h2⟩ := (hrows _ _).2 hin
        rw [he] at h1
        cases h1
        exact ⟨rest, hrest, l, h2⟩
  · obtain ⟨a, ha, b, hb, hab⟩ := htwo
    have hl2 : 2 ≤ (sortedSet (P.map (·.1.2))).length := two_values ((k2.2 _).2 ⟨a, ha, rfl⟩) ((k2.2 _).2 ⟨b, hb, rfl⟩) hab
    refine figureLoop_first hne (List.ne_nil_of_mem ((k2.2 _).2 ⟨a, ha, rfl⟩)) fun t ht => ?_
    have hax : axesColumn columns.length (sortedSet (P.map (·.1.2))).length = .ok () := by
      unfold axesColumn
      rw [if_pos ⟨hlen, hl2⟩]
    have hgroup : ∀ d ∈ sortedSet (P.map (·.1.1)), ∃ rest, rowsFor (d, t) P = .ok rest ∧ ∃ l, PaperLine.texts l ∈ rest := by
      intro d hd
      obtain ⟨x, hx, rfl⟩ := (k1.2 d).1 hd
      obtain ⟨y, hy, rfl⟩ := (k2.2 t).1 ht
      obtain ⟨l, rest, h1, h2⟩ := (hrows _ _).2 ((hP' _ _).2 (hfull x hx y hy))
      exact ⟨rest, h1, l, h2⟩
    choose! g hg hg' using hgroup
    unfold panelOf
    rw [hax, Py.ok_bind, mapM_all hg, Py.ok_bind]
    have ha' : a.dimension ∈ sortedSet (P.map (·.1.1)) := (k1.2 _).2 ⟨a, ha, rfl⟩
    exact hboxes t _ ⟨g a.dimension, List.mem_map.2 ⟨_, ha', rfl⟩, hg' _ ha'⟩

end figure

/-- the lines of a run: what the replications report, one after the other -/
def runLines {S : Type} (jobs : List (Int × Int × Cell ℝ × PaperResult S)) : List (PaperLine ℝ) :=
  jobs.flatMap fun j => paperLines j.1 j.2.1 j.2.2.1 j.2.2.2

/-- **C113** The boxes of the default columns do not show one value per replication: the base values of a replication are in the data once for
each number of splits. -/
theorem C113_repeated {S : Type} (jobs : List (Int × Int × Cell ℝ × PaperResult S)) {n : Nat} (hn : ∀ j ∈ jobs, j.2.2.2.rows.length = n) (d : Int) (t : ℝ) :
    (linesFor (runLines jobs) d t).map (lineValue "base_mc") =
      (jobs.filter fun j => decide (j.2.1 = d ∧ cellValue j.2.2.1 = t)).flatMap fun j => List.replicate n (some j.2.2.2.baseMc) := by
  unfold linesFor runLines
  induction jobs with
  | nil => rfl
  | cons j jobs ih =>
    rw [List.flatMap_cons, List.filter_append, List.map_append, ih fun j hj => hn j (by simp [hj])]
    have hl := hn j (by simp)
    by_cases hj : j.2.1 = d ∧ cellValue j.2.2.1 = t
    · rw [List.filter_cons_of_pos (by simpa using hj), List.flatMap_cons]
      congr 1
      rw [List.filter_eq_self.2]
      · unfold paperLines
        rw [List.map_map, ← hl]
        exact (List.map_congr_left (g := fun _ => some j.2.2.2.baseMc) fun _ _ => rfl).trans List.map_const'
      · intro l hl
        obtain ⟨row, -, rfl⟩ := List.mem_map.1 hl
        simpa using hj
    · rw [List.filter_cons_of_neg (by simpa using hj), List.filter_eq_nil_iff.2]
      · rfl
      · intro l hl
        obtain ⟨row, -, rfl⟩ := List.mem_map.1 hl
        simpa using hj

example : figure6 (paperLog exampleLines) ["base_mc", "base_nll"] = .ok ([3],
    [⟨1 / 10, [[[some 10, some 10, some 20, some 20]], [[some 4, some 4, some 4, some 4]]]⟩,
      ⟨1, [[[some 10, some 10, some 20, some 20]], [[some (-4), some (-4), some 0, some 0]]]⟩]) := by decide +kernel

example : figure6 (paperLog exampleLines) ["mc"] = .error .index := by decide +kernel
example : figure6 (paperLog (exampleLines.take 2)) ["mc"] = .error .type := by decide +kernel
example : figure6 (paperLog exampleLines ++ paperLog exampleLines) ["base_mc", "base_nll"] = .error .type := by decide +kernel

end PyPDP
