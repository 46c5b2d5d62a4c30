/-
C112, C113: what `table_1_drawing` and `figure_6_drawing` of examples/main_paper.py make of a log file.
-/
import Verif.Spec.Tables
import Verif.Lemmas.Py
import Mathlib.Tactic.Ring
import Mathlib.Tactic.FieldSimp
import Mathlib.Tactic.IntervalCases
import Mathlib.Tactic.Linarith

namespace PyPDP
open Spec
set_option linter.unusedSectionVars false

section generic
variable {K : Type} [Field K] [LinearOrder K]

/-- the groups of rows made from items, with the keys that are not skipped -/
theorem parseGroups_items {ι κ : Type} [DecidableEq κ] (items : List ι) (R : ι → List (Entry K)) (kf : ι → List (Entry K)) (v : ι → κ)
    (parse : List (Entry K) → Py κ) (names : List String) (cols : List Nat)
    (hkey : ∀ i ∈ items, (cols.map fun j => (R i).getD j .nan) = kf i)
    (hparse : ∀ i ∈ items, (kf i).any Entry.mentionsDimension = false → parse (kf i) = .ok (v i)) :
    ∃ P, parseGroups parse ((⟨names, items.map R⟩ : Frame K).groups cols) = .ok P ∧
      (∀ x, x ∈ P.map (·.1) ↔ ∃ i ∈ items, (kf i).any Entry.mentionsDimension = false ∧ v i = x) ∧
      ∀ x, (x ∉ P.map (·.1) → rowsFor x P = .error .key) ∧
        (x ∈ P.map (·.1) → ∃ i ∈ items, (kf i).any Entry.mentionsDimension = false ∧ v i = x ∧
          rowsFor x P = .ok ((items.filter fun j => decide (kf j = kf i)).map R)) := by
  classical
  obtain ⟨G, hG⟩ : ∃ G, G = (⟨names, items.map R⟩ : Frame K).groups cols := ⟨_, rfl⟩
  have hmem : ∀ g, g ∈ G ↔ ∃ i ∈ items, g = (kf i, (items.filter fun j => decide (kf j = kf i)).map R) := by
    intro g
    rw [hG]
    unfold Frame.groups
    simp only [List.mem_map, List.mem_dedup, List.map_map, Function.comp]
    have hf : ∀ k, ((items.map R).filter fun row => decide ((cols.map fun j => row.getD j .nan) = k)) = (items.filter fun j => decide (kf j = k)).map R := by
      intro k
      rw [List.filter_map]
      congr 1
      apply List.filter_congr
      intro i hi
      simp only [Function.comp]
      rw [hkey i hi]
    constructor
    · rintro ⟨k, ⟨i, hi, rfl⟩, rfl⟩
      refine ⟨i, hi, ?_⟩
      rw [hf, hkey i hi]
    · rintro ⟨i, hi, rfl⟩
      exact ⟨kf i, ⟨i, hi, hkey i hi⟩, by rw [hf]⟩
  obtain ⟨F, hF⟩ : ∃ F, F = G.filter fun g => !g.1.any Entry.mentionsDimension := ⟨_, rfl⟩
  have hFmem : ∀ g, g ∈ F ↔ ∃ i ∈ items, (kf i).any Entry.mentionsDimension = false ∧ g = (kf i, (items.filter fun j => decide (kf j = kf i)).map R) := by
    intro g
    rw [hF, List.mem_filter, hmem]
    constructor
    · rintro ⟨⟨i, hi, rfl⟩, h⟩
      exact ⟨i, hi, by simpa using h, rfl⟩
    · rintro ⟨i, hi, h, rfl⟩
      exact ⟨⟨i, hi, rfl⟩, by simpa using h⟩
  have hok : ∃ P, F.mapM (fun g => do let k ← parse g.1; return (k, g.2)) = (.ok P : Py _) ∧
      List.Forall₂ (fun g p => parse g.1 = .ok p.1 ∧ p.2 = g.2) F P := by
    have hall : ∀ g ∈ F, ∃ p : κ × List (List (Entry K)), parse g.1 = .ok p.1 ∧ p.2 = g.2 := by
      intro g hg
      obtain ⟨i, hi, hs, rfl⟩ := (hFmem g).1 hg
      exact ⟨(v i, _), hparse i hi hs, rfl⟩
    clear hF hFmem
    induction F with
    | nil => exact ⟨[], rfl, .nil⟩
    | cons g F ih =>
      obtain ⟨p, h1, h2⟩ := hall g (by simp)
      obtain ⟨P, h3, h4⟩ := ih fun g hg => hall g (by simp [hg])
      refine ⟨p :: P, ?_, .cons ⟨h1, h2⟩ h4⟩
      rw [List.mapM_cons, h1]
      simp only [Py.ok_bind]
      rw [h3]
      simp only [← h2]
      rfl
  obtain ⟨P, hP, hFP⟩ := hok
  have hpm : ∀ p, p ∈ P ↔ ∃ i ∈ items, (kf i).any Entry.mentionsDimension = false ∧ p = (v i, (items.filter fun j => decide (kf j = kf i)).map R) := by
    have e : P = F.filterMap fun g => match parse g.1 with | .ok k => some (k, g.2) | .error _ => none := by
      clear hP hF hFmem
      induction hFP with
      | nil => rfl
      | cons h _ ih =>
        rw [List.filterMap_cons, h.1, ← h.2, ← ih]
    intro p
    rw [e, List.mem_filterMap]
    constructor
    · rintro ⟨g, hg, h⟩
      obtain ⟨i, hi, hs, rfl⟩ := (hFmem g).1 hg
      rw [hparse i hi hs] at h
      exact ⟨i, hi, hs, (Option.some.inj h).symm⟩
    · rintro ⟨i, hi, hs, rfl⟩
      refine ⟨_, (hFmem _).2 ⟨i, hi, hs, rfl⟩, ?_⟩
      rw [hparse i hi hs]
  refine ⟨P, ?_, ?_, ?_⟩
  · unfold parseGroups
    rw [← hG, ← hF]
    exact hP
  · intro x
    simp only [List.mem_map, hpm]
    constructor
    · rintro ⟨p, ⟨i, hi, hs, rfl⟩, rfl⟩
      exact ⟨i, hi, hs, rfl⟩
    · rintro ⟨i, hi, hs, rfl⟩
      exact ⟨_, ⟨i, hi, hs, rfl⟩, rfl⟩
  · intro x
    constructor
    · intro hx
      unfold rowsFor
      have : (P.reverse.find? fun p => decide (p.1 = x)) = none := by
        rw [List.find?_eq_none]
        intro p hp
        simp only [decide_eq_true_eq]
        intro h
        exact hx (List.mem_map.2 ⟨p, List.mem_reverse.1 hp, h⟩)
      rw [this]
    · intro hx
      unfold rowsFor
      cases hfind : P.reverse.find? fun p => decide (p.1 = x) with
      | none =>
        exfalso
        rw [List.find?_eq_none] at hfind
        obtain ⟨p, hp, h⟩ := List.mem_map.1 hx
        exact hfind p (List.mem_reverse.2 hp) (by simpa using h)
      | some p =>
        have h1 := List.mem_of_find?_eq_some hfind
        have h2 := List.find?_some hfind
        obtain ⟨i, hi, hs, rfl⟩ := (hpm p).1 (List.mem_reverse.1 h1)
        exact ⟨i, hi, hs, by simpa using h2, rfl⟩

end generic

section frames
variable {K : Type} [Field K] [LinearOrder K]

def paperNames : List String := ["seed", "dimension", "tau", "splits", "mmd", "base_mc", "base_nll", "mc", "nll"]

def optEntry : Option K → Entry K
  | some x => .float x
  | none => .nan

/-- a line as read from a file with one header -/
def PaperLine.entries (k : ColKind) (l : PaperLine K) : List (Entry K) :=
  [.int l.seed, .int l.dimension, l.tau.entry k, .int l.splits, optEntry l.mmd, .float l.baseMc, .float l.baseNll, .float l.mc, .float l.nll]

/-- the text of a number, nan as such -/
def optText : Option K → Entry K
  | some x => .str (.float x)
  | none => .nan

/-- a line as read from a file with another header further down -/
def PaperLine.texts (l : PaperLine K) : List (Entry K) :=
  [.str (.int l.seed), .str (.int l.dimension), l.tau.entry .object, .str (.int l.splits), optText l.mmd, .str (.float l.baseMc), .str (.float l.baseNll),
    .str (.float l.mc), .str (.float l.nll)]

theorem kindOf_ints {ι : Type} (l : List ι) (f : ι → Int) : kindOf (l.map fun i => (.int (f i) : Cell K)) = .int := by
  unfold kindOf
  rw [if_pos]
  simp [Cell.isInt]

theorem kindOf_floats {ι : Type} {l : List ι} (hl : l ≠ []) (f : ι → Cell K) (h1 : ∀ i ∈ l, (f i).isInt = false) (h2 : ∀ i ∈ l, (f i).isText = false) :
    kindOf (l.map f) = .float := by
  unfold kindOf
  rw [if_neg, if_neg]
  · simp only [List.any_map, List.any_eq_true, Function.comp, not_exists, not_and, Bool.not_eq_true]
    exact h2
  · obtain ⟨i, l', rfl⟩ := List.exists_cons_of_ne_nil hl
    simp [h1 i (by simp)]

theorem kindOf_text {l : List (Cell K)} {s : String} (h : .text s ∈ l) : kindOf l = .object := by
  unfold kindOf
  rw [if_neg, if_pos]
  · exact List.any_eq_true.2 ⟨_, h, rfl⟩
  · intro hall
    have := List.all_eq_true.1 hall _ h
    simp [Cell.isInt] at this

theorem optCell_entry (m : Option K) : (optCell m).entry .float = optEntry m := by cases m <;> rfl
theorem optCell_text (m : Option K) : (optCell m).entry .object = optText m := by cases m <;> rfl

theorem readCsv_paper (lines : List (PaperLine K)) :
    readCsv (paperLog lines) = .ok ⟨paperNames, lines.map (PaperLine.entries (kindOf (lines.map PaperLine.tau)))⟩ := by
  by_cases hl : lines = []
  · subst hl; rfl
  unfold readCsv paperLog
  dsimp only
  rw [if_neg]
  · congr 2
    rw [List.map_map]
    apply List.map_congr_left
    intro l _
    have k0 : kindOf (lines.map fun l => (.int l.seed : Cell K)) = .int := kindOf_ints _ _
    have k1 : kindOf (lines.map fun l => (.int l.dimension : Cell K)) = .int := kindOf_ints _ _
    have k3 : kindOf (lines.map fun l => (.int l.splits : Cell K)) = .int := kindOf_ints _ _
    have k4 : kindOf (lines.map fun l => optCell l.mmd) = .float :=
      kindOf_floats hl _ (fun i _ => by cases i.mmd <;> rfl) (fun i _ => by cases i.mmd <;> rfl)
    have kf : ∀ f : PaperLine K → K, kindOf (lines.map fun l => (.float (f l) : Cell K)) = .float := fun f =>
      kindOf_floats hl _ (fun _ _ => rfl) (fun _ _ => rfl)
    simp only [Function.comp]
    show (List.range 9).map _ = _
    simp only [List.range_succ, List.range_zero, List.nil_append, List.cons_append, List.map_cons, List.map_nil, List.map_map]
    unfold PaperLine.cells PaperLine.entries
    simp only [List.getD_cons_zero, List.getD_cons_succ, k0, k1, k3, k4, kf, optCell_entry, Function.comp_def]
    rfl
  · simp only [List.any_eq_true, not_exists, not_and, decide_eq_true_eq, List.mem_map]
    rintro _ ⟨l, _, rfl⟩
    show ¬ 9 < 9
    omega

/-- a line of the file: `none` stands for another header -/
def lineOf : Option (PaperLine K) → List (Cell K)
  | some l => l.cells
  | none => paperHeader

/-- ... as read if there is another header -/
def textsOf : Option (PaperLine K) → List (Entry K)
  | some l => l.texts
  | none => paperHeader.map Entry.str

/-- a second header turns every column into texts -/
theorem readCsv_paper_again {items : List (Option (PaperLine K))} (hn : none ∈ items) :
    readCsv (paperHeader :: items.map lineOf) = .ok ⟨paperNames, items.map textsOf⟩ := by
  have hk : ∀ j : Nat, j < 9 → kindOf ((items.map lineOf).map (·.getD j .nan)) = .object := by
    intro j hj
    obtain ⟨s, hs⟩ : ∃ s, (paperHeader : List (Cell K)).getD j .nan = .text s := by
      interval_cases j <;> exact ⟨_, rfl⟩
    refine kindOf_text (s := s) ?_
    rw [← hs]
    exact List.mem_map.2 ⟨_, List.mem_map.2 ⟨none, hn, rfl⟩, rfl⟩
  unfold readCsv
  dsimp only
  rw [if_neg]
  · congr 2
    rw [List.map_map]
    apply List.map_congr_left
    intro i _
    simp only [Function.comp]
    have e : ((List.range (paperHeader : List (Cell K)).length).map fun j =>
        ((lineOf i).getD j .nan).entry (kindOf ((items.map lineOf).map (·.getD j .nan)))) = (List.range 9).map fun j => ((lineOf i).getD j .nan).entry .object := by
      show (List.range 9).map _ = _
      apply List.map_congr_left
      intro j hj
      rw [hk j (List.mem_range.1 hj)]
    rw [e]
    cases i with
    | none => rfl
    | some l =>
      simp only [List.range_succ, List.range_zero, List.nil_append, List.cons_append, List.map_cons, List.map_nil]
      unfold lineOf textsOf PaperLine.cells PaperLine.texts
      simp only [List.getD_cons_zero, List.getD_cons_succ, optCell_text]
      rfl
  · simp only [List.any_eq_true, not_exists, not_and, decide_eq_true_eq, List.mem_map]
    rintro _ ⟨i, _, rfl⟩
    cases i <;> (show ¬ 9 < 9; omega)

/-- a file to which two or more runs have written -/
theorem runs_file {runs : List (List (PaperLine K))} (h : 2 ≤ runs.length) :
    ∃ items : List (Option (PaperLine K)), runs.flatMap paperLog = paperHeader :: items.map lineOf ∧ none ∈ items ∧
      ∀ l, some l ∈ items ↔ l ∈ runs.flatten := by
  match runs, h with
  | A :: B :: rest, _ =>
    have key : ∀ rs : List (List (PaperLine K)), (rs.flatMap fun r => none :: r.map some).map lineOf = rs.flatMap paperLog := by
      intro rs
      induction rs with
      | nil => rfl
      | cons r rs ih =>
        rw [List.flatMap_cons, List.map_append, ih, List.flatMap_cons]
        congr 1
        unfold paperLog
        rw [List.map_cons, List.map_map]
        rfl
    refine ⟨A.map some ++ (B :: rest).flatMap (fun r => none :: r.map some), ?_, ?_, ?_⟩
    · rw [List.map_append, key, List.flatMap_cons]
      unfold paperLog
      rw [List.cons_append, List.map_map]
      rfl
    · simp
    · intro l
      simp only [List.mem_append, List.mem_map, List.mem_flatMap, List.mem_flatten, List.mem_cons]
      constructor
      · rintro (⟨a, ha, h⟩ | ⟨r, hr, h⟩)
        · exact ⟨A, .inl rfl, by cases h; exact ha⟩
        · rcases h with h | ⟨a, ha, h⟩
          · cases h
          · exact ⟨r, .inr hr, by cases h; exact ha⟩
      · rintro ⟨r, hr | hr, hl⟩
        · exact .inl ⟨l, hr ▸ hl, rfl⟩
        · exact .inr ⟨r, hr, .inr ⟨l, hl, rfl⟩⟩

end frames

section loops

theorem forall₂_mem_right {α β : Type} {R : α → β → Prop} {l : List α} {l' : List β} (h : List.Forall₂ R l l') {b : β} (hb : b ∈ l') : ∃ a ∈ l, R a b := by
  induction h with
  | nil => simp at hb
  | cons h _ ih =>
    rcases List.mem_cons.1 hb with rfl | hb
    · exact ⟨_, by simp, h⟩
    · obtain ⟨a, ha, h⟩ := ih hb
      exact ⟨a, by simp [ha], h⟩

theorem mapM_all {α β : Type} {f : α → Py β} {g : α → β} {l : List α} (h : ∀ a ∈ l, f a = .ok (g a)) : l.mapM f = .ok (l.map g) := by
  induction l with
  | nil => rfl
  | cons a l ih =>
    rw [List.mapM_cons, h a (by simp), Py.ok_bind, ih fun a ha => h a (by simp [ha])]
    rfl

/-- a loop that can only fail with `e` fails with `e` if one pass does -/
theorem mapM_fails {α β : Type} {f : α → Py β} {e : PyErr} {l : List α} (h : ∀ a ∈ l, (∃ b, f a = .ok b) ∨ f a = .error e)
    (hx : ∃ a ∈ l, f a = .error e) : l.mapM f = .error e := by
  induction l with
  | nil => obtain ⟨a, ha, -⟩ := hx; simp at ha
  | cons a l ih =>
    rw [List.mapM_cons]
    rcases h a (by simp) with ⟨b, hb⟩ | hb
    · rw [hb, Py.ok_bind, ih (fun a ha => h a (by simp [ha])) ?_]
      · rfl
      · obtain ⟨c, hc, he⟩ := hx
        rcases List.mem_cons.1 hc with rfl | hc
        · rw [hb] at he; cases he
        · exact ⟨c, hc, he⟩
    · rw [hb]; rfl

theorem mapM_map {α β γ : Type} (f : α → Py β) (g : γ → α) (l : List γ) : (l.map g).mapM f = l.mapM fun c => f (g c) := by
  induction l with
  | nil => rfl
  | cons c l ih => rw [List.map_cons, List.mapM_cons, List.mapM_cons, ih]

end loops

section values
variable {K : Type} [Field K] [LinearOrder K] [IsStrictOrderedRing K]

theorem sequence_none {α : Type} {xs : List (Option α)} (h : none ∈ xs) : xs.mapM id = none := by
  induction xs with
  | nil => simp at h
  | cons x xs ih =>
    cases x with
    | none => rfl
    | some a =>
      rw [List.mapM_cons, ih (by simpa using h)]
      rfl

theorem sequence_some {α : Type} (vs : List α) : (vs.map some).mapM id = some vs := by
  induction vs with
  | nil => rfl
  | cons v vs ih => rw [List.map_cons, List.mapM_cons, ih]; rfl

theorem all_some {α : Type} {xs : List (Option α)} (h : none ∉ xs) : ∃ vs : List α, xs = vs.map some := by
  induction xs with
  | nil => exact ⟨[], rfl⟩
  | cons x xs ih =>
    cases x with
    | none => simp at h
    | some a =>
      obtain ⟨vs, rfl⟩ := ih (by simpa using h)
      exact ⟨a :: vs, rfl⟩

theorem averageOf_div {vs : List K} (h : vs ≠ []) : AverageOf vs (vs.sum / vs.length) := by
  refine ⟨h, ?_⟩
  have : (vs.length : K) ≠ 0 := by
    rw [Nat.cast_ne_zero]
    intro h0
    exact h (List.length_eq_zero_iff.1 h0)
  field_simp

theorem optMean_spec {xs : List (Option K)} (h : xs ≠ []) : OptAverage xs (optMean xs) := by
  have e : optMean xs = (xs.mapM id).map fun v => v.sum / (v.length : K) := by
    cases xs with
    | nil => exact absurd rfl h
    | cons _ _ => rfl
  by_cases hn : none ∈ xs
  · refine .inl ⟨hn, ?_⟩
    rw [e, sequence_none hn]
    rfl
  · obtain ⟨vs, rfl⟩ := all_some hn
    refine .inr ⟨vs, _, rfl, ?_, averageOf_div (by simpa using h)⟩
    rw [e, sequence_some]
    rfl

theorem optDelta_zero (a : K) : optDelta (some a) (some 0) = none := by
  simp [optDelta, calculateLogDelta]

theorem optDelta_ne (a : K) {b : K} (h : b ≠ 0) : optDelta (some a) (some b) = some ((b - a) / |b|) := by
  simp [optDelta, calculateLogDelta, h]

theorem sum_map_mul_const {ι : Type} (l : List ι) (f : ι → K) (c : K) : (l.map fun i => f i * c).sum = (l.map f).sum * c := by
  induction l with
  | nil => simp
  | cons a l ih => simp only [List.map_cons, List.sum_cons, ih]; ring

theorem averageReduction_ok {ι : Type} {sel : List ι} (h : sel ≠ []) (a b : ι → K) :
    AverageReduction (sel.map fun l => (a l, b l)) (percent (optMean (sel.map fun l => optDelta (some (a l)) (some (b l))))) := by
  by_cases hz : ∃ l ∈ sel, b l = 0
  · obtain ⟨l, hl, hb⟩ := hz
    refine .inl ⟨⟨(a l, b l), List.mem_map.2 ⟨l, hl, rfl⟩, hb⟩, ?_⟩
    have hm : none ∈ sel.map fun l => optDelta (some (a l)) (some (b l)) := List.mem_map.2 ⟨l, hl, by rw [hb]; exact optDelta_zero _⟩
    rcases optMean_spec (xs := sel.map fun l => optDelta (some (a l)) (some (b l))) (by simpa using h) with ⟨-, e⟩ | ⟨vs, m, e, -⟩
    · rw [e]; rfl
    · rw [e] at hm; simp at hm
  · push Not at hz
    refine .inr ⟨?_, ?_⟩
    · intro p hp
      obtain ⟨l, hl, rfl⟩ := List.mem_map.1 hp
      exact hz l hl
    · have e : (sel.map fun l => optDelta (some (a l)) (some (b l))) = (sel.map fun l => (b l - a l) / |b l|).map some := by
        rw [List.map_map]
        exact List.map_congr_left fun l hl => optDelta_ne _ (hz l hl)
      rw [e]
      rcases optMean_spec (xs := (sel.map fun l => (b l - a l) / |b l|).map some) (by simpa using h) with ⟨hm, -⟩ | ⟨vs, m, e', em, hne, hs⟩
      · simp at hm
      · have evs : vs = sel.map fun l => (b l - a l) / |b l| := (List.map_injective_iff.2 (Option.some_injective K) e').symm
        refine ⟨m * 100, by rw [em]; rfl, by simpa using h, ?_⟩
        rw [List.map_map]
        have : (List.map ((fun p : K × K => reduction p.1 p.2) ∘ fun l => (a l, b l)) sel).sum = vs.sum * 100 := by
          rw [evs]
          exact sum_map_mul_const sel (fun l => (b l - a l) / |b l|) 100
        rw [this, ← hs, evs]
        simp only [List.length_map]
        ring

theorem numbersOf_map {ι : Type} {sel : List ι} {R : ι → List (Entry K)} {j : Nat} {g : ι → Option K}
    (h : ∀ l ∈ sel, ((R l).getD j .nan).number = .ok (g l)) : numbersOf j (sel.map R) = .ok (sel.map g) := by
  unfold numbersOf
  rw [mapM_map]
  exact mapM_all h

theorem zipWith_map_same {ι α β γ : Type} (f : α → β → γ) (a : ι → α) (b : ι → β) (l : List ι) :
    List.zipWith f (l.map a) (l.map b) = l.map fun i => f (a i) (b i) := by
  induction l with
  | nil => rfl
  | cons x l ih => simp only [List.map_cons, List.zipWith_cons_cons, ih]

def paperColumns : PaperColumns := ⟨4, 7, 5, 8, 6⟩

theorem optEntry_number (m : Option K) : (optEntry m).number = .ok m := by cases m <;> rfl

theorem tableCell_ok (k : ColKind) {sel : List (PaperLine K)} (h : sel ≠ []) :
    ∃ m a b, tableCell paperColumns (sel.map (PaperLine.entries k)) = .ok (m, a, b) ∧ OptAverage (sel.map PaperLine.mmd) m ∧
      AverageReduction (sel.map fun l => (l.mc, l.baseMc)) a ∧ AverageReduction (sel.map fun l => (l.nll, l.baseNll)) b := by
  refine ⟨_, _, _, ?_, optMean_spec (by simpa using h), averageReduction_ok h _ _, averageReduction_ok h _ _⟩
  unfold tableCell deltas paperColumns
  dsimp only
  rw [numbersOf_map (R := PaperLine.entries k) (g := PaperLine.mmd) (j := 4) fun l _ => optEntry_number l.mmd,
    numbersOf_map (R := PaperLine.entries k) (g := fun l => some l.mc) (j := 7) fun l _ => rfl,
    numbersOf_map (R := PaperLine.entries k) (g := fun l => some l.baseMc) (j := 5) fun l _ => rfl,
    numbersOf_map (R := PaperLine.entries k) (g := fun l => some l.nll) (j := 8) fun l _ => rfl,
    numbersOf_map (R := PaperLine.entries k) (g := fun l => some l.baseNll) (j := 6) fun l _ => rfl]
  simp only [Py.ok_bind, Py.pure_eq, zipWith_map_same]

/-- the entries of the `tau` column -/
theorem tau_entries {lines : List (PaperLine K)} (h : ∀ l ∈ lines, IsNumber l.tau) (k : ColKind) (hk : k = kindOf (lines.map PaperLine.tau)) :
    (∀ l ∈ lines, (l.tau.entry k).toFloat = .ok (cellValue l.tau) ∧ (l.tau.entry k).mentionsDimension = false) ∧
      ∀ l ∈ lines, ∀ l' ∈ lines, l.tau.entry k = l'.tau.entry k ↔ cellValue l.tau = cellValue l'.tau := by
  by_cases hall : (lines.map PaperLine.tau).all Cell.isInt
  · have hk' : k = .int := by rw [hk]; unfold kindOf; rw [if_pos hall]
    have hint : ∀ l ∈ lines, ∃ n : Int, l.tau = .int n := by
      intro l hl
      have := List.all_eq_true.1 hall _ (List.mem_map.2 ⟨l, hl, rfl⟩)
      cases ht : l.tau with
      | int n => exact ⟨n, rfl⟩
      | float x => rw [ht] at this; simp [Cell.isInt] at this
      | nan => rw [ht] at this; simp [Cell.isInt] at this
      | text s => rw [ht] at this; simp [Cell.isInt] at this
    subst hk'
    refine ⟨?_, ?_⟩
    · intro l hl
      obtain ⟨n, hn⟩ := hint l hl
      rw [hn]
      exact ⟨rfl, rfl⟩
    · intro l hl l' hl'
      obtain ⟨n, hn⟩ := hint l hl
      obtain ⟨n', hn'⟩ := hint l' hl'
      rw [hn, hn']
      simp [Cell.entry, cellValue]
  · have hk' : k = .float := by
      rw [hk]
      unfold kindOf
      rw [if_neg hall, if_neg]
      simp only [List.any_map, List.any_eq_true, Function.comp, not_exists, not_and, Bool.not_eq_true]
      intro l hl
      obtain ⟨t, ⟨n, hn, -⟩ | ht⟩ := h l hl
      · rw [hn]; rfl
      · rw [ht]; rfl
    subst hk'
    have hf : ∀ l ∈ lines, l.tau.entry .float = .float (cellValue l.tau) := by
      intro l hl
      obtain ⟨t, ⟨n, hn, -⟩ | ht⟩ := h l hl
      · rw [hn]; rfl
      · rw [ht]; rfl
    refine ⟨?_, ?_⟩
    · intro l hl
      rw [hf l hl]
      exact ⟨rfl, rfl⟩
    · intro l hl l' hl'
      rw [hf l hl, hf l' hl']
      simp

theorem sortedSet_spec {α : Type} [LinearOrder α] (l : List α) : (sortedSet l).Pairwise (· < ·) ∧ ∀ x, x ∈ sortedSet l ↔ x ∈ l := by
  have hp : (sortedSet l).Perm l.dedup := List.perm_insertionSort _ _
  refine ⟨?_, fun x => by rw [hp.mem_iff, List.mem_dedup]⟩
  have h1 : (sortedSet l).Pairwise (· ≤ ·) := List.pairwise_insertionSort _ _
  have h2 : (sortedSet l).Nodup := hp.nodup_iff.2 l.nodup_dedup
  exact (h1.and h2).imp fun h => lt_of_le_of_ne h.1 h.2

theorem sortedSetDown_spec {α : Type} [LinearOrder α] (l : List α) : (sortedSetDown l).Pairwise (· > ·) ∧ ∀ x, x ∈ sortedSetDown l ↔ x ∈ l := by
  have hp : (sortedSetDown l).Perm l.dedup := List.perm_insertionSort _ _
  refine ⟨?_, fun x => by rw [hp.mem_iff, List.mem_dedup]⟩
  have h1 : (sortedSetDown l).Pairwise (· ≥ ·) := List.pairwise_insertionSort _ _
  have h2 : (sortedSetDown l).Nodup := hp.nodup_iff.2 l.nodup_dedup
  exact (h1.and h2).imp fun h => lt_of_le_of_ne h.1 (Ne.symm h.2)

/-- the loop of `table_1_drawing` over the groups -/
def tableLoop (parsed : List ((Int × K × Int) × List (List (Entry K)))) : Py (List (TableRow K)) :=
  ((sortedSet (parsed.map (·.1.1))).flatMap fun d => (sortedSetDown (parsed.map (·.1.2.1))).map fun t => (d, t)).mapM fun dt =>
    tableRow paperColumns parsed (sortedSet (parsed.map (·.1.2.2))) dt.1 dt.2

theorem table1_eq {file : List (List (Cell K))} {rows : List (List (Entry K))} (h : readCsv file = .ok ⟨paperNames, rows⟩) :
    table1 file = (do
      let parsed ← parseGroups parseKey3 ((⟨paperNames, rows⟩ : Frame K).groups [1, 2, 3])
      tableLoop parsed) := by
  have c : ∀ (e : PyErr) (n : String) (j : Nat), paperNames.findIdx? (· == n) = some j → (⟨paperNames, rows⟩ : Frame K).column e n = .ok j := by
    intro e n j hj
    unfold Frame.column
    dsimp only
    rw [hj]
  unfold table1
  rw [h, Py.ok_bind, c .key "dimension" 1 (by decide), Py.ok_bind, c .key "tau" 2 (by decide), Py.ok_bind, c .key "splits" 3 (by decide), Py.ok_bind,
    c .value "mmd" 4 (by decide), c .value "mc" 7 (by decide), c .value "base_mc" 5 (by decide), c .value "nll" 8 (by decide),
    c .value "base_nll" 6 (by decide)]
  rfl

/-- the groups of a file with one header -/
theorem paper_groups {lines : List (PaperLine K)} (h : ∀ l ∈ lines, IsNumber l.tau) :
    ∃ k P, readCsv (paperLog lines) = .ok ⟨paperNames, lines.map (PaperLine.entries k)⟩ ∧
      parseGroups parseKey3 ((⟨paperNames, lines.map (PaperLine.entries k)⟩ : Frame K).groups [1, 2, 3]) = .ok P ∧
      (∀ d t s, (d, t, s) ∈ P.map (·.1) ↔ ∃ l ∈ lines, l.dimension = d ∧ cellValue l.tau = t ∧ l.splits = s) ∧
      ∀ d t s, ((d, t, s) ∉ P.map (·.1) → rowsFor (d, t, s) P = .error .key) ∧
        ((d, t, s) ∈ P.map (·.1) → rowsFor (d, t, s) P = .ok ((linesAt lines d t s).map (PaperLine.entries k))) := by
  obtain ⟨k, hk⟩ : ∃ k, k = kindOf (lines.map PaperLine.tau) := ⟨_, rfl⟩
  obtain ⟨h1, h2⟩ := tau_entries h k hk
  obtain ⟨P, p1, p2, p3⟩ := parseGroups_items lines (PaperLine.entries k) (fun l => [.int l.dimension, l.tau.entry k, .int l.splits])
    (fun l => (l.dimension, cellValue l.tau, l.splits)) parseKey3 paperNames [1, 2, 3] (fun l _ => rfl) (fun l hl _ => by
      unfold parseKey3
      dsimp only
      rw [(h1 l hl).1]
      rfl)
  have hm : ∀ l ∈ lines, ([.int l.dimension, l.tau.entry k, .int l.splits] : List (Entry K)).any Entry.mentionsDimension = false := by
    intro l hl
    have e : ∀ n : Int, (Entry.int n : Entry K).mentionsDimension = false := fun _ => rfl
    simp only [List.any_cons, List.any_nil, (h1 l hl).2, e, Bool.or_false]
  refine ⟨k, P, by rw [hk]; exact readCsv_paper lines, p1, ?_, ?_⟩
  · intro d t s
    rw [p2]
    constructor
    · rintro ⟨l, hl, -, e⟩
      simp only [Prod.mk.injEq] at e
      exact ⟨l, hl, e⟩
    · rintro ⟨l, hl, rfl, rfl, rfl⟩
      exact ⟨l, hl, hm l hl, rfl⟩
  · intro d t s
    refine ⟨(p3 (d, t, s)).1, fun hx => ?_⟩
    obtain ⟨i, hi, -, e, hr⟩ := (p3 (d, t, s)).2 hx
    rw [hr]
    simp only [Prod.mk.injEq] at e
    obtain ⟨rfl, rfl, rfl⟩ := e
    congr 2
    unfold linesAt linesFor
    rw [List.filter_filter]
    apply List.filter_congr
    intro l hl
    rw [← Bool.decide_and, decide_eq_decide]
    simp only [List.cons.injEq, Entry.int.injEq, and_true, h2 l hl i hi]
    tauto

theorem linesAt_ne {lines : List (PaperLine K)} {d : Int} {t : K} {s : Int} (h : ∃ l ∈ lines, l.dimension = d ∧ cellValue l.tau = t ∧ l.splits = s) :
    linesAt lines d t s ≠ [] := by
  obtain ⟨l, hl, h1, h2, h3⟩ := h
  apply List.ne_nil_of_mem (a := l)
  simp [linesAt, linesFor, hl, h1, h2, h3]

/-- one printed line -/
theorem tableRow_ok {lines : List (PaperLine K)} {k : ColKind} {P : List ((Int × K × Int) × List (List (Entry K)))} {d : Int} {t : K} {splits : List Int}
    (hs : splits ≠ []) (hall : ∀ s ∈ splits, rowsFor (d, t, s) P = .ok ((linesAt lines d t s).map (PaperLine.entries k)) ∧ linesAt lines d t s ≠ []) :
    ∃ r, tableRow paperColumns P splits d t = .ok r ∧ r.dimension = d ∧ r.tau = t ∧
      List.Forall₂ (fun s v => AverageReduction ((linesAt lines d t s).map fun l => (l.mc, l.baseMc)) v) splits r.deltaMc ∧
      List.Forall₂ (fun s v => AverageReduction ((linesAt lines d t s).map fun l => (l.nll, l.baseNll)) v) splits r.deltaNll ∧
      ∃ s, splits.head? = some s ∧ OptAverage ((linesAt lines d t s).map PaperLine.mmd) r.mmd := by
  have hcell : ∀ s ∈ splits, ∃ c : Option K × Option K × Option K, (rowsFor (d, t, s) P >>= tableCell paperColumns) = .ok c ∧
      OptAverage ((linesAt lines d t s).map PaperLine.mmd) c.1 ∧
      AverageReduction ((linesAt lines d t s).map fun l => (l.mc, l.baseMc)) c.2.1 ∧
      AverageReduction ((linesAt lines d t s).map fun l => (l.nll, l.baseNll)) c.2.2 := by
    intro s h
    obtain ⟨h1, h2⟩ := hall s h
    obtain ⟨m, a, b, e, h3, h4, h5⟩ := tableCell_ok k h2
    exact ⟨(m, a, b), by rw [h1, Py.ok_bind, e], h3, h4, h5⟩
  obtain ⟨cells, e, hc⟩ : ∃ cells, splits.mapM (fun s => rowsFor (d, t, s) P >>= tableCell paperColumns) = .ok cells ∧
      List.Forall₂ (fun s c => OptAverage ((linesAt lines d t s).map PaperLine.mmd) c.1 ∧
        AverageReduction ((linesAt lines d t s).map fun l => (l.mc, l.baseMc)) c.2.1 ∧
        AverageReduction ((linesAt lines d t s).map fun l => (l.nll, l.baseNll)) c.2.2) splits cells := by
    clear hall hs
    induction splits with
    | nil => exact ⟨[], rfl, .nil⟩
    | cons s ss ih =>
      obtain ⟨c, h1, h2⟩ := hcell s (by simp)
      obtain ⟨cs, h3, h4⟩ := ih fun s hs => hcell s (by simp [hs])
      refine ⟨c :: cs, ?_, .cons h2 h4⟩
      rw [List.mapM_cons, h1, Py.ok_bind, h3]
      rfl
  match splits, hs, cells, e, hc with
  | s :: ss, _, c :: cs, e, hc =>
    refine ⟨⟨d, t, c.1, (c :: cs).map (·.2.1), (c :: cs).map (·.2.2)⟩, ?_, rfl, rfl, ?_, ?_, s, rfl, ?_⟩
    · unfold tableRow
      rw [e]
      rfl
    · rw [List.forall₂_map_right_iff]
      exact hc.imp fun _ _ h => h.2.1
    · rw [List.forall₂_map_right_iff]
      exact hc.imp fun _ _ h => h.2.2
    · cases hc with
      | cons h _ => exact h.1

/-- the sorted values of the keys -/
theorem keys_spec {lines : List (PaperLine K)} {P : List ((Int × K × Int) × List (List (Entry K)))}
    (hP : ∀ d t s, (d, t, s) ∈ P.map (·.1) ↔ ∃ l ∈ lines, l.dimension = d ∧ cellValue l.tau = t ∧ l.splits = s) :
    SortedValues (· < ·) PaperLine.dimension lines (sortedSet (P.map (·.1.1))) ∧
      SortedValues (· > ·) (fun l => cellValue l.tau) lines (sortedSetDown (P.map (·.1.2.1))) ∧
      SortedValues (· < ·) PaperLine.splits lines (sortedSet (P.map (·.1.2.2))) := by
  have hex : ∀ p ∈ P, ∃ l ∈ lines, l.dimension = p.1.1 ∧ cellValue l.tau = p.1.2.1 ∧ l.splits = p.1.2.2 := fun p hp =>
    (hP p.1.1 p.1.2.1 p.1.2.2).1 (List.mem_map.2 ⟨p, hp, rfl⟩)
  have hin : ∀ l ∈ lines, ∃ p ∈ P, p.1 = (l.dimension, cellValue l.tau, l.splits) := fun l hl =>
    List.mem_map.1 ((hP _ _ _).2 ⟨l, hl, rfl, rfl, rfl⟩)
  refine ⟨⟨(sortedSet_spec _).1, fun x => ?_⟩, ⟨(sortedSetDown_spec _).1, fun x => ?_⟩, ⟨(sortedSet_spec _).1, fun x => ?_⟩⟩
  · rw [(sortedSet_spec _).2, List.mem_map]
    constructor
    · rintro ⟨p, hp, rfl⟩
      obtain ⟨l, hl, h, -, -⟩ := hex p hp
      exact ⟨l, hl, h⟩
    · rintro ⟨l, hl, rfl⟩
      obtain ⟨p, hp, e⟩ := hin l hl
      exact ⟨p, hp, by rw [e]⟩
  · rw [(sortedSetDown_spec _).2, List.mem_map]
    constructor
    · rintro ⟨p, hp, rfl⟩
      obtain ⟨l, hl, -, h, -⟩ := hex p hp
      exact ⟨l, hl, h⟩
    · rintro ⟨l, hl, rfl⟩
      obtain ⟨p, hp, e⟩ := hin l hl
      exact ⟨p, hp, by rw [e]⟩
  · rw [(sortedSet_spec _).2, List.mem_map]
    constructor
    · rintro ⟨p, hp, rfl⟩
      obtain ⟨l, hl, -, -, h⟩ := hex p hp
      exact ⟨l, hl, h⟩
    · rintro ⟨l, hl, rfl⟩
      obtain ⟨p, hp, e⟩ := hin l hl
      exact ⟨p, hp, by rw [e]⟩

/-- **C112** `table_1_drawing` on the log of one run: one printed line for each dimension (increasing) and `tau` (decreasing). For each number of
splits it shows the average over exactly the lines of that dimension, `tau` and number of splits of the reductions of the mean
confidence and of the negative log-likelihood against their base, in percent (nan if a base is zero), and the average discrepancy of the lines
with the smallest number of splits. -/
theorem C112_table {lines : List (PaperLine K)} (h : ∀ l ∈ lines, IsNumber l.tau) (hfull : Complete lines) :
    ∃ (dims : List Int) (taus : List K) (splits : List Int) (out : List (TableRow K)), table1 (paperLog lines) = .ok out ∧
      SortedValues (· < ·) PaperLine.dimension lines dims ∧ SortedValues (· > ·) (fun l => cellValue l.tau) lines taus ∧
      SortedValues (· < ·) PaperLine.splits lines splits ∧
      out.map (fun r => (r.dimension, r.tau)) = (dims.flatMap fun d => taus.map fun t => (d, t)) ∧
      ∀ r ∈ out,
        List.Forall₂ (fun s v => AverageReduction ((linesAt lines r.dimension r.tau s).map fun l => (l.mc, l.baseMc)) v) splits r.deltaMc ∧
        List.Forall₂ (fun s v => AverageReduction ((linesAt lines r.dimension r.tau s).map fun l => (l.nll, l.baseNll)) v) splits r.deltaNll ∧
        ∃ s, splits.head? = some s ∧ OptAverage ((linesAt lines r.dimension r.tau s).map PaperLine.mmd) r.mmd := by
  obtain ⟨k, P, hread, hparse, hP, hrows⟩ := paper_groups h
  obtain ⟨k1, k2, k3⟩ := keys_spec hP
  obtain ⟨dims, hd⟩ : ∃ dims, dims = sortedSet (P.map (·.1.1)) := ⟨_, rfl⟩
  obtain ⟨taus, ht⟩ : ∃ taus, taus = sortedSetDown (P.map (·.1.2.1)) := ⟨_, rfl⟩
  obtain ⟨splits, hs⟩ : ∃ splits, splits = sortedSet (P.map (·.1.2.2)) := ⟨_, rfl⟩
  rw [← hd] at k1
  rw [← ht] at k2
  rw [← hs] at k3
  have hrow : ∀ dt ∈ dims.flatMap (fun d => taus.map fun t => (d, t)), ∃ r, tableRow paperColumns P splits dt.1 dt.2 = .ok r ∧
      (r.dimension, r.tau) = dt ∧
        List.Forall₂ (fun s v => AverageReduction ((linesAt lines r.dimension r.tau s).map fun l => (l.mc, l.baseMc)) v) splits r.deltaMc ∧
        List.Forall₂ (fun s v => AverageReduction ((linesAt lines r.dimension r.tau s).map fun l => (l.nll, l.baseNll)) v) splits r.deltaNll ∧
        ∃ s, splits.head? = some s ∧ OptAverage ((linesAt lines r.dimension r.tau s).map PaperLine.mmd) r.mmd := by
    intro dt hdt
    obtain ⟨d, hd', t, ht', rfl⟩ : ∃ d ∈ dims, ∃ t ∈ taus, dt = (d, t) := by
      obtain ⟨d, hd', h⟩ := List.mem_flatMap.1 hdt
      obtain ⟨t, ht', rfl⟩ := List.mem_map.1 h
      exact ⟨d, hd', t, ht', rfl⟩
    obtain ⟨a, ha, rfl⟩ := (k1.2 d).1 hd'
    obtain ⟨b, hb, rfl⟩ := (k2.2 t).1 ht'
    obtain ⟨r, r1, r2, r3, r4⟩ := tableRow_ok (k := k) (P := P) (d := a.dimension) (t := cellValue b.tau) (lines := lines) (splits := splits)
      (List.ne_nil_of_mem ((k3.2 _).2 ⟨a, ha, rfl⟩)) (by
        intro s hs'
        obtain ⟨c, hc, rfl⟩ := (k3.2 s).1 hs'
        have hex := hfull a ha b hb c hc
        exact ⟨(hrows _ _ _).2 ((hP _ _ _).2 hex), linesAt_ne hex⟩)
    refine ⟨r, r1, by rw [r2, r3], ?_⟩
    rw [r2, r3]
    exact r4
  obtain ⟨out, o1, o2, o3⟩ : ∃ out, (dims.flatMap fun d => taus.map fun t => (d, t)).mapM (fun dt => tableRow paperColumns P splits dt.1 dt.2) = .ok out ∧
      out.map (fun r => (r.dimension, r.tau)) = (dims.flatMap fun d => taus.map fun t => (d, t)) ∧ ∀ r ∈ out,
        List.Forall₂ (fun s v => AverageReduction ((linesAt lines r.dimension r.tau s).map fun l => (l.mc, l.baseMc)) v) splits r.deltaMc ∧
        List.Forall₂ (fun s v => AverageReduction ((linesAt lines r.dimension r.tau s).map fun l => (l.nll, l.baseNll)) v) splits r.deltaNll ∧
        ∃ s, splits.head? = some s ∧ OptAverage ((linesAt lines r.dimension r.tau s).map PaperLine.mmd) r.mmd := by
    revert hrow
    generalize (dims.flatMap fun d => taus.map fun t => (d, t)) = L
    intro hrow
    induction L with
    | nil => exact ⟨[], rfl, rfl, by simp⟩
    | cons dt L ih =>
      obtain ⟨r, h1, h2, h3⟩ := hrow dt (by simp)
      obtain ⟨rs, h4, h5, h6⟩ := ih fun dt hdt => hrow dt (by simp [hdt])
      refine ⟨r :: rs, ?_, by rw [List.map_cons, h2, h5], ?_⟩
      · rw [List.mapM_cons, h1, Py.ok_bind, h4]; rfl
      · intro r' hr'
        rcases List.mem_cons.1 hr' with rfl | hr'
        · exact h3
        · exact h6 r' hr'
  refine ⟨dims, taus, splits, out, ?_, k1, k2, k3, o2, o3⟩
  rw [table1_eq hread, hparse, Py.ok_bind]
  unfold tableLoop
  rw [← hd, ← ht, ← hs]
  exact o1

/-- the numbers of one line, or a KeyError -/
theorem tableRow_missing {lines : List (PaperLine K)} {k : ColKind} {P : List ((Int × K × Int) × List (List (Entry K)))} {d : Int} {t : K} {splits : List Int}
    (hs : splits ≠ []) (hall : ∀ s ∈ splits, rowsFor (d, t, s) P = .error .key ∨
      (rowsFor (d, t, s) P = .ok ((linesAt lines d t s).map (PaperLine.entries k)) ∧ linesAt lines d t s ≠ [])) :
    ((∃ s ∈ splits, rowsFor (d, t, s) P = .error .key) → tableRow paperColumns P splits d t = .error .key) ∧
      ((∃ r, tableRow paperColumns P splits d t = .ok r) ∨ tableRow paperColumns P splits d t = .error .key) := by
  have h1 : (∃ s ∈ splits, rowsFor (d, t, s) P = .error .key) → tableRow paperColumns P splits d t = .error .key := by
    rintro ⟨s, hs', he⟩
    unfold tableRow
    rw [mapM_fails (e := .key) ?_ ⟨s, hs', by rw [he]; rfl⟩]
    · rfl
    · intro s hs'
      rcases hall s hs' with h | ⟨h, h'⟩
      · exact .inr (by rw [h]; rfl)
      · obtain ⟨m, a, b, e, -⟩ := tableCell_ok k h'
        exact .inl ⟨_, by rw [h, Py.ok_bind]; exact e⟩
  refine ⟨h1, ?_⟩
  by_cases hx : ∃ s ∈ splits, rowsFor (d, t, s) P = .error .key
  · exact .inr (h1 hx)
  · refine .inl ?_
    obtain ⟨r, hr, -⟩ := tableRow_ok hs fun s hs' => (hall s hs').resolve_left fun he => hx ⟨s, hs', he⟩
    exact ⟨r, hr⟩

/-- **C112** If a combination of a dimension, a `tau` and a number of splits that occur is missing, nothing but a KeyError is left. -/
theorem C112_missing {lines : List (PaperLine K)} (h : ∀ l ∈ lines, IsNumber l.tau) (hfull : ¬ Complete lines) : table1 (paperLog lines) = .error .key := by
  obtain ⟨k, P, hread, hparse, hP, hrows⟩ := paper_groups h
  obtain ⟨k1, k2, k3⟩ := keys_spec hP
  rw [table1_eq hread, hparse, Py.ok_bind]
  unfold tableLoop
  have hor : ∀ d t s, rowsFor (d, t, s) P = .error .key ∨
      (rowsFor (d, t, s) P = .ok ((linesAt lines d t s).map (PaperLine.entries k)) ∧ linesAt lines d t s ≠ []) := by
    intro d t s
    by_cases hx : (d, t, s) ∈ P.map (·.1)
    · exact .inr ⟨(hrows d t s).2 hx, linesAt_ne ((hP d t s).1 hx)⟩
    · exact .inl ((hrows d t s).1 hx)
  unfold Complete at hfull
  push Not at hfull
  obtain ⟨a, ha, b, hb, c, hc, hno⟩ := hfull
  have hne : sortedSet (P.map (·.1.2.2)) ≠ [] := List.ne_nil_of_mem ((k3.2 _).2 ⟨a, ha, rfl⟩)
  apply mapM_fails
  · intro dt _
    exact (tableRow_missing hne fun s _ => hor dt.1 dt.2 s).2
  · refine ⟨(a.dimension, cellValue b.tau), ?_, ?_⟩
    · rw [List.mem_flatMap]
      exact ⟨a.dimension, (k1.2 _).2 ⟨a, ha, rfl⟩, List.mem_map.2 ⟨cellValue b.tau, (k2.2 _).2 ⟨b, hb, rfl⟩, rfl⟩⟩
    · refine (tableRow_missing hne fun s _ => hor _ _ s).1 ⟨c.splits, (k3.2 _).2 ⟨c, hc, rfl⟩, (hrows _ _ _).1 fun hx => ?_⟩
      obtain ⟨l, hl, h1, h2, h3⟩ := (hP _ _ _).1 hx
      exact hno l hl h1 h2 h3

/-- the groups of a file with several headers -/
theorem again_groups {items : List (Option (PaperLine K))} (h : ∀ l, some l ∈ items → IsNumber l.tau) :
    ∃ P, parseGroups parseKey3 ((⟨paperNames, items.map textsOf⟩ : Frame K).groups [1, 2, 3]) = .ok P ∧
      (∀ d t s, (d, t, s) ∈ P.map (·.1) ↔ ∃ l, some l ∈ items ∧ l.dimension = d ∧ cellValue l.tau = t ∧ l.splits = s) ∧
      ∀ d t s, ((d, t, s) ∉ P.map (·.1) → rowsFor (d, t, s) P = .error .key) ∧
        ((d, t, s) ∈ P.map (·.1) → ∃ l rest, rowsFor (d, t, s) P = .ok rest ∧ PaperLine.texts l ∈ rest) := by
  have hobj : ∀ l, some l ∈ items → l.tau.entry .object = .str l.tau := by
    intro l hl
    obtain ⟨t, ⟨n, hn, -⟩ | ht⟩ := h l hl
    · rw [hn]; rfl
    · rw [ht]; rfl
  have hval : ∀ l, some l ∈ items → (Entry.str l.tau).toFloat = .ok (cellValue l.tau) ∧ (Entry.str l.tau).mentionsDimension = false := by
    intro l hl
    obtain ⟨t, ⟨n, hn, -⟩ | ht⟩ := h l hl
    · rw [hn]; exact ⟨rfl, rfl⟩
    · rw [ht]; exact ⟨rfl, rfl⟩
  have hnone : ([.str (.text "dimension"), .str (.text "tau"), .str (.text "splits")] : List (Entry K)).any Entry.mentionsDimension = true := by
    have : (Entry.str (.text "dimension") : Entry K).mentionsDimension = true := by
      unfold Entry.mentionsDimension
      exact decide_eq_true (List.infix_refl _)
    rw [List.any_cons, this, Bool.true_or]
  have hm : ∀ l, some l ∈ items → ([.str (.int l.dimension), .str l.tau, .str (.int l.splits)] : List (Entry K)).any Entry.mentionsDimension = false := by
    intro l hl
    have e : ∀ n : Int, (Entry.str (.int n) : Entry K).mentionsDimension = false := fun _ => rfl
    simp only [List.any_cons, List.any_nil, (hval l hl).2, e, Bool.or_false]
  obtain ⟨P, p1, p2, p3⟩ := parseGroups_items items textsOf
    (fun i => match i with
      | some l => [.str (.int l.dimension), .str l.tau, .str (.int l.splits)]
      | none => [.str (.text "dimension"), .str (.text "tau"), .str (.text "splits")])
    (fun i => match i with
      | some l => (l.dimension, cellValue l.tau, l.splits)
      | none => (0, 0, 0)) parseKey3 paperNames [1, 2, 3]
    (fun i hi => by
      cases i with
      | none => rfl
      | some l =>
        have : ([1, 2, 3].map fun j => (textsOf (some l)).getD j .nan) = [.str (.int l.dimension), l.tau.entry .object, .str (.int l.splits)] := rfl
        rw [this, hobj l hi])
    (fun i hi hs => by
      cases i with
      | none => dsimp only at hs; rw [hnone] at hs; cases hs
      | some l =>
        dsimp only
        unfold parseKey3
        dsimp only
        rw [(hval l hi).1]
        rfl)
  refine ⟨P, p1, ?_, ?_⟩
  · intro d t s
    rw [p2]
    constructor
    · rintro ⟨i, hi, hs, e⟩
      cases i with
      | none => dsimp only at hs; rw [hnone] at hs; cases hs
      | some l =>
        simp only [Prod.mk.injEq] at e
        exact ⟨l, hi, e⟩
    · rintro ⟨l, hl, rfl, rfl, rfl⟩
      exact ⟨some l, hl, hm l hl, rfl⟩
  · intro d t s
    refine ⟨(p3 (d, t, s)).1, fun hx => ?_⟩
    obtain ⟨i, hi, hs, -, hr⟩ := (p3 (d, t, s)).2 hx
    cases i with
    | none => dsimp only at hs; rw [hnone] at hs; cases hs
    | some l =>
      refine ⟨l, _, hr, ?_⟩
      exact List.mem_map.2 ⟨some l, List.mem_filter.2 ⟨hi, by simp⟩, rfl⟩

theorem numbersOf_fails {rows : List (List (Entry K))} {j : Nat} (h : ∃ row ∈ rows, ∃ c, row.getD j .nan = .str c) : numbersOf j rows = .error .type := by
  unfold numbersOf
  apply mapM_fails
  · intro row _
    cases row.getD j .nan with
    | int n => exact .inl ⟨_, rfl⟩
    | float n => exact .inl ⟨_, rfl⟩
    | nan => exact .inl ⟨_, rfl⟩
    | str c => exact .inr rfl
  · obtain ⟨row, hr, c, hc⟩ := h
    exact ⟨row, hr, by rw [hc]; rfl⟩

theorem numbersOf_or (rows : List (List (Entry K))) (j : Nat) : (∃ v, numbersOf j rows = .ok v) ∨ numbersOf j rows = .error .type := by
  by_cases h : ∃ row ∈ rows, ∃ c, row.getD j .nan = .str c
  · exact .inr (numbersOf_fails h)
  · push Not at h
    refine .inl ?_
    unfold numbersOf
    have : ∀ row ∈ rows, ∃ v, (row.getD j (.nan : Entry K)).number = .ok v := by
      intro row hr
      cases e : row.getD j (.nan : Entry K) with
      | int n => exact ⟨_, rfl⟩
      | float n => exact ⟨_, rfl⟩
      | nan => exact ⟨_, rfl⟩
      | str c => exact absurd e (h row hr c)
    choose! g hg using this
    exact ⟨_, mapM_all hg⟩

theorem tableCell_fails {rows : List (List (Entry K))} (h : ∃ l, PaperLine.texts l ∈ rows) : tableCell paperColumns rows = .error .type := by
  obtain ⟨l, hl⟩ := h
  have hb : numbersOf 5 rows = .error .type := numbersOf_fails ⟨_, hl, _, rfl⟩
  unfold tableCell deltas paperColumns
  dsimp only
  rw [hb]
  rcases numbersOf_or rows 4 with ⟨v, e⟩ | e <;> rw [e] <;> rfl

/-- **C112** If two or more runs have written to the file, the header of the second one turns every number of the file into a text (the code skips the
line as a group, but not this effect): `table_1_drawing` does not print a single line. A TypeError, or a KeyError if a combination is missing. -/
theorem C112_appended {runs : List (List (PaperLine K))} (h2 : 2 ≤ runs.length) (h : ∀ l ∈ runs.flatten, IsNumber l.tau) (hne : runs.flatten ≠ []) :
    (table1 (runs.flatMap paperLog) = .error .type ∨ table1 (runs.flatMap paperLog) = .error .key) ∧
      (Complete runs.flatten → table1 (runs.flatMap paperLog) = .error .type) := by
  obtain ⟨items, hf, hn, hmem⟩ := runs_file h2
  obtain ⟨P, hparse, hP, hrows⟩ := again_groups (items := items) fun l hl => h l ((hmem l).1 hl)
  have hP' : ∀ d t s, (d, t, s) ∈ P.map (·.1) ↔ ∃ l ∈ runs.flatten, l.dimension = d ∧ cellValue l.tau = t ∧ l.splits = s := by
    intro d t s
    rw [hP]
    simp only [hmem]
  obtain ⟨k1, k2, k3⟩ := keys_spec hP'
  rw [hf, table1_eq (readCsv_paper_again hn), hparse, Py.ok_bind]
  unfold tableLoop
  obtain ⟨dims, hd⟩ : ∃ dims, dims = sortedSet (P.map (·.1.1)) := ⟨_, rfl⟩
  obtain ⟨taus, ht⟩ : ∃ taus, taus = sortedSetDown (P.map (·.1.2.1)) := ⟨_, rfl⟩
  obtain ⟨splits, hs⟩ : ∃ splits, splits = sortedSet (P.map (·.1.2.2)) := ⟨_, rfl⟩
  rw [← hd] at k1
  rw [← ht] at k2
  rw [← hs] at k3
  rw [← hd, ← ht, ← hs]
  obtain ⟨l, hl⟩ := List.exists_mem_of_ne_nil _ hne
  match dims, taus, splits, k1, k2, k3 with
  | [], _, _, k1, _, _ => exact absurd ((k1.2 _).2 ⟨l, hl, rfl⟩) (by simp)
  | _ :: _, [], _, _, k2, _ => exact absurd ((k2.2 _).2 ⟨l, hl, rfl⟩) (by simp)
  | _ :: _, _ :: _, [], _, _, k3 => exact absurd ((k3.2 _).2 ⟨l, hl, rfl⟩) (by simp)
  | d :: ds, t :: ts, s :: ss, k1, k2, k3 =>
    have hfirst : ∀ e, rowsFor (d, t, s) P >>= tableCell paperColumns = .error e →
        (((d :: ds).flatMap fun d => (t :: ts).map fun t => (d, t)).mapM fun dt => tableRow paperColumns P (s :: ss) dt.1 dt.2) = .error e := by
      intro e he
      rw [List.flatMap_cons, List.map_cons, List.cons_append, List.mapM_cons]
      dsimp only
      unfold tableRow
      rw [List.mapM_cons, he]
      rfl
    have hcell : rowsFor (d, t, s) P = .error .key ∨ rowsFor (d, t, s) P >>= tableCell paperColumns = .error .type := by
      by_cases hx : (d, t, s) ∈ P.map (·.1)
      · obtain ⟨l, rest, h1, h2⟩ := (hrows d t s).2 hx
        refine .inr ?_
        rw [h1, Py.ok_bind]
        exact tableCell_fails ⟨l, h2⟩
      · exact .inl ((hrows d t s).1 hx)
    refine ⟨?_, fun hfull => ?_⟩
    · rcases hcell with e | e
      · exact .inr (hfirst .key (by rw [e]; rfl))
      · exact .inl (hfirst .type e)
    · refine hfirst .type (hcell.resolve_left fun e => ?_)
      obtain ⟨a, ha, rfl⟩ := (k1.2 d).1 (by simp)
      obtain ⟨b, hb, rfl⟩ := (k2.2 t).1 (by simp)
      obtain ⟨c, hc, rfl⟩ := (k3.2 s).1 (by simp)
      obtain ⟨l, rest, h1, -⟩ := (hrows _ _ _).2 ((hP' _ _ _).2 (hfull a ha b hb c hc))
      rw [h1] at e
      cases e

/-- **C112** With positive confidences (as C105 guarantees) every entry for the mean confidence is a number below 100, and positive exactly if the
average relative reduction is. -/
theorem C112_positive {lines : List (PaperLine K)} (h : ∀ l ∈ lines, IsNumber l.tau) (hfull : Complete lines)
    (hpos : ∀ l ∈ lines, 0 < l.baseMc ∧ 0 < l.mc) : ∃ out, table1 (paperLog lines) = .ok out ∧ ∀ r ∈ out, ∀ v ∈ r.deltaMc, ∃ m, v = some m ∧ m < 100 := by
  obtain ⟨dims, taus, splits, out, h1, -, -, -, -, h2⟩ := C112_table h hfull
  refine ⟨out, h1, fun r hr v hv => ?_⟩
  obtain ⟨h3, -, -⟩ := h2 r hr
  obtain ⟨s, hav⟩ : ∃ s, AverageReduction ((linesAt lines r.dimension r.tau s).map fun l => (l.mc, l.baseMc)) v := by
    obtain ⟨s, -, h⟩ := forall₂_mem_right h3 hv
    exact ⟨s, h⟩
  have hin : ∀ l ∈ linesAt lines r.dimension r.tau s, l ∈ lines := fun l hl => List.mem_of_mem_filter (List.mem_of_mem_filter hl)
  rcases hav with ⟨⟨p, hp, h0⟩, -⟩ | ⟨-, m, rfl, hne, hm⟩
  · obtain ⟨l, hl, rfl⟩ := List.mem_map.1 hp
    exact absurd h0 (hpos l (hin l hl)).1.ne'
  · refine ⟨m, rfl, ?_⟩
    rw [List.map_map] at hm hne
    revert hm hne
    have hlt : ∀ x ∈ (linesAt lines r.dimension r.tau s).map ((fun p : K × K => reduction p.1 p.2) ∘ fun l => (l.mc, l.baseMc)), x < 100 := by
      intro x hx
      obtain ⟨l, hl, rfl⟩ := List.mem_map.1 hx
      obtain ⟨b, c⟩ := hpos l (hin l hl)
      simp only [Function.comp, reduction, abs_of_pos b]
      have : (l.baseMc - l.mc) / l.baseMc < 1 := by rw [div_lt_one b]; linarith
      linarith
    generalize (linesAt lines r.dimension r.tau s).map ((fun p : K × K => reduction p.1 p.2) ∘ fun l => (l.mc, l.baseMc)) = xs at hlt
    intro hne hm
    have hs : xs.sum < xs.length * 100 := by
      clear hm
      induction xs with
      | nil => exact absurd rfl hne
      | cons x xs ih =>
        have hx := hlt x (by simp)
        by_cases he : xs = []
        · subst he; simp; exact hx
        · have := ih (fun x hx => hlt x (by simp [hx])) he
          rw [List.sum_cons, List.length_cons]
          push_cast
          linarith
    have hlen : (0 : K) < xs.length := by
      rw [Nat.cast_pos]
      exact List.length_pos_iff.2 hne
    rw [← hm] at hs
    exact lt_of_mul_lt_mul_left hs hlen.le

end values

section examples

/-- two replications with one dimension, two values of `tau` and two numbers of splits -/
def exampleLines : List (PaperLine ℚ) :=
  [⟨0, 3, .float (1 / 10), 1, some (1 / 2), 10, 4, 8, 3⟩, ⟨0, 3, .float (1 / 10), 3, some (1 / 2), 10, 4, 5, 2⟩,
    ⟨0, 3, .int 1, 1, some (1 / 4), 10, -4, 9, -5⟩, ⟨0, 3, .int 1, 3, some (1 / 4), 10, -4, 9, -6⟩,
    ⟨1, 3, .float (1 / 10), 1, some 1, 20, 4, 18, 5⟩, ⟨1, 3, .float (1 / 10), 3, some 1, 20, 4, 10, 4⟩,
    ⟨1, 3, .int 1, 1, none, 20, 0, 18, -5⟩, ⟨1, 3, .int 1, 3, none, 20, 0, 24, -6⟩]

example : table1 (paperLog exampleLines) = .ok [⟨3, 1, none, [some 10, some (-5)], [none, none]⟩,
    ⟨3, 1 / 10, some (3 / 4), [some 15, some 50], [some 0, some 25]⟩] := by decide +kernel

example : Complete exampleLines := by
  unfold Complete
  decide +kernel

/-- the second run leaves nothing to print -/
example : table1 (paperLog exampleLines ++ paperLog exampleLines) = .error .type := by decide +kernel

/-- a run that was interrupted -/
example : table1 (paperLog (exampleLines.take 3)) = .error .key := by decide +kernel

end examples
end PyPDP
