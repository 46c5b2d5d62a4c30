/-
C111: the figure `plot_tree_data` (examples/main_random_forest.py) draws from the log file of `generate_data_trees`.
-/
import Verif.Props.Tables
import Verif.Props.MainForest
import Verif.Props.Confidence

namespace PyPDP
open Spec

def forestNames : List String := ["seed", "num_trees", "base_mc", "region_mc"]

/-- a line of the file: seed and measurement -/
def forestLine (p : Int × Measurement) : List (Cell ℝ) :=
  [.int p.1, (match p.2.trees with | some n => .int n | none => .text "dt"), .float p.2.base, optCell p.2.region]

/-- the measurements with their seeds -/
def seeded {S : Type} (reps : List (Int × ForestResult S)) : List (Int × Measurement) :=
  reps.flatMap fun p => (p.2.rows.map fun row => (p.1, (⟨some row.numTrees, row.base, row.region.toOption⟩ : Measurement))) ++
    [(p.1, ⟨none, p.2.dtBase, some p.2.dtRegion⟩)]

theorem pyCell_optCell (r : Py ℝ) : pyCell r = optCell r.toOption := by cases r <;> rfl

theorem seeded_measurements {S : Type} (reps : List (Int × ForestResult S)) : (seeded reps).map Prod.snd = measurements reps := by
  unfold seeded measurements
  rw [List.map_flatMap]
  congr 1
  funext p
  simp

theorem forestLog_eq {S : Type} (reps : List (Int × ForestResult S)) : forestLog reps = forestHeader :: (seeded reps).map forestLine := by
  unfold forestLog seeded
  rw [List.map_flatMap]
  congr 1
  apply List.flatMap_congr
  intro p _
  unfold forestLines
  rw [List.map_append, List.map_map]
  congr 1
  apply List.map_congr_left
  intro row _
  simp only [pyCell_optCell]
  rfl

/-- the entry for the number of trees, read as a text -/
def treeEntry : Option Int → Entry ℝ
  | some n => .str (.int n)
  | none => .str (.text "dt")

/-- a line as read from a file with one header -/
def forestEntries (p : Int × Measurement) : List (Entry ℝ) := [.int p.1, treeEntry p.2.trees, .float p.2.base, optEntry p.2.region]

theorem readCsv_forest {items : List (Int × Measurement)} (hd : ∃ p ∈ items, p.2.trees = none) :
    readCsv (forestHeader :: items.map forestLine) = .ok ⟨forestNames, items.map forestEntries⟩ := by
  obtain ⟨p0, hp0, hdt⟩ := hd
  have hne : items ≠ [] := List.ne_nil_of_mem hp0
  unfold readCsv
  dsimp only
  rw [if_neg]
  · congr 2
    rw [List.map_map]
    apply List.map_congr_left
    intro l _
    have k0 : kindOf (items.map fun p => (.int p.1 : Cell ℝ)) = .int := kindOf_ints _ _
    have k1 : kindOf (items.map fun p => (match p.2.trees with | some n => .int n | none => .text "dt" : Cell ℝ)) = .object := by
      refine kindOf_text (s := "dt") (List.mem_map.2 ⟨p0, hp0, ?_⟩)
      rw [hdt]
    have k2 : kindOf (items.map fun p => (.float p.2.base : Cell ℝ)) = .float := kindOf_floats hne _ (fun _ _ => rfl) (fun _ _ => rfl)
    have k3 : kindOf (items.map fun p => optCell p.2.region) = .float :=
      kindOf_floats hne _ (fun i _ => by cases i.2.region <;> rfl) (fun i _ => by cases i.2.region <;> rfl)
    simp only [Function.comp]
    show (List.range 4).map _ = _
    simp only [List.range_succ, List.range_zero, List.nil_append, List.cons_append, List.map_cons, List.map_nil, List.map_map]
    unfold forestLine forestEntries
    simp only [List.getD_cons_zero, List.getD_cons_succ, k0, k1, k2, k3, optCell_entry, Function.comp_def]
    cases l.2.trees <;> rfl
  · simp only [List.any_eq_true, not_exists, not_and, decide_eq_true_eq, List.mem_map]
    rintro _ ⟨l, _, rfl⟩
    show ¬ 4 < 4
    omega

theorem find_key {α β : Type} (L : List α) (F : α → β) (p : α → Bool) {k0 : α} (h : ∀ k ∈ L, p k = true ↔ k = k0) (hk : k0 ∈ L) :
    (L.map fun k => (k, F k)).find? (fun g => p g.1) = some (k0, F k0) := by
  induction L with
  | nil => simp at hk
  | cons k L ih =>
    rw [List.map_cons]
    by_cases hp : p k = true
    · rw [List.find?_cons_of_pos (by simpa using hp), (h k (by simp)).1 hp]
    · rw [List.find?_cons_of_neg (by simpa using hp)]
      refine ih (fun k hk => h k (by simp [hk])) ((List.mem_cons.1 hk).resolve_left fun e => hp ((h k (by simp)).2 e.symm))

/-- the key of a line -/
theorem treeEntry_inj {a b : Option Int} : treeEntry a = treeEntry b ↔ a = b := by
  cases a <;> cases b <;> simp [treeEntry]

/-! ### one group -/

theorem optStd_spec {xs : List (Option ℝ)} (h : xs ≠ []) : OptDeviation xs (optStd xs) := by
  have e : optStd xs = (xs.mapM id).map npStd := by
    cases xs with
    | nil => exact absurd rfl h
    | cons _ _ => rfl
  by_cases hn : none ∈ xs
  · refine .inl ⟨hn, ?_⟩
    rw [e, sequence_none hn]
    rfl
  · obtain ⟨vs, rfl⟩ := all_some hn
    have hvs : vs ≠ [] := by rintro rfl; exact h rfl
    refine .inr ⟨vs, npStd vs, rfl, ?_, npMean vs, averageOf_div hvs, Real.sqrt_nonneg _, ?_⟩
    · rw [e, sequence_some]
      rfl
    · unfold npStd
      have hlen : (vs.length : ℝ) ≠ 0 := by
        rw [Nat.cast_ne_zero]
        intro h0
        exact hvs (List.length_eq_zero_iff.1 h0)
      rw [Real.sq_sqrt]
      · unfold npMean
        rw [List.length_map]
        field_simp
      · unfold npMean
        refine div_nonneg (List.sum_nonneg ?_) (Nat.cast_nonneg _)
        intro x hx
        obtain ⟨v, -, rfl⟩ := List.mem_map.1 hx
        exact sq_nonneg _

/-- the relative reduction of a measurement is its reduction in percent, divided by 100 -/
theorem percent_optDelta (m : Measurement) : percent (optDelta m.region (some m.base)) = m.reduction := by
  unfold Measurement.reduction
  by_cases h : m.base = 0
  · rw [if_pos h, h]
    cases m.region with
    | none => rfl
    | some v => rw [optDelta_zero]; rfl
  · rw [if_neg h]
    cases m.region with
    | none => rfl
    | some v => rw [optDelta_ne _ h]; rfl

theorem percent_average {xs : List (Option ℝ)} {r : Option ℝ} (h : OptAverage xs r) : OptAverage (xs.map percent) (percent r) := by
  rcases h with ⟨hn, rfl⟩ | ⟨vs, m, rfl, rfl, hvs, hm⟩
  · exact .inl ⟨List.mem_map.2 ⟨none, hn, rfl⟩, rfl⟩
  · refine .inr ⟨vs.map (· * 100), m * 100, by simp [percent, Function.comp_def], rfl, by simpa using hvs, ?_⟩
    have := sum_map_mul_const vs (fun x => x) (100 : ℝ)
    rw [List.map_id'] at this
    rw [this, List.length_map, ← hm]
    ring

theorem percent_deviation {xs : List (Option ℝ)} {r : Option ℝ} (h : OptDeviation xs r) : OptDeviation (xs.map percent) (percent r) := by
  rcases h with ⟨hn, rfl⟩ | ⟨vs, s, rfl, rfl, m, ⟨hvs, hm⟩, hs, hsum⟩
  · exact .inl ⟨List.mem_map.2 ⟨none, hn, rfl⟩, rfl⟩
  · refine .inr ⟨vs.map (· * 100), s * 100, by simp [percent, Function.comp_def], rfl, m * 100, ⟨by simpa using hvs, ?_⟩, by positivity, ?_⟩
    · have := sum_map_mul_const vs (fun x => x) (100 : ℝ)
      rw [List.map_id'] at this
      rw [this, List.length_map, ← hm]
      ring
    · rw [List.map_map, List.length_map]
      have : (vs.map ((fun x => (x - m * 100) ^ 2) ∘ fun x => x * 100)) = vs.map fun x => (x - m) ^ 2 * 10000 := by
        apply List.map_congr_left
        intro x _
        simp only [Function.comp]
        ring
      rw [this, sum_map_mul_const vs (fun x => (x - m) ^ 2) 10000, ← hsum]
      ring

theorem treeGroup_ok {sel : List (Int × Measurement)} (h : sel ≠ []) :
    ∃ m s, treeGroup 3 2 (sel.map forestEntries) = .ok (m, s) ∧ OptAverage (sel.map fun p => p.2.reduction) m ∧
      OptDeviation (sel.map fun p => p.2.reduction) s := by
  have hd : deltas 3 2 (sel.map forestEntries) = .ok (sel.map fun p => optDelta p.2.region (some p.2.base)) := by
    unfold deltas
    rw [numbersOf_map (R := forestEntries) (g := fun p => some p.2.base) (j := 2) fun _ _ => rfl, Py.ok_bind,
      numbersOf_map (R := forestEntries) (g := fun p => p.2.region) (j := 3) fun l _ => optEntry_number l.2.region, Py.ok_bind, zipWith_map_same]
    rfl
  have hp : (sel.map fun p => optDelta p.2.region (some p.2.base)).map percent = sel.map fun p => p.2.reduction := by
    rw [List.map_map]
    apply List.map_congr_left
    intro p _
    exact percent_optDelta p.2
  obtain ⟨ds, hds⟩ : ∃ ds, ds = sel.map fun p => optDelta p.2.region (some p.2.base) := ⟨_, rfl⟩
  have hne : ds ≠ [] := by rw [hds]; simpa using h
  rw [← hds] at hd hp
  refine ⟨percent (optMean ds), percent (optStd ds), ?_, ?_, ?_⟩
  · unfold treeGroup
    rw [hd, Py.ok_bind]
    rfl
  · rw [← hp]
    exact percent_average (optMean_spec hne)
  · rw [← hp]
    exact percent_deviation (optStd_spec hne)

/-! ### the figure -/

theorem reductionsFor_eq {S : Type} (reps : List (Int × ForestResult S)) (t : Option Int) :
    (((seeded reps).filter fun p => decide (p.2.trees = t)).map fun p => p.2.reduction) = reductionsFor reps t := by
  unfold reductionsFor
  rw [← seeded_measurements, List.filter_map, List.map_map]
  rfl

/-- **C111** From the log of one call with at least one replication the figure shows, for the decision tree and for each number of trees that was
used, in increasing order, the mean and the standard deviation of the measured reductions. -/
theorem C111_data {S : Type} {reps : List (Int × ForestResult S)} (h : reps ≠ []) :
    ∃ t, treeData (forestLog reps) = .ok t ∧ OptAverage (reductionsFor reps none) t.dtMean ∧ OptDeviation (reductionsFor reps none) t.dtStd ∧
      t.xs.Pairwise (· < ·) ∧ (∀ n, n ∈ t.xs ↔ ∃ p ∈ reps, ∃ row ∈ p.2.rows, row.numTrees = n) ∧
      List.Forall₂ (fun n m => OptAverage (reductionsFor reps (some n)) m) t.xs t.means ∧
      List.Forall₂ (fun n s => OptDeviation (reductionsFor reps (some n)) s) t.xs t.stds := by
  obtain ⟨items, hit⟩ : ∃ items, items = seeded reps := ⟨_, rfl⟩
  have hd : ∃ p ∈ items, p.2.trees = none := by
    obtain ⟨p, rest, rfl⟩ := List.exists_cons_of_ne_nil h
    refine ⟨(p.1, ⟨none, p.2.dtBase, some p.2.dtRegion⟩), ?_, rfl⟩
    rw [hit, seeded]
    simp
  have hread : readCsv (forestLog reps) = .ok ⟨forestNames, items.map forestEntries⟩ := by rw [forestLog_eq, ← hit]; exact readCsv_forest hd
  have hgroups : (⟨forestNames, items.map forestEntries⟩ : Frame ℝ).groups [1] =
      (items.map fun p => [treeEntry p.2.trees]).dedup.map fun k => (k, (items.filter fun p => decide ([treeEntry p.2.trees] = k)).map forestEntries) := by
    unfold Frame.groups
    dsimp only
    rw [List.map_map]
    show (items.map fun p => [treeEntry p.2.trees]).dedup.map _ = _
    apply List.map_congr_left
    intro k _
    rw [List.filter_map]
    rfl
  obtain ⟨L, hL⟩ : ∃ L, L = (items.map fun p => [treeEntry p.2.trees]).dedup := ⟨_, rfl⟩
  have hLmem : ∀ t, [treeEntry t] ∈ L ↔ ∃ p ∈ items, p.2.trees = t := by
    intro t
    rw [hL, List.mem_dedup, List.mem_map]
    simp only [List.cons.injEq, and_true, treeEntry_inj]
  have hLform : ∀ k ∈ L, ∃ t, k = [treeEntry t] := by
    intro k hk
    rw [hL, List.mem_dedup, List.mem_map] at hk
    obtain ⟨p, -, rfl⟩ := hk
    exact ⟨_, rfl⟩
  have hLnodup : L.Nodup := by rw [hL]; exact List.nodup_dedup _
  rw [← hL] at hgroups
  have hsel : ∀ t, (items.filter fun p => decide ([treeEntry p.2.trees] = [treeEntry t])) = items.filter fun p => decide (p.2.trees = t) := by
    intro t
    apply List.filter_congr
    intro p _
    simp only [List.cons.injEq, and_true, treeEntry_inj]
  have hred : ∀ t, ((items.filter fun p => decide (p.2.trees = t)).map fun p => p.2.reduction) = reductionsFor reps t := by
    intro t
    rw [hit]
    exact reductionsFor_eq reps t
  -- the statistics of a group
  have hstat : ∀ t, (∃ p ∈ items, p.2.trees = t) → ∃ m s, treeGroup 3 2 ((items.filter fun p => decide (p.2.trees = t)).map forestEntries) = .ok (m, s) ∧
      OptAverage (reductionsFor reps t) m ∧ OptDeviation (reductionsFor reps t) s := by
    rintro t ⟨p, hp, ht⟩
    rw [← hred t]
    exact treeGroup_ok (List.ne_nil_of_mem (List.mem_filter.2 ⟨hp, by simpa using ht⟩))
  obtain ⟨m, s, hms, hm, hs⟩ := hstat none hd
  -- the decision tree
  have hnamed : groupNamed [.str (.text "dt")] ((⟨forestNames, items.map forestEntries⟩ : Frame ℝ).groups [1]) =
      .ok ((items.filter fun p => decide (p.2.trees = none)).map forestEntries) := by
    unfold groupNamed
    rw [hgroups, find_key L _ (fun k => decide (k = [.str (.text "dt")])) (k0 := [treeEntry none]) (fun k _ => by simp [treeEntry]) ((hLmem none).2 hd)]
    dsimp only
    rw [hsel]
  have hnumber : ∀ n, (∃ p ∈ items, p.2.trees = some n) → groupNumbered n ((⟨forestNames, items.map forestEntries⟩ : Frame ℝ).groups [1]) =
      .ok ((items.filter fun p => decide (p.2.trees = some n)).map forestEntries) := by
    intro n hn
    unfold groupNumbered
    rw [hgroups, find_key L _ (fun k => decide (k = [.int n] ∨ k = [.str (.int n)])) (k0 := [treeEntry (some n)]) ?_ ((hLmem _).2 hn)]
    · dsimp only
      rw [hsel]
    · intro k hk
      obtain ⟨t, rfl⟩ := hLform k hk
      cases t <;> simp [treeEntry]
  -- the numbers of trees
  obtain ⟨g, hg⟩ : ∃ g : List (Entry ℝ) → Int, g = fun k => match k with
      | [.str (.int n)] => n
      | _ => 0 := ⟨_, rfl⟩
  obtain ⟨Ks, hKs⟩ : ∃ Ks, Ks = L.filter fun k => decide (k ≠ [.str (.text "dt")]) := ⟨_, rfl⟩
  have hKform : ∀ k ∈ Ks, ∃ n, k = [treeEntry (some n)] ∧ ∃ p ∈ items, p.2.trees = some n := by
    intro k hk
    rw [hKs, List.mem_filter] at hk
    obtain ⟨t, rfl⟩ := hLform k hk.1
    cases t with
    | none => simp [treeEntry] at hk
    | some n => exact ⟨n, rfl, (hLmem _).1 hk.1⟩
  have hmem : ∀ n, n ∈ Ks.map g ↔ ∃ p ∈ items, p.2.trees = some n := by
    intro n
    rw [List.mem_map]
    constructor
    · rintro ⟨k, hk, rfl⟩
      obtain ⟨n, rfl, hp⟩ := hKform k hk
      rw [hg]
      exact hp
    · intro hp
      refine ⟨[treeEntry (some n)], ?_, by rw [hg]; rfl⟩
      rw [hKs, List.mem_filter]
      exact ⟨(hLmem _).2 hp, by simp [treeEntry]⟩
  have hnodup : (Ks.map g).Nodup := by
    refine List.Nodup.map_on ?_ (by rw [hKs]; exact hLnodup.filter _)
    intro a ha b hb hab
    obtain ⟨n, rfl, -⟩ := hKform a ha
    obtain ⟨n', rfl, -⟩ := hKform b hb
    rw [hg] at hab
    have : n = n' := hab
    rw [this]
  obtain ⟨xs, hxsd⟩ : ∃ xs, xs = (Ks.map g).insertionSort (· ≤ ·) := ⟨_, rfl⟩
  have hperm : xs.Perm (Ks.map g) := by rw [hxsd]; exact List.perm_insertionSort _ _
  have hstats : ∀ n ∈ xs, ∃ q : Option ℝ × Option ℝ, (do
      let rows ← groupNumbered n ((⟨forestNames, items.map forestEntries⟩ : Frame ℝ).groups [1])
      treeGroup 3 2 rows) = .ok q ∧ OptAverage (reductionsFor reps (some n)) q.1 ∧ OptDeviation (reductionsFor reps (some n)) q.2 := by
    intro n hn
    have hp := (hmem n).1 (hperm.mem_iff.1 hn)
    obtain ⟨m, s, h1, h2, h3⟩ := hstat (some n) hp
    exact ⟨(m, s), by rw [hnumber n hp, Py.ok_bind]; exact h1, h2, h3⟩
  choose! q hq1 hq2 hq3 using hstats
  refine ⟨⟨m, s, xs, (xs.map q).map (·.1), (xs.map q).map (·.2)⟩, ?_, hm, hs, ?_, ?_, ?_, ?_⟩
  · unfold treeData
    have c : ∀ (e : PyErr) (n : String) (j : Nat), forestNames.findIdx? (· == n) = some j →
        (⟨forestNames, items.map forestEntries⟩ : Frame ℝ).column e n = .ok j := by
      intro e n j h
      unfold Frame.column
      dsimp only
      rw [h]
    rw [hread, Py.ok_bind, c _ _ 1 (by decide), Py.ok_bind]
    dsimp only
    rw [c _ _ 3 (by decide), Py.ok_bind, c _ _ 2 (by decide), Py.ok_bind, hnamed, Py.ok_bind, hms, Py.ok_bind]
    dsimp only
    have hkeys : ((⟨forestNames, items.map forestEntries⟩ : Frame ℝ).groups [1]).map (·.1) = L := by
      rw [hgroups, List.map_map]
      exact List.map_id' _
    rw [hkeys, ← hKs, mapM_all (l := Ks) (g := g) ?_, Py.ok_bind, ← hxsd, mapM_all hq1, Py.ok_bind]
    · rfl
    · intro k hk
      obtain ⟨n, rfl, -⟩ := hKform k hk
      rw [hg]
      rfl
  · have h1 : xs.Pairwise (· ≤ ·) := by rw [hxsd]; exact List.pairwise_insertionSort _ _
    have h2 : xs.Nodup := hperm.nodup_iff.2 hnodup
    exact (h1.and h2).imp fun h => lt_of_le_of_ne h.1 h.2
  · intro n
    dsimp only
    rw [hperm.mem_iff, hmem, hit]
    unfold seeded
    simp only [List.mem_flatMap, List.mem_append, List.mem_map, List.mem_singleton]
    constructor
    · rintro ⟨x, ⟨p, hp, ⟨row, hrow, rfl⟩ | rfl⟩, hx⟩
      · exact ⟨p, hp, row, hrow, by simpa using hx⟩
      · cases hx
    · rintro ⟨p, hp, row, hrow, rfl⟩
      exact ⟨_, ⟨p, hp, .inl ⟨row, hrow, rfl⟩⟩, rfl⟩
  · dsimp only
    rw [List.map_map, List.forall₂_map_right_iff, List.forall₂_same]
    exact fun n hn => hq2 n hn
  · dsimp only
    rw [List.map_map, List.forall₂_map_right_iff, List.forall₂_same]
    exact fun n hn => hq3 n hn

/-- a line of a file with several headers: `none` stands for another header -/
def forestItem : Option (Int × Measurement) → List (Cell ℝ)
  | some p => forestLine p
  | none => forestHeader

/-- ... as read: all columns are texts -/
def forestTexts : Option (Int × Measurement) → List (Entry ℝ)
  | some p => [.str (.int p.1), treeEntry p.2.trees, .str (.float p.2.base), optText p.2.region]
  | none => forestHeader.map Entry.str

theorem readCsv_forest_again {items : List (Option (Int × Measurement))} (hn : none ∈ items) :
    readCsv (forestHeader :: items.map forestItem) = .ok ⟨forestNames, items.map forestTexts⟩ := by
  have hk : ∀ j : Nat, j < 4 → kindOf ((items.map forestItem).map (·.getD j .nan)) = .object := by
    intro j hj
    obtain ⟨s, hs⟩ : ∃ s, forestHeader.getD j .nan = .text s := by
      interval_cases j <;> exact ⟨_, rfl⟩
    refine kindOf_text (s := s) ?_
    rw [← hs]
    exact List.mem_map.2 ⟨_, List.mem_map.2 ⟨none, hn, rfl⟩, rfl⟩
  unfold readCsv
  dsimp only
  rw [if_neg]
  · congr 2
    rw [List.map_map]
    apply List.map_congr_left
    intro i _
    simp only [Function.comp]
    have e : ((List.range forestHeader.length).map fun j =>
        ((forestItem i).getD j .nan).entry (kindOf ((items.map forestItem).map (·.getD j .nan)))) =
          (List.range 4).map fun j => ((forestItem i).getD j .nan).entry .object := by
      show (List.range 4).map _ = _
      apply List.map_congr_left
      intro j hj
      rw [hk j (List.mem_range.1 hj)]
    rw [e]
    cases i with
    | none => rfl
    | some p =>
      simp only [List.range_succ, List.range_zero, List.nil_append, List.cons_append, List.map_cons, List.map_nil]
      unfold forestItem forestTexts forestLine
      simp only [List.getD_cons_zero, List.getD_cons_succ, optCell_text]
      cases p.2.trees <;> rfl
  · simp only [List.any_eq_true, not_exists, not_and, decide_eq_true_eq, List.mem_map]
    rintro _ ⟨i, _, rfl⟩
    cases i <;> (show ¬ 4 < 4; omega)

theorem forest_runs {S : Type} {runs : List (List (Int × ForestResult S))} (h : 2 ≤ runs.length) :
    ∃ items : List (Option (Int × Measurement)), runs.flatMap forestLog = forestHeader :: items.map forestItem ∧ none ∈ items ∧
      ∀ p, some p ∈ items ↔ ∃ reps ∈ runs, p ∈ seeded reps := by
  match runs, h with
  | A :: B :: rest, _ =>
    have key : ∀ rs : List (List (Int × ForestResult S)), (rs.flatMap fun r => none :: (seeded r).map some).map forestItem = rs.flatMap forestLog := by
      intro rs
      rw [List.map_flatMap]
      apply List.flatMap_congr
      intro r _
      rw [forestLog_eq, List.map_cons, List.map_map]
      rfl
    refine ⟨(seeded A).map some ++ (B :: rest).flatMap (fun r => none :: (seeded r).map some), ?_, ?_, ?_⟩
    · rw [List.map_append, key, List.flatMap_cons, forestLog_eq, List.cons_append, List.map_map]
      rfl
    · simp
    · intro p
      simp only [List.mem_append, List.mem_map, List.mem_flatMap, List.mem_cons]
      constructor
      · rintro (⟨a, ha, h⟩ | ⟨r, hr, h⟩)
        · exact ⟨A, .inl rfl, by cases h; exact ha⟩
        · rcases h with h | ⟨a, ha, h⟩
          · cases h
          · exact ⟨r, .inr hr, by cases h; exact ha⟩
      · rintro ⟨r, hr | hr, hp⟩
        · exact .inl ⟨p, hr ▸ hp, rfl⟩
        · exact .inr ⟨r, hr, .inr ⟨p, hp, rfl⟩⟩

/-- a call without replications leaves only the header, and so a KeyError: there is no decision tree -/
theorem C111_empty {S : Type} : treeData (forestLog ([] : List (Int × ForestResult S))) = .error .key := rfl

theorem groupNamed_none {key : List (Entry ℝ)} {groups : List (List (Entry ℝ) × List (List (Entry ℝ)))} (h : ∀ g ∈ groups, g.1 ≠ key) :
    groupNamed key groups = .error .key := by
  unfold groupNamed
  rw [List.find?_eq_none.2 fun g hg => by simpa using h g hg]

/-- **C111** Once the file has been written to by two or more calls, there is no figure: a TypeError if there was a replication, and a KeyError if not. -/
theorem C111_appended {S : Type} {runs : List (List (Int × ForestResult S))} (h : 2 ≤ runs.length) :
    treeData (runs.flatMap forestLog) = .error (if ∃ reps ∈ runs, reps ≠ [] then .type else .key) := by
  obtain ⟨items, hfile, hn, hmem⟩ := forest_runs h
  have hread := readCsv_forest_again hn
  obtain ⟨K, hK⟩ : ∃ K : Option (Int × Measurement) → List (Entry ℝ), K = fun i => match i with
      | some p => [treeEntry p.2.trees]
      | none => [.str (.text "num_trees")] := ⟨_, rfl⟩
  have hKey : ∀ i, ([1].map fun j => (forestTexts i).getD j .nan) = K i := by
    intro i
    rw [hK]
    cases i <;> rfl
  have hgroups : (⟨forestNames, items.map forestTexts⟩ : Frame ℝ).groups [1] =
      (items.map K).dedup.map fun k => (k, (items.filter fun i => decide (K i = k)).map forestTexts) := by
    unfold Frame.groups
    dsimp only
    rw [List.map_map]
    have e : items.map ((fun row => [1].map fun j => row.getD j .nan) ∘ forestTexts) = items.map K := List.map_congr_left fun i _ => hKey i
    rw [e]
    apply List.map_congr_left
    intro k _
    rw [List.filter_map]
    congr 2
    apply List.filter_congr
    intro i _
    simp only [Function.comp, hKey]
  have c : ∀ (e : PyErr) (n : String) (j : Nat), forestNames.findIdx? (· == n) = some j →
      (⟨forestNames, items.map forestTexts⟩ : Frame ℝ).column e n = .ok j := by
    intro e n j h
    unfold Frame.column
    dsimp only
    rw [h]
  have hstart : treeData (runs.flatMap forestLog) = groupNamed [.str (.text "dt")] ((⟨forestNames, items.map forestTexts⟩ : Frame ℝ).groups [1]) >>= fun dt => do
      let (m, s) ← treeGroup 3 2 dt
      let xs ← ((((⟨forestNames, items.map forestTexts⟩ : Frame ℝ).groups [1]).map (·.1)).filter fun k => decide (k ≠ [.str (.text "dt")])).mapM fun k =>
        match k with
        | [e] => e.toInt
        | _ => .error .value
      let xs := xs.insertionSort (· ≤ ·)
      let stats ← xs.mapM fun n => do
        let rows ← groupNumbered n ((⟨forestNames, items.map forestTexts⟩ : Frame ℝ).groups [1])
        treeGroup 3 2 rows
      return ⟨m, s, xs, stats.map (·.1), stats.map (·.2)⟩ := by
    unfold treeData
    rw [hfile, hread, Py.ok_bind, c _ _ 1 (by decide), Py.ok_bind]
    dsimp only
    rw [c _ _ 3 (by decide), Py.ok_bind, c _ _ 2 (by decide), Py.ok_bind]
    rfl
  rw [hstart]
  by_cases hr : ∃ reps ∈ runs, reps ≠ []
  · rw [if_pos hr]
    obtain ⟨reps, hreps, hne⟩ := hr
    obtain ⟨p, rest, rfl⟩ := List.exists_cons_of_ne_nil hne
    obtain ⟨x, hx⟩ : ∃ x : Int × Measurement, x = (p.1, ⟨none, p.2.dtBase, some p.2.dtRegion⟩) := ⟨_, rfl⟩
    have hin : some x ∈ items := (hmem x).2 ⟨_, hreps, by rw [hx, seeded]; simp⟩
    have hKx : K (some x) = [.str (.text "dt")] := by rw [hK, hx]; rfl
    have hnamed : groupNamed [.str (.text "dt")] ((⟨forestNames, items.map forestTexts⟩ : Frame ℝ).groups [1]) =
        .ok ((items.filter fun i => decide (K i = [.str (.text "dt")])).map forestTexts) := by
      unfold groupNamed
      rw [hgroups, find_key (items.map K).dedup _ (fun k => decide (k = [.str (.text "dt")])) (k0 := [.str (.text "dt")]) (fun k _ => by simp)
        (List.mem_dedup.2 (List.mem_map.2 ⟨_, hin, hKx⟩))]
    have hsel : forestTexts (some x) ∈ (items.filter fun i => decide (K i = [.str (.text "dt")])).map forestTexts :=
      List.mem_map.2 ⟨some x, List.mem_filter.2 ⟨hin, by simpa using hKx⟩, rfl⟩
    rw [hnamed, Py.ok_bind]
    have hfail : treeGroup 3 2 ((items.filter fun i => decide (K i = [.str (.text "dt")])).map forestTexts) = .error .type := by
      unfold treeGroup deltas
      rw [numbersOf_fails (j := 2) ⟨_, hsel, .float x.2.base, rfl⟩]
      rfl
    rw [hfail]
    rfl
  · rw [if_neg hr, groupNamed_none]
    · rfl
    · rw [hgroups]
      intro g hg
      obtain ⟨k, hk, rfl⟩ := List.mem_map.1 hg
      rw [List.mem_dedup, List.mem_map] at hk
      obtain ⟨i, hi, rfl⟩ := hk
      cases i with
      | none => rw [hK]; simp
      | some p =>
        obtain ⟨reps, hreps, hp⟩ := (hmem p).1 hi
        have : reps = [] := by
          by_contra hx
          exact hr ⟨reps, hreps, hx⟩
        rw [this] at hp
        simp [seeded] at hp

/-! ### on the script -/

theorem average_bound {xs : List (Option ℝ)} {r : Option ℝ} (h : OptAverage xs r) {b : ℝ} (hb : ∀ x ∈ xs, ∀ v, x = some v → v < b) : ∀ v, r = some v → v < b := by
  rintro v rfl
  rcases h with ⟨-, e⟩ | ⟨vs, m, rfl, e, hne, hm⟩
  · cases e
  · cases e
    have hlt : ∀ x ∈ vs, x < b := fun x hx => hb _ (List.mem_map.2 ⟨x, hx, rfl⟩) x rfl
    have hpos : (0 : ℝ) < vs.length := by
      rw [Nat.cast_pos]
      exact List.length_pos_of_ne_nil hne
    have hsum : vs.sum < vs.length * b := by
      have := List.sum_lt_sum_of_ne_nil (l := vs) hne (fun x => x) (fun _ => b) hlt
      simpa using this
    rw [← hm] at hsum
    exact lt_of_mul_lt_mul_left hsum hpos.le

theorem reduction_lt {v b : ℝ} (hb : 0 < b) (hv : 0 < v) : Spec.reduction v b < 100 := by
  unfold Spec.reduction
  rw [abs_of_pos hb]
  have : (b - v) / b < 1 := by rw [div_lt_one hb]; linarith
  linarith

/-- **C111** For the replications the script itself performs, everything that is drawn is a number below 100, the decision tree always has a number, and
a forest with at most two trees as well. -/
theorem C111_script {S : Type} {reps : List (Int × ForestResult S)} (h : reps ≠ []) {d : Nat} (hd : 2 ≤ d) {k : Nat} (hk1 : 1 ≤ k) (hk2 : k ≤ d)
    (kind : AcqKind) {initial n nCandidates : Int} (hini : 1 ≤ initial) (hn1 : 1 ≤ n) (hn : 2 ≤ nCandidates) {perAxis : Nat} (hg : 1 ≤ perAxis)
    {size depth : Int} (hs : 0 < size) (hdep : 0 < depth) (numTrees : List Int) (hnum : ∀ q ∈ numTrees, 0 < q)
    (hrun : ∀ p ∈ reps, ∃ (i : MainInput S) (f : BlackboxFn ℝ) (drawn : List (Config ℝ)) (ofVector : List ℝ → Config ℝ) (calls : List (Int × (Nat → ForestDraw))),
      forNDimensions i.order (-5) 5 false styblinskiTangValue (d : ℝ) none none = .ok f ∧ i.Good f.cs ∧ i.iceDraws = .many drawn ∧
      (∀ c ∈ drawn, ConfigOf f.cs c.vector (ofVector c.vector)) ∧ calls.map Prod.fst = numTrees ∧
      (∀ q ∈ calls, ∀ k : Nat, (k : Int) < q.1 → DrawFor drawn.length (d - 1) size (q.2 k)) ∧
      forestScript i ofVector calls d ("x" ++ toString k) kind initial n nCandidates perAxis size depth = .ok p.2) :
    ∃ t, treeData (forestLog reps) = .ok t ∧ t.xs.Pairwise (· < ·) ∧ (∀ q, q ∈ t.xs ↔ q ∈ numTrees) ∧
      (∃ m s, t.dtMean = some m ∧ t.dtStd = some s ∧ m < 100 ∧ 0 ≤ s) ∧ t.means.length = t.xs.length ∧ t.stds.length = t.xs.length ∧
      ∀ (j : Nat) (q : Int), t.xs[j]? = some q → ∃ v s, t.means[j]? = some v ∧ t.stds[j]? = some s ∧ (v = none ↔ s = none) ∧
        (q ≤ 2 → v ≠ none) ∧ (∀ m, v = some m → m < 100) ∧ ∀ m, s = some m → 0 ≤ m := by
  -- what each replication measures
  have hfacts : ∀ p ∈ reps, 0 < p.2.dtBase ∧ 0 < p.2.dtRegion ∧ p.2.rows.map ForestRow.numTrees = numTrees ∧
      ∀ row ∈ p.2.rows, 0 < row.base ∧ ((row.region = .error .nan ∧ 3 ≤ row.numTrees) ∨ ∃ m, row.region = .ok m ∧ 0 < m) := by
    intro p hp
    obtain ⟨i, f, drawn, ofVector, calls, hf, hi, hdr, hof, hnt, hcalls, hres⟩ := hrun p hp
    obtain ⟨res, hres', -, hb, hr, -, hrows, hrow⟩ := C104_forest_script hd hf hi hdr hk1 hk2 kind hini hn1 hn hg hs hdep hof
      (fun q hq => ⟨hnum q.1 (by rw [← hnt]; exact List.mem_map.2 ⟨q, hq, rfl⟩), hcalls q hq⟩)
    rw [hres] at hres'
    cases hres'
    refine ⟨hb.1, hr.1, hrows.trans hnt, fun row hrow' => ?_⟩
    obtain ⟨hbase, hreg⟩ := hrow row hrow'
    refine ⟨hbase ▸ hb.1, ?_⟩
    rcases hreg with hreg | ⟨m, -, hm, hm0, -⟩
    · exact .inl hreg
    · exact .inr ⟨m, hm, hm0⟩
  -- the measurements
  have hmeas : ∀ x ∈ measurements reps, 0 < x.base ∧ ((x.region = none ∧ ∃ q, x.trees = some q ∧ 3 ≤ q) ∨ ∃ m, x.region = some m ∧ 0 < m) := by
    intro x hx
    unfold measurements at hx
    simp only [List.mem_flatMap, List.mem_append, List.mem_map, List.mem_singleton] at hx
    obtain ⟨p, hp, ⟨row, hrow, rfl⟩ | rfl⟩ := hx
    · obtain ⟨hb, hr⟩ := (hfacts p hp).2.2.2 row hrow
      refine ⟨hb, ?_⟩
      rcases hr with ⟨hr, h3⟩ | ⟨m, hr, hm⟩
      · exact .inl ⟨by simp only [hr]; rfl, _, rfl, h3⟩
      · exact .inr ⟨m, by simp only [hr]; rfl, hm⟩
    · exact ⟨(hfacts p hp).1, .inr ⟨_, rfl, (hfacts p hp).2.1⟩⟩
  have hlt : ∀ t, ∀ x ∈ reductionsFor reps t, ∀ v, x = some v → v < 100 := by
    rintro t x hx v rfl
    obtain ⟨m, hm, he⟩ := List.mem_map.1 hx
    obtain ⟨hb, hr⟩ := hmeas m (List.mem_filter.1 hm).1
    unfold Measurement.reduction at he
    rw [if_neg hb.ne'] at he
    rcases hr with ⟨hr, -⟩ | ⟨w, hr, hw⟩
    · rw [hr] at he; cases he
    · rw [hr] at he
      cases he
      exact reduction_lt hb hw
  have hnone : ∀ t, none ∈ reductionsFor reps t → ∃ q, t = some q ∧ 3 ≤ q := by
    intro t hx
    obtain ⟨m, hm, he⟩ := List.mem_map.1 hx
    obtain ⟨hm, ht⟩ := List.mem_filter.1 hm
    obtain ⟨hb, hr⟩ := hmeas m hm
    unfold Measurement.reduction at he
    rw [if_neg hb.ne'] at he
    rcases hr with ⟨-, q, hq, h3⟩ | ⟨w, hr, hw⟩
    · exact ⟨q, by rw [← hq]; exact (of_decide_eq_true ht).symm, h3⟩
    · rw [hr] at he; cases he
  have hdev : ∀ {xs r}, OptDeviation xs r → (∀ m, r = some m → 0 ≤ m) ∧ (r = none ↔ none ∈ xs) := by
    rintro xs r (⟨hn, rfl⟩ | ⟨vs, s, rfl, rfl, m, -, hs, -⟩)
    · exact ⟨by simp, by simpa using hn⟩
    · exact ⟨by rintro m ⟨⟩; exact hs, by simp⟩
  have havg : ∀ {xs r}, OptAverage (K := ℝ) xs r → (r = none ↔ none ∈ xs) := by
    rintro xs r (⟨hn, rfl⟩ | ⟨vs, s, rfl, rfl, -⟩)
    · simpa using hn
    · simp
  obtain ⟨t, ht, h1, h2, h3, h4, h5, h6⟩ := C111_data h
  refine ⟨t, ht, h3, fun q => ?_, ?_, h5.length_eq.symm, h6.length_eq.symm, ?_⟩
  · rw [h4]
    constructor
    · rintro ⟨p, hp, row, hrow, rfl⟩
      rw [← (hfacts p hp).2.2.1]
      exact List.mem_map.2 ⟨row, hrow, rfl⟩
    · intro hq
      obtain ⟨p, rest, rfl⟩ := List.exists_cons_of_ne_nil h
      have hq' := hq
      rw [← (hfacts p (by simp)).2.2.1] at hq'
      obtain ⟨row, hrow, e⟩ := List.mem_map.1 hq'
      exact ⟨p, by simp, row, hrow, e⟩
  · have hno : none ∉ reductionsFor reps none := fun hx => by
      obtain ⟨q, hq, -⟩ := hnone none hx
      cases hq
    obtain ⟨m, hm⟩ := Option.ne_none_iff_exists'.1 fun e => hno ((havg h1).1 e)
    obtain ⟨s, hs⟩ := Option.ne_none_iff_exists'.1 fun e => hno ((hdev h2).2.1 e)
    exact ⟨m, s, hm, hs, average_bound h1 (hlt none) m hm, (hdev h2).1 s hs⟩
  · intro j q hj
    obtain ⟨hjl, hjq⟩ := List.getElem?_eq_some_iff.1 hj
    have hjm : j < t.means.length := by rw [← h5.length_eq]; exact hjl
    have hjs : j < t.stds.length := by rw [← h6.length_eq]; exact hjl
    have a1 := List.Forall₂.get h5 hjl hjm
    have a2 := List.Forall₂.get h6 hjl hjs
    simp only [List.get_eq_getElem, hjq] at a1 a2
    refine ⟨_, _, List.getElem?_eq_getElem hjm, List.getElem?_eq_getElem hjs, ?_, ?_, average_bound a1 (hlt _), (hdev a2).1⟩
    · rw [havg a1, (hdev a2).2]
    · intro hq2 hv
      obtain ⟨q', hq', h3'⟩ := hnone _ ((havg a1).1 hv)
      cases hq'
      omega

/-! ### the drawing -/

theorem drawable_all (vs : List ℝ) : (vs.map some).mapM drawable = .ok vs := by
  rw [mapM_map, mapM_all (f := fun c => drawable (some c)) (g := fun v => v) fun _ _ => rfl, List.map_id']

/-- **C111** Numbers are drawn as: the mean of the decision tree and one standard deviation above and below it, at 1; the means of the forests as a
line, a line one standard deviation above and below, and 100 bands around it of up to one and a half standard deviations. -/
theorem C111_drawing {t : TreeFigure} {m s : ℝ} {ms ss : List ℝ} (hm : t.dtMean = some m) (hs : t.dtStd = some s) (hms : t.means = ms.map some)
    (hss : t.stds = ss.map some) (h1 : t.means.length = t.xs.length) (h2 : t.stds.length = t.xs.length) (ax : Ax ℝ) :
    ∃ (lines bands : List (Shape ℝ)) (fs : List ℝ), drawTreeFigure t ax = (ax.draw ([.points "red" [1] [m], .points "orange" [1] [m + s],
        .points "orange" [1] [m - s], .line "black" (t.xs.map fun n : Int => (n : ℝ)) ms] ++ lines ++ bands), .ok ()) ∧
      LinesOf "black" (t.xs.map fun n : Int => (n : ℝ)) ms ss 1 lines ∧
      List.Forall₂ (BandOf "lightblue" (t.xs.map fun n : Int => (n : ℝ)) ms ss) fs bands ∧ fs.length = 100 ∧ fs.Pairwise (· < ·) ∧
      ∀ f ∈ fs, 0 ≤ f ∧ f < 3 / 2 := by
  obtain ⟨xs, hxs⟩ : ∃ xs, xs = t.xs.map fun n : Int => (n : ℝ) := ⟨_, rfl⟩
  have hl1 : ms.length = xs.length := by rw [hms, List.length_map] at h1; rw [h1, hxs, List.length_map]
  have hl2 : ss.length = xs.length := by rw [hss, List.length_map] at h2; rw [h2, hxs, List.length_map]
  have hg : GivenStds (some ss) none ss := .inl ⟨rfl, rfl⟩
  obtain ⟨ax1, hax1⟩ : ∃ ax1, ax1 = ax.draw [.points "red" [1] [m], .points "orange" [1] [m + s], .points "orange" [1] [m - s], .line "black" xs ms] := ⟨_, rfl⟩
  obtain ⟨so, pairs, hd, hperm, -, hpairs⟩ := C72_lines_partial hl1 hl2 hg "black" (ks := [1]) (fun k hk => .inr (by simp at hk; rw [hk]; norm_num)) ax1
  have hso : so = [1] := by simpa using hperm
  subst hso
  obtain ⟨lines, rest, hlines, hrest, rfl⟩ := List.forall₂_cons_left_iff.1 hpairs
  rw [List.forall₂_nil_left_iff] at hrest
  subst hrest
  obtain ⟨fs, bands, hb, hbands, hfs, -, hfs'⟩ := C72_bands hl1 hl2 hg "lightblue" 100 (3 / 2) (ax1.draw lines)
  rw [← hxs]
  refine ⟨lines, bands, fs, ?_, hlines, hbands, hfs, (hfs' (by norm_num)).1, (hfs' (by norm_num)).2⟩
  unfold drawTreeFigure
  rw [hm, hs, hms, hss, drawable_all, drawable_all, ← hxs]
  simp only [drawable, Plot.lift_bind_ok]
  rw [Plot.bind_ok (Plot.add_eq _ _), Plot.bind_ok (Plot.add_eq _ _), Plot.bind_ok (Plot.add_eq _ _), Plot.lift_bind_ok, Plot.lift_bind_ok]
  have hline : ∀ a : Ax ℝ, drawLine "black" 1 xs ms a = (a.draw [.line "black" xs ms], .ok ()) := by
    intro a
    unfold drawLine
    rw [if_pos ⟨by norm_num, by norm_num, hl1.symm⟩, Plot.add_eq]
  rw [Plot.bind_ok (hline _)]
  simp only [Ax.draw_draw, List.cons_append, List.nil_append]
  rw [← hax1, Plot.bind_ok hd]
  have : ((100 : Nat) : Int) = 100 := rfl
  rw [this] at hb
  simp only [List.flatten_cons, List.flatten_nil, List.append_nil, List.mem_singleton, zero_ne_one, if_false, List.nil_append]
  rw [hb, hax1]
  simp

/-- two replications, in which the decision tree halves the uncertainty or takes a quarter off it: 37.5 % on average, with a deviation of 12.5 % -/
example {S : Type} (a b : ForestResult S) (ha : a.rows = [] ∧ a.dtBase = 2 ∧ a.dtRegion = 1) (hb : b.rows = [] ∧ b.dtBase = 4 ∧ b.dtRegion = 3) :
    ∃ t, treeData (forestLog [(0, a), (1, b)]) = .ok t ∧ t.dtMean = some (75 / 2) ∧ t.dtStd = some (25 / 2) ∧ t.xs = [] := by
  obtain ⟨t, h1, h2, h3, -, h5, -⟩ := C111_data (reps := [((0 : Int), a), (1, b)]) (by simp)
  have hr : reductionsFor [((0 : Int), a), (1, b)] none = [50, 25].map some := by
    have e1 : Spec.reduction (1 : ℝ) 2 = 50 := by norm_num [Spec.reduction, abs_of_pos]
    have e2 : Spec.reduction (3 : ℝ) 4 = 25 := by norm_num [Spec.reduction, abs_of_pos]
    simp [reductionsFor, measurements, Measurement.reduction, ha, hb, e1, e2]
  rw [hr] at h2 h3
  have hm : ∀ vs : List ℝ, [50, 25].map some = vs.map some → vs = [50, 25] := fun vs h => (List.map_injective_iff.2 (Option.some_injective ℝ) h).symm
  refine ⟨t, h1, ?_, ?_, ?_⟩
  · rcases h2 with ⟨h, -⟩ | ⟨vs, m, e, hm', -, hs⟩
    · simp at h
    · rw [hm vs e] at hs
      rw [hm']
      norm_num at hs
      congr 1
      linarith
  · rcases h3 with ⟨h, -⟩ | ⟨vs, s, e, hs', m, ⟨-, hs⟩, h0, hq⟩
    · simp at h
    · rw [hm vs e] at hs hq
      rw [hs']
      norm_num at hs hq
      have hmv : m = 75 / 2 := by linarith
      rw [hmv] at hq
      congr 1
      have : (s - 25 / 2) * (s + 25 / 2) = 0 := by nlinarith
      rcases mul_eq_zero.1 this with h | h
      · linarith
      · linarith
  · refine List.eq_nil_iff_forall_not_mem.2 fun n hn => ?_
    obtain ⟨p, hp, row, hrow, -⟩ := (h5 n).1 hn
    simp only [List.mem_cons, List.not_mem_nil, or_false] at hp
    rcases hp with rfl | rfl
    · simp [ha] at hrow
    · simp [hb] at hrow

end PyPDP
