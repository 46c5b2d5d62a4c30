/-
C34, C35, C78, C79: calling surrogates and acquisition functions.
-/
import Verif.Spec.Surrogate
import Verif.Props.Bayes

namespace PyPDP
open Spec
variable {K : Type}

/-- **C34**, partial: a configuration gives the mean that `predict` gives for its row, a list the means of its rows, in order.
Missing: arrays, see `C34_counterexample`. -/
theorem C34_configs_partial {predict : Predict K} {mu sd : List K → K} {d : Nat} (h : RowWise d predict mu sd) :
    (∀ c, c.vector.length = d → surrogateCall predict (.config c) = .ok (.scalar (mu c.vector))) ∧
    (∀ l, l ≠ [] → (∀ c ∈ l, c.vector.length = d) → surrogateCall predict (.configs l) = .ok (.list (l.map fun c => mu c.vector))) ∧
    (∀ c, c.vector.length = d → predictConfig predict c = .ok (mu c.vector, sd c.vector)) ∧
    (∀ l, l ≠ [] → (∀ c ∈ l, c.vector.length = d) →
      predictConfigs predict l = .ok (l.map (fun c => mu c.vector), l.map fun c => sd c.vector)) := by
  have h1 : ∀ c, c.vector.length = d → predictConfig predict c = .ok (mu c.vector, sd c.vector) := fun c hc => by
    rw [predictConfig, h _ (by simp) (by simpa using hc)]; rfl
  have h2 : ∀ l, l ≠ [] → (∀ c ∈ l, c.vector.length = d) →
      predictConfigs predict l = .ok (l.map (fun c => mu c.vector), l.map fun c => sd c.vector) := by
    intro l hl hd
    rw [predictConfigs, h _ (by simpa [configListToArray] using hl) (by simpa [configListToArray] using hd)]
    simp [configListToArray]
  refine ⟨fun c hc => ?_, fun l hl hd => ?_, h1, h2⟩
  · rw [surrogateCall, h1 c hc]; rfl
  · rw [surrogateCall, h2 l hl hd]; rfl

/-- **C34** is false for every array: an array of two rows gives only the first mean (a single number), every other number of rows
is an exception, so the means of `predict` are never returned. -/
theorem C34_counterexample {predict : Predict K} {mu sd : List K → K} {d : Nat} (h : RowWise d predict mu sd) :
    (∀ a b, a.length = d → b.length = d → surrogateCall predict (.array [a, b]) = .ok (.scalar (mu a))) ∧
    (∀ X, X.length ≠ 2 → X ≠ [] → (∀ r ∈ X, r.length = d) → surrogateCall predict (.array X) = .error .value) ∧
    surrogateCall predict (.array []) = .error .index ∧
    ∀ X, (∀ r ∈ X, r.length = d) → surrogateCall predict (.array X) ≠ .ok (.list (X.map mu)) := by
  have h1 : ∀ a b, a.length = d → b.length = d → surrogateCall predict (.array [a, b]) = .ok (.scalar (mu a)) := fun a b ha hb => by
    rw [surrogateCall, if_neg (by simp), h _ (by simp) (by simp [ha, hb])]; rfl
  have h2 : ∀ X : List (List K), X.length ≠ 2 → X ≠ [] → (∀ r ∈ X, r.length = d) →
      surrogateCall predict (.array X) = .error .value := by
    intro X hX hne hd
    rw [surrogateCall, if_neg (by simpa using hne), h _ hne hd]
    match X, hX, hne with
    | [_], _, _ => rfl
    | _ :: _ :: _ :: _, _, _ => rfl
  refine ⟨h1, h2, rfl, fun X hd hX => ?_⟩
  by_cases h0 : X = []
  · subst h0; cases hX
  · by_cases hl : X.length = 2
    · match X, hl, hd with
      | [a, b], _, hd => rw [h1 a b (hd a (by simp)) (hd b (by simp))] at hX; cases hX
    · rw [h2 X hl h0 hd] at hX; cases hX

/-- non-vacuity: there are such surrogates (the package's own, for every data it was fitted to: `C99_rowwise`) -/
example : RowWise (K := ℚ) 2 (fun X => if ∀ r ∈ X, r.length = 2 then .ok (X.map List.sum, X.map fun _ => 1) else .error .value)
    List.sum (fun _ => 1) := fun _ _ h => if_pos h

theorem pyMinBy_eq_dual [LinearOrder K] {α : Type} (key : α → K) (l : List α) :
    pyMinBy key l = pyMaxBy (K := Kᵒᵈ) (fun a => OrderDual.toDual (key a)) l := by
  cases l <;> rfl

theorem pyMinBy_first [LinearOrder K] {α : Type} {key : α → K} {l : List α} {a : α} (h : pyMinBy key l = .ok a) :
    FirstBestOf true key l a := by
  rw [pyMinBy_eq_dual] at h
  obtain ⟨i, h1, h2, h3⟩ := pyMaxBy_first h
  exact ⟨i, h1, fun d hd => by rw [if_pos rfl]; exact h2 d hd, fun j hj d hd => by rw [if_pos rfl]; exact h3 j hj d hd⟩

theorem pyMaxBy_firstBestOf [LinearOrder K] {α : Type} {key : α → K} {l : List α} {a : α} (h : pyMaxBy key l = .ok a) :
    FirstBestOf false key l a := by
  obtain ⟨i, h1, h2, h3⟩ := pyMaxBy_first h
  exact ⟨i, h1, fun d hd => by simpa using h2 d hd, fun j hj d hd => by simpa using h3 j hj d hd⟩

theorem pyMaxBy_ok [LinearOrder K] {α : Type} (key : α → K) {l : List α} (h : l ≠ []) : ∃ a, pyMaxBy key l = .ok a := by
  cases l with
  | nil => exact absurd rfl h
  | cons x xs => exact ⟨_, rfl⟩

theorem zip_map_self {α β : Type} (l : List α) (f : α → β) : l.zip (l.map f) = l.map fun a => (a, f a) := by
  induction l with
  | nil => rfl
  | cons a as ih => simp [ih]

theorem firstBest_map {C : Type} [LT K] {minimize : Bool} {value : C → K} {l : List C} {p : C × K}
    (h : FirstBestOf minimize (fun q : C × K => q.2) (l.map fun a => (a, value a)) p) :
    FirstBestOf minimize value l p.1 ∧ p.2 = value p.1 := by
  obtain ⟨i, h1, h2, h3⟩ := h
  rw [List.getElem?_map] at h1
  obtain ⟨d, hd, he⟩ := Option.map_eq_some_iff.1 h1
  subst he
  refine ⟨⟨i, hd, fun d' hd' => ?_, fun j hj d' hd' => ?_⟩, rfl⟩
  · exact h2 (d', value d') (List.mem_map.2 ⟨d', hd', rfl⟩)
  · exact h3 j hj (d', value d') (by rw [List.getElem?_map, hd']; rfl)

/-- **C35**, partial: for `n ≥ 2` draws, the first best of the drawn configurations is returned together with its predicted mean.
Missing: `n = 1`, see `C35_counterexample`. -/
theorem C35_best_partial [LinearOrder K] {S : Type} {predict : Predict K} {mu sd : List K → K} {dim : Nat} (h : RowWise dim predict mu sd)
    (minimize : Bool) (d : Drawer (Config K) S) (rng : S) {n : Int} (hn : 2 ≤ n) (hd : ∀ c ∈ (d.draw rng n.toNat).1, c.vector.length = dim) :
    ∃ c, getIncumbent predict minimize (d.sampleConfiguration rng n).1 = .ok (c, mu c.vector) ∧
      FirstBestOf minimize (fun c => mu c.vector) (d.draw rng n.toNat).1 c := by
  have hne : (d.draw rng n.toNat).1 ≠ [] := by
    intro h
    have := d.draw_length rng n.toNat
    rw [h] at this
    simp at this
    omega
  have hs : (d.sampleConfiguration rng n).1 = .many (d.draw rng n.toNat).1 := by
    unfold Drawer.sampleConfiguration
    rw [if_neg (by omega)]
    dsimp only
    rw [if_neg (by omega)]
  obtain ⟨l, hl⟩ : ∃ l, l = (d.draw rng n.toNat).1 := ⟨_, rfl⟩
  rw [hs, ← hl]
  rw [← hl] at hne hd
  have hval : getIncumbent predict minimize (.many l) =
      if minimize then pyMinBy (·.2) (l.map fun c => (c, mu c.vector)) else pyMaxBy (·.2) (l.map fun c => (c, mu c.vector)) := by
    rw [getIncumbent, (C34_configs_partial h).2.1 l hne hd, Py.ok_bind]
    dsimp only
    rw [zip_map_self]
  have hmap : (l.map fun c => (c, mu c.vector)) ≠ [] := by simpa using hne
  rw [hval]
  cases minimize
  · rw [if_neg (by simp)]
    obtain ⟨⟨c, v⟩, hp⟩ := pyMaxBy_ok (fun q : Config K × K => q.2) hmap
    obtain ⟨h1, h2⟩ := firstBest_map (pyMaxBy_firstBestOf hp)
    simp only at h2
    exact ⟨c, by rw [hp, h2], h1⟩
  · rw [if_pos rfl]
    obtain ⟨⟨c, v⟩, hp⟩ := pyMaxBy_ok (K := Kᵒᵈ) (fun q : Config K × K => OrderDual.toDual q.2) hmap
    rw [← pyMinBy_eq_dual (fun q : Config K × K => q.2)] at hp
    obtain ⟨h1, h2⟩ := firstBest_map (pyMinBy_first hp)
    simp only at h2
    exact ⟨c, by rw [hp, h2], h1⟩

/-- **C35** is false for `n = 1`: TypeError whatever is drawn. -/
theorem C35_counterexample [LinearOrder K] {S : Type} {predict : Predict K} {mu sd : List K → K} {dim : Nat} (h : RowWise dim predict mu sd)
    (minimize : Bool) (d : Drawer (Config K) S) (rng : S) (hd : ∀ c ∈ (d.draw rng 1).1, c.vector.length = dim) :
    getIncumbent predict minimize (d.sampleConfiguration rng 1).1 = .error .type := by
  obtain ⟨a, ha⟩ := List.length_eq_one_iff.1 (d.draw_length rng 1)
  have e : (d.draw rng (1 : Int).toNat).1 = [a] := ha
  have hs : (d.sampleConfiguration rng 1).1 = .one a := by
    unfold Drawer.sampleConfiguration
    simp only [Int.lt_irrefl, if_false, if_true, e]
  rw [hs, getIncumbent, (C34_configs_partial h).1 a (hd a (by rw [ha]; simp))]
  rfl

/-- **C78** acquisition functions treat a configuration, a list of configurations and/or rows, and an array alike: the value of
each row, in order. -/
theorem C78_inputs {predict : Predict K} {mu sd : List K → K} {d : Nat} (h : RowWise d predict mu sd) (value : K → K → K) :
    (∀ c, c.vector.length = d → acqCall predict value (.config c) = .ok [value (mu c.vector) (sd c.vector)]) ∧
    (∀ l, l ≠ [] → (∀ c ∈ l, c.vector.length = d) → acqCall predict value (.list (l.map .config)) = .ok (l.map fun c => value (mu c.vector) (sd c.vector))) ∧
    (∀ X, X ≠ [] → (∀ r ∈ X, r.length = d) → acqCall predict value (.array X) = .ok (X.map fun x => value (mu x) (sd x)) ∧
      acqCall predict value (.list (X.map .row)) = .ok (X.map fun x => value (mu x) (sd x))) ∧
    (∀ l, l ≠ [] → (∀ i ∈ l, i.vector.length = d) → acqCall predict value (.list l) = .ok (l.map fun i => value (mu i.vector) (sd i.vector))) := by
  have hz : ∀ X : List (List K), List.zipWith value (X.map mu) (X.map sd) = X.map fun x => value (mu x) (sd x) := by
    intro X; induction X with
    | nil => rfl
    | cons x xs ih => simp [ih]
  have key : ∀ x, convertConfigs x ≠ [] → (∀ r ∈ convertConfigs x, r.length = d) →
      acqCall predict value x = .ok ((convertConfigs x).map fun x => value (mu x) (sd x)) := by
    intro x hx hd
    rw [acqCall, h _ hx hd, Py.ok_bind]
    dsimp only
    rw [hz]; rfl
  refine ⟨fun c hd => ?_, fun l hl hd => ?_, fun X hX hd => ⟨?_, ?_⟩, fun l hl hd => ?_⟩
  · rw [key _ (by simp [convertConfigs]) (by simpa [convertConfigs] using hd)]; rfl
  · rw [key _ (by simpa [convertConfigs] using hl) (by simpa [convertConfigs, AcqItem.vector] using hd)]
    simp [convertConfigs, AcqItem.vector, Function.comp_def]
  · exact key _ hX hd
  · rw [key _ (by simpa [convertConfigs] using hX) (by simpa [convertConfigs, AcqItem.vector] using hd)]
    simp [convertConfigs, AcqItem.vector, Function.comp_def]
  · rw [key _ (by simpa [convertConfigs] using hl) (by simpa [convertConfigs] using hd)]
    simp [convertConfigs, Function.comp_def]

/-- **C79** is false for the surrogates of the package: every non-empty input is a TypeError. -/
theorem C79_counterexample (predict : Predict K) (x : AcqIn K) (hx : convertConfigs x ≠ []) :
    surrogateScore predict false x = .error .type := by
  rw [surrogateScore, if_neg (by simpa using hx)]; rfl

/-- **C79**, partial: without configurations the two empty arrays; with a surrogate whose `predict` accepts `return_std`, the
predictions of the rows. -/
theorem C79_score_partial {predict : Predict K} {mu sd : List K → K} {d : Nat} (h : RowWise d predict mu sd) (b : Bool) :
    surrogateScore predict b (.list []) = .ok ([], []) ∧ surrogateScore predict b (.array []) = .ok ([], []) ∧
    (∀ l, l ≠ [] → (∀ c ∈ l, c.vector.length = d) → surrogateScore predict true (.list (l.map .config)) =
      .ok (l.map (fun c => mu c.vector), l.map fun c => sd c.vector)) ∧
    (∀ c : Config K, c.vector.length = d → surrogateScore predict true (.config c) = .ok ([mu c.vector], [sd c.vector])) ∧
    (∀ X, X ≠ [] → (∀ r ∈ X, r.length = d) → surrogateScore predict true (.array X) = .ok (X.map mu, X.map sd)) ∧
    (∀ l, l ≠ [] → (∀ i ∈ l, i.vector.length = d) → surrogateScore predict true (.list l) =
      .ok (l.map (fun i => mu i.vector), l.map fun i => sd i.vector)) := by
  have key : ∀ x, convertConfigs x ≠ [] → (∀ r ∈ convertConfigs x, r.length = d) →
      surrogateScore predict true x = .ok ((convertConfigs x).map mu, (convertConfigs x).map sd) := by
    intro x hx hd
    rw [surrogateScore, if_neg (by simpa using hx), if_pos rfl, h _ hx hd]
  refine ⟨rfl, rfl, fun l hl hd => ?_, fun c hd => ?_, fun X hX hd => ?_, fun l hl hd => ?_⟩
  · rw [key _ (by simpa [convertConfigs] using hl) (by simpa [convertConfigs, AcqItem.vector] using hd)]
    simp [convertConfigs, AcqItem.vector, Function.comp_def]
  · rw [key _ (by simp [convertConfigs]) (by simpa [convertConfigs] using hd)]; rfl
  · exact key _ hX hd
  · rw [key _ (by simpa [convertConfigs] using hl) (by simpa [convertConfigs] using hd)]
    simp [convertConfigs, Function.comp_def]

end PyPDP
