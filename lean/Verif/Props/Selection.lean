/-
C05-C07: hyperparameter selection, column indices, uniform ranges.
-/
import Verif.Model.Utils
import Verif.Spec.Selection
import Verif.Spec.Scaling
import Verif.Lemmas.ConfigSpace
import Verif.Lemmas.Py
import Verif.Lemmas.Linspace

namespace PyPDP
open Spec

section C05
variable {K : Type _} {cs : ConfigSpace K}

theorem resolveItem_iff (hcs : cs.WF) {it : SelItem K} {h : Hp K} :
    resolveItem cs it = .ok h ↔ Denotes cs it h := by
  cases it with
  | name s =>
    simp only [resolveItem, Denotes]
    exact ⟨ConfigSpace.get_ok, fun ⟨hm, hn⟩ => hn ▸ ConfigSpace.get_of_mem hcs hm⟩
  | hp h' => simp [resolveItem, Denotes, eq_comm]
  | foreign => simp [resolveItem, Denotes]

/-- **C05** an iterable of names and objects: `get_hyperparameters` returns exactly one hyperparameter per item, in
order, each the one the item stands for; and it returns iff every item stands for something. -/
theorem C05_get_many (hcs : cs.WF) (items : List (SelItem K)) (r : List (Hp K)) :
    getHyperparameters (.many items) cs = .ok r ↔ List.Forall₂ (Denotes cs) items r := by
  simp only [getHyperparameters, Py.mapM_eq_ok, resolveItem_iff hcs]

/-- **C05** the same for `convert_hyperparameters`. -/
theorem C05_convert_many (hcs : cs.WF) (items : List (SelItem K)) (r : List (Hp K)) :
    convertHyperparameters (.many items) cs = .ok r ↔ List.Forall₂ (Denotes cs) items r := by
  simp only [convertHyperparameters, Py.mapM_eq_ok, resolveItem_iff hcs]

/-- **C05** a single name or object is a selection of one item, for both functions. -/
theorem C05_single (hcs : cs.WF) (r : List (Hp K)) :
    (∀ s, (getHyperparameters (.name s) cs = .ok r ↔ ∃ h, r = [h] ∧ h ∈ cs ∧ h.name = s) ∧
      (convertHyperparameters (.name s) cs = .ok r ↔ ∃ h, r = [h] ∧ h ∈ cs ∧ h.name = s)) ∧
    (∀ h, (getHyperparameters (.one h) cs = .ok r ↔ r = [h]) ∧
      (convertHyperparameters (.one h) cs = .ok r ↔ r = [h])) := by
  have key : ∀ s h, cs.get s = .ok h ↔ h ∈ cs ∧ h.name = s := fun s h =>
    ⟨ConfigSpace.get_ok, fun ⟨hm, hn⟩ => hn ▸ ConfigSpace.get_of_mem hcs hm⟩
  refine ⟨fun s => ⟨?_, ?_⟩, fun h => ⟨?_, ?_⟩⟩
  · simp only [getHyperparameters, Py.map_eq_ok, key]
    exact ⟨fun ⟨h, h1, h2⟩ => ⟨h, h2.symm, h1⟩, fun ⟨h, h1, h2⟩ => ⟨h, h2, h1.symm⟩⟩
  · simp only [convertHyperparameters, Py.mapM_eq_ok, resolveItem_iff hcs]
    constructor
    · rintro (_ | ⟨hb, _ | _⟩)
      exact ⟨_, rfl, hb⟩
    · rintro ⟨h, rfl, hd⟩
      exact .cons hd .nil
  · simp [getHyperparameters, eq_comm]
  · simp only [convertHyperparameters, Py.mapM_eq_ok, resolveItem_iff hcs]
    constructor
    · rintro (_ | ⟨hb, _ | _⟩)
      cases hb; rfl
    · rintro rfl
      exact .cons rfl .nil

theorem mapM_first_error {α β : Type _} {f : α → Py β} {pre post : List α} {a : α} {e : PyErr}
    (hpre : ∀ x ∈ pre, ∃ y, f x = .ok y) (ha : f a = .error e) : (pre ++ a :: post).mapM f = .error e := by
  induction pre with
  | nil => simp [List.mapM_cons, ha]
  | cons x xs ih =>
    obtain ⟨y, hy⟩ := hpre x List.mem_cons_self
    rw [List.cons_append, List.mapM_cons, hy, Py.ok_bind, ih (fun z hz => hpre z (List.mem_cons_of_mem _ hz))]
    rfl

/-- **C05** the first bad item decides the exception: KeyError for a name the space does not have, TypeError for an
object that is neither a name nor a hyperparameter. -/
theorem C05_errors (hcs : cs.WF) (pre post : List (SelItem K)) (it : SelItem K)
    (hpre : ∀ x ∈ pre, ∃ h, Denotes cs x h) :
    (∀ s, it = .name s → (∀ h ∈ cs, h.name ≠ s) →
      getHyperparameters (.many (pre ++ it :: post)) cs = .error .key ∧
      convertHyperparameters (.many (pre ++ it :: post)) cs = .error .key ∧
      getHyperparameters (.name s) cs = .error .key ∧ convertHyperparameters (.name s) cs = .error .key) ∧
    (it = .foreign →
      getHyperparameters (.many (pre ++ it :: post)) cs = .error .type ∧
      convertHyperparameters (.many (pre ++ it :: post)) cs = .error .type) := by
  have hp : ∀ x ∈ pre, ∃ y, resolveItem cs x = .ok y := fun x hx =>
    (hpre x hx).imp fun h hh => (resolveItem_iff hcs).2 hh
  refine ⟨?_, ?_⟩
  · rintro s rfl hs
    have hk : cs.get s = .error .key := by
      obtain ⟨e, he⟩ := ConfigSpace.get_error.2 hs
      unfold ConfigSpace.get at he ⊢
      split at he
      · cases he
      · simp
    have h1 : resolveItem cs (.name s) = .error .key := hk
    refine ⟨mapM_first_error hp h1, mapM_first_error hp h1, ?_, ?_⟩
    · simp [getHyperparameters, hk]
    · exact mapM_first_error (pre := []) (by simp) h1
  · rintro rfl
    exact ⟨mapM_first_error hp rfl, mapM_first_error hp rfl⟩

/-- **C05** a selection that is neither a name nor a hyperparameter nor iterable raises TypeError in both functions; `None` selects
nothing in `convert_hyperparameters`: it raises TypeError too. -/
theorem C05_foreign_selection :
    getHyperparameters .foreign cs = .error .type ∧ convertHyperparameters .foreign cs = .error .type ∧
    convertHyperparameters .none cs = .error .type := ⟨rfl, rfl, rfl⟩

/-- **C05** `get_hyperparameters(None)` is the whole space; on every other selection the two functions agree. -/
theorem C05_none_and_agree :
    getHyperparameters .none cs = .ok cs ∧
    ∀ sel, sel ≠ .none → getHyperparameters sel cs = convertHyperparameters sel cs := by
  refine ⟨rfl, fun sel hsel => ?_⟩
  cases sel with
  | none => exact absurd rfl hsel
  | one h => simp [getHyperparameters, convertHyperparameters, resolveItem]
  | name s =>
    simp only [getHyperparameters, convertHyperparameters, resolveItem, List.mapM_cons, List.mapM_nil]
    cases cs.get s <;> rfl
  | many items => rfl
  | foreign => rfl

example : getHyperparameters (.many [.name "b", .hp ⟨"z", .categorical ["u"]⟩, .name "a"])
    ([⟨"a", .float 0 1 false⟩, ⟨"b", .float 0 2 false⟩] : ConfigSpace ℚ) =
    .ok [⟨"b", .float 0 2 false⟩, ⟨"z", .categorical ["u"]⟩, ⟨"a", .float 0 1 false⟩] := by decide +kernel

end C05

section C06
variable {K : Type _} {cs : ConfigSpace K}

theorem idx_iff (hcs : cs.WF) {n : String} {i : Nat} :
    cs.idx n = .ok i ↔ ∃ h, cs[i]? = some h ∧ h.name = n := by
  unfold ConfigSpace.idx
  cases hf : cs.findIdx? (fun hp => hp.name == n) with
  | none =>
    simp only [reduceCtorEq, false_iff]
    rintro ⟨h, h1, h2⟩
    rw [List.findIdx?_eq_none_iff] at hf
    have := hf h (List.mem_of_getElem? h1)
    simp [h2] at this
  | some j =>
    rw [List.findIdx?_eq_some_iff_getElem] at hf
    obtain ⟨hj, h1, h2⟩ := hf
    simp only [Except.ok.injEq]
    constructor
    · rintro rfl
      exact ⟨cs[j], List.getElem?_eq_getElem hj, by simpa using h1⟩
    · rintro ⟨h, h3, h4⟩
      obtain ⟨hi, h5⟩ := List.getElem?_eq_some_iff.1 h3
      have e : (cs.map Hp.name)[j]'(by simpa using hj) = (cs.map Hp.name)[i]'(by simpa using hi) := by
        simp only [List.getElem_map, h5, h4]; simpa using h1
      exact (List.Nodup.getElem_inj_iff hcs).1 e

/-- **C06** the columns returned are, in order, the positions at which the selected hyperparameters stand in the space;
and columns are returned iff all selected names occur in the space. -/
theorem C06_positions (hcs : cs.WF) (sel : List (Hp K)) (r : List Nat) :
    getSelectedIdx sel cs = .ok r ↔ List.Forall₂ (fun hp i => ∃ h, cs[i]? = some h ∧ h.name = hp.name) sel r := by
  simp only [getSelectedIdx, Py.mapM_eq_ok, idx_iff hcs]

/-- **C06** distinct hyperparameters get distinct columns. -/
theorem C06_distinct (hcs : cs.WF) {sel : List (Hp K)} {r : List Nat} (h : getSelectedIdx sel cs = .ok r)
    (hd : (sel.map Hp.name).Nodup) : r.Nodup := by
  rw [C06_positions hcs] at h
  induction h with
  | nil => exact List.nodup_nil
  | @cons a i as is h1 h2 ih =>
    rw [List.map_cons, List.nodup_cons] at hd
    refine List.nodup_cons.2 ⟨fun hm => hd.1 ?_, ih hd.2⟩
    obtain ⟨h, hh1, hh2⟩ := h1
    clear ih hd
    induction h2 with
    | nil => cases hm
    | @cons b j bs js h3 h4 ih =>
      rcases List.mem_cons.1 hm with rfl | hm
      · obtain ⟨h', hh3, hh4⟩ := h3
        rw [hh1] at hh3; cases hh3
        simp [← hh2, hh4]
      · exact List.mem_cons_of_mem _ (ih hm)

/-- **C06** every hyperparameter of the space is found at its own position; one that is not in the space raises
KeyError. -/
theorem C06_known_and_unknown (hcs : cs.WF) :
    getSelectedIdx cs cs = .ok (List.range cs.length) ∧
    (∀ pre hp post, (∀ q ∈ pre, q ∈ cs) → (∀ h ∈ cs, h.name ≠ hp.name) →
      getSelectedIdx (pre ++ hp :: post) cs = .error .key) := by
  constructor
  · rw [C06_positions hcs, List.forall₂_iff_get]
    refine ⟨by simp, fun i h1 h2 => ⟨cs[i], ?_, by simp⟩⟩
    simp
  · intro pre hp post hpre hhp
    refine mapM_first_error (fun x hx => ?_) ?_
    · obtain ⟨i, hi, rfl⟩ := List.getElem_of_mem (hpre x hx)
      exact ⟨i, (idx_iff hcs).2 ⟨cs[i], List.getElem?_eq_getElem hi, rfl⟩⟩
    · cases hc : cs.idx hp.name with
      | ok i =>
        obtain ⟨h, h1, h2⟩ := (idx_iff hcs).1 hc
        exact absurd h2 (hhp h (List.mem_of_getElem? h1))
      | error e =>
        unfold ConfigSpace.idx at hc
        split at hc
        · cases hc
        · simpa using hc.symm

example : getSelectedIdx [⟨"b", .float 0 2 false⟩, ⟨"a", .float 0 1 false⟩]
    ([⟨"a", .float 0 1 false⟩, ⟨"b", .float 0 2 false⟩] : ConfigSpace ℚ) = .ok [1, 0] := by decide +kernel

end C06

section C07

/-- Bounds ConfigSpace accepts for a numerical hyperparameter. -/
def ValidNumerical (hp : Hp ℝ) (l u : ℝ) (g : Bool) : Prop :=
  (hp.kind = .float l u g ∨ hp.kind = .integer l u g) ∧ l < u ∧ (g = true → 0 < l)

theorem evenAxis_linspace {a b : ℝ} (h : a < b) {n : Nat} (hn : 2 ≤ n) : EvenAxis a b false n (linspace a b n) where
  length := linspace_length a b n
  head := linspace_first a b (by omega)
  last := linspace_last a b hn
  increasing := linspace_pairwise h n
  step := by
    refine ⟨(b - a) / ((n : ℝ) - 1), fun i x y hx hy => ?_⟩
    have hi : i + 1 < n := by simpa using (List.getElem?_eq_some_iff.1 hy).1
    rw [linspace_getElem? a b (by omega) hn] at hx
    rw [linspace_getElem? a b hi hn] at hy
    cases hx; cases hy
    simp only [Bool.false_eq_true, if_false]; push_cast; ring

theorem evenAxis_logspace {a b : ℝ} (h0 : 0 < a) (h : a < b) {n : Nat} (hn : 2 ≤ n) :
    EvenAxis a b true n ((linspace (Real.logb 10 a) (Real.logb 10 b) n).map fun e => (10 : ℝ) ^ e) := by
  have hlog : Real.logb 10 a < Real.logb 10 b := Real.logb_lt_logb (by norm_num) h0 h
  have ax := evenAxis_linspace hlog hn
  have inv : ∀ x : ℝ, 0 < x → (10 : ℝ) ^ Real.logb 10 x = x := fun x hx =>
    Real.rpow_logb (by norm_num) (by norm_num) hx
  refine ⟨by simp, ?_, ?_, ?_, ?_⟩
  · rw [List.getElem?_map, ax.head]; simp [inv a h0]
  · rw [List.getElem?_map, ax.last]; simp [inv b (h0.trans h)]
  · rw [List.pairwise_map]
    exact ax.increasing.imp fun hxy => Real.rpow_lt_rpow_of_exponent_lt (by norm_num) hxy
  · obtain ⟨d, hd⟩ := ax.step
    refine ⟨(10 : ℝ) ^ d, fun i x y hx hy => ?_⟩
    rw [List.getElem?_map, Option.map_eq_some_iff] at hx hy
    obtain ⟨x', hx', rfl⟩ := hx
    obtain ⟨y', hy', rfl⟩ := hy
    have := hd i x' y' hx' hy'
    simp only [Bool.false_eq_true, if_false] at this
    simp only [if_true]
    rw [this, Real.rpow_add (by norm_num)]

/-- **C07** for at least two samples per axis: one row per hyperparameter, in order; each row runs from lower to upper
(from 0 to 1 if scaled), strictly increasing with equal steps (equal ratios on a log axis). -/
theorem C07_ranges {hps : List (Hp ℝ)} (h : ∀ hp ∈ hps, ∃ l u g, ValidNumerical hp l u g) {n : Nat} (hn : 2 ≤ n) :
    (∃ rows, getUniformDistributedRanges hps n false = .ok rows ∧
      List.Forall₂ (fun hp row => ∃ l u g, ValidNumerical hp l u g ∧ EvenAxis l u g n row) hps rows) ∧
    (∃ rows, getUniformDistributedRanges hps n true = .ok rows ∧
      List.Forall₂ (fun _ row => EvenAxis 0 1 false n row) hps rows) := by
  have gen : ∀ (scaled : Bool) (P : Hp ℝ → List ℝ → Prop),
      (∀ hp ∈ hps, ∃ row, uniformRange n scaled hp = .ok row ∧ P hp row) →
      ∃ rows, getUniformDistributedRanges hps n scaled = .ok rows ∧ List.Forall₂ P hps rows := by
    intro scaled P hP
    have : ∃ rows, hps.mapM (uniformRange n scaled) = .ok rows ∧ List.Forall₂ P hps rows := by
      clear h
      induction hps with
      | nil => exact ⟨[], rfl, .nil⟩
      | cons a as ih =>
        obtain ⟨row, h1, h2⟩ := hP a List.mem_cons_self
        obtain ⟨rows, h3, h4⟩ := ih fun hp hm => hP hp (List.mem_cons_of_mem _ hm)
        exact ⟨row :: rows, by simp [List.mapM_cons, h1, h3], .cons h2 h4⟩
    obtain ⟨rows, h1, h2⟩ := this
    exact ⟨rows, by simp [getUniformDistributedRanges, h1, h2.length_eq], h2⟩
  constructor
  · refine gen false _ fun hp hm => ?_
    obtain ⟨l, u, g, hv⟩ := h hp hm
    have hnum : hp.numerical? = some (l, u, g) := by
      rcases hv.1 with hk | hk <;> simp [Hp.numerical?, hk]
    cases g
    · exact ⟨_, by simp [uniformRange, hnum], l, u, false, hv, evenAxis_linspace hv.2.1 hn⟩
    · exact ⟨_, by simp [uniformRange, hnum], l, u, true, hv, evenAxis_logspace (hv.2.2 rfl) hv.2.1 hn⟩
  · refine gen true _ fun hp hm => ?_
    obtain ⟨l, u, g, hv⟩ := h hp hm
    have hnum : hp.numerical? = some (l, u, g) := by
      rcases hv.1 with hk | hk <;> simp [Hp.numerical?, hk]
    exact ⟨_, by simp [uniformRange, hnum], evenAxis_linspace zero_lt_one hn⟩

/-- **C07** for every sample count the result has one row per hyperparameter with that many entries. -/
theorem C07_shape {hps : List (Hp ℝ)} {n : Nat} {scaled : Bool} {rows : List (List ℝ)}
    (h : getUniformDistributedRanges hps n scaled = .ok rows) : rows.length = hps.length ∧ ∀ r ∈ rows, r.length = n := by
  unfold getUniformDistributedRanges at h
  obtain ⟨rows', h1, h2⟩ := Py.bind_eq_ok.1 h
  split at h2
  · cases h2
    refine ⟨by assumption, fun r hr => ?_⟩
    rw [Py.mapM_eq_ok] at h1
    obtain ⟨i, hi, rfl⟩ := List.getElem_of_mem hr
    have := (List.forall₂_iff_get.1 h1).2 i (by rw [h1.length_eq]; exact hi) hi
    simp only [List.get_eq_getElem, uniformRange] at this
    split at this
    · cases this
    · split at this
      · rw [← Except.ok.inj this]; simp
      · split at this <;> rw [← Except.ok.inj this] <;> simp
  · cases h2

/-- **C07** a hyperparameter that is not numerical raises AssertionError. -/
theorem C07_nonnumerical {pre post : List (Hp ℝ)} {hp : Hp ℝ} (hpre : ∀ q ∈ pre, ∃ l u g, ValidNumerical q l u g)
    (hk : hp.isNumerical = false) (n : Nat) (scaled : Bool) :
    getUniformDistributedRanges (pre ++ hp :: post) n scaled = .error .assertion := by
  have : (pre ++ hp :: post).mapM (uniformRange n scaled) = .error .assertion := by
    refine mapM_first_error (fun q hq => ?_) ?_
    · obtain ⟨l, u, g, hv⟩ := hpre q hq
      have hnum : q.numerical? = some (l, u, g) := by
        rcases hv.1 with hk | hk <;> simp [Hp.numerical?, hk]
      simp only [uniformRange, hnum]
      split
      · exact ⟨_, rfl⟩
      · split <;> exact ⟨_, rfl⟩
    · have : hp.numerical? = none := by simpa [Hp.isNumerical] using hk
      simp [uniformRange, this]
  simp [getUniformDistributedRanges, this]

example : ∀ hp ∈ ([⟨"x", .float (-5) 5 false⟩, ⟨"lr", .integer 1 10 true⟩] : List (Hp ℝ)), ∃ l u g, ValidNumerical hp l u g := by
  intro hp hm
  simp only [List.mem_cons, List.not_mem_nil, or_false] at hm
  rcases hm with rfl | rfl
  · exact ⟨-5, 5, false, Or.inl rfl, by norm_num, by simp⟩
  · exact ⟨1, 10, true, Or.inr rfl, by norm_num, by norm_num⟩

end C07
end PyPDP
