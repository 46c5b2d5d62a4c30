/-
C145: the text of a split condition states what the condition tests.
-/
import Verif.Model.ConditionText
import Verif.Props.Conditions

namespace PyPDP
open Spec

/-- a text without a space -/
def Spec.Word (s : String) : Prop := ' ' ∉ s.toList

private theorem split_words {a b : List Char} {c d : List Char} (ha : ' ' ∉ a) (hb : ' ' ∉ b) (h : a ++ ' ' :: c = b ++ ' ' :: d) : a = b ∧ c = d := by
  induction a generalizing b with
  | nil =>
    cases b with
    | nil => simpa using h
    | cons x b =>
      rw [List.nil_append, List.cons_append, List.cons.injEq] at h
      exact absurd (h.1 ▸ List.mem_cons_self) hb
  | cons y a ih =>
    cases b with
    | nil =>
      rw [List.nil_append, List.cons_append, List.cons.injEq] at h
      exact absurd (h.1 ▸ List.mem_cons_self) ha
    | cons x b =>
      rw [List.cons_append, List.cons_append, List.cons.injEq] at h
      obtain ⟨rfl, e⟩ := ih (fun hm => ha (List.mem_cons_of_mem _ hm)) (fun hm => hb (List.mem_cons_of_mem _ hm)) h.2
      exact ⟨by rw [h.1], e⟩

/-- the text of a comparison, as it should be -/
def Spec.comparison (name op value : String) : String := "SplitCondition(" ++ name ++ " " ++ op ++ " " ++ value ++ ")"

theorem Spec.comparison_inj {n n' o o' v v' : String} (hn : Word n) (hn' : Word n') (ho : Word o) (ho' : Word o')
    (h : comparison n o v = comparison n' o' v') : n = n' ∧ o = o' ∧ v = v' := by
  have key : ∀ a n o v z : String, (a ++ n ++ " " ++ o ++ " " ++ v ++ z).toList =
      a.toList ++ (n.toList ++ ' ' :: (o.toList ++ ' ' :: (v.toList ++ z.toList))) := by
    intro a n o v z
    have hs : (" " : String).toList = [' '] := by decide
    simp only [String.toList_append, List.append_assoc, hs, List.cons_append, List.nil_append]
  have e := congrArg String.toList h
  unfold comparison at e
  rw [key, key] at e
  have e1 := List.append_cancel_left e
  obtain ⟨a1, e2⟩ := split_words hn hn' e1
  obtain ⟨a2, e3⟩ := split_words ho ho' e2
  exact ⟨String.toList_inj.1 a1, String.toList_inj.1 a2, String.toList_inj.1 (List.append_cancel_right e3)⟩

variable {fmt : ℝ → String}

/-- **C145** a condition built from a natural value within the bounds reads `name <= value` or `name > value`, and that is what it tests. -/
theorem C145_value (fmt : ℝ → String) {cs : ConfigSpace ℝ} {hp : Hp ℝ} {l u : ℝ} {g : Bool} (hd : Declares cs hp.name l u g) {v : ℝ} (h1 : l ≤ v) (h2 : v ≤ u)
    (b : Bool) :
    ∃ c, mkCond cs hp (some (.num v)) none (some b) = .ok c ∧ condStr fmt cs c = .ok (comparison hp.name (if b then "<=" else ">") (fmt v)) ∧
      ∀ (cfg : Config ℝ) x, cfg.get? hp.name = some (.num x) →
        ∃ r, isSatisfied cs c cfg = .ok r ∧ (r = true ↔ if b then x ≤ v else v < x) := by
  obtain ⟨c, e1, e2, e3, e4, e5⟩ := C60_value hd h1 h2 b
  refine ⟨c, e1, ?_, e5⟩
  simp only [condStr, e4, e2, Py.ok_bind, e3]
  rfl

/-- **C145** the text of a condition with a float threshold shows the threshold in natural units. -/
theorem C145_normalized (fmt : ℝ → String) {cs : ConfigSpace ℝ} {hp : Hp ℝ} {l u : ℝ} {g : Bool} (hd : Declares cs hp.name l u g) {t : ℝ} (h1 : 0 ≤ t)
    (h2 : t ≤ 1) (b : Bool) :
    ∃ v, condStr fmt cs ⟨hp, .flt t, some b⟩ = .ok (comparison hp.name (if b then "<=" else ">") (fmt v)) ∧
      l ≤ v ∧ v ≤ u ∧ (v = interpolate l u g t) ∧
      ∀ (cfg : Config ℝ) x, cfg.get? hp.name = some (.num x) →
        ∃ r, isSatisfied cs ⟨hp, .flt t, some b⟩ cfg = .ok r ∧ (r = true ↔ if b then x ≤ v else v < x) := by
  have hun := C01_unscale_is_interpolation hd h1 h2
  obtain ⟨v, hv, b1, b2, -⟩ := C02_unscale_range hd t
  rw [hun] at hv
  obtain rfl := Except.ok.inj hv
  refine ⟨_, ?_, b1, b2, rfl, fun cfg x hx => C60_normalized hd h1 h2 b cfg hx⟩
  simp only [condStr, condValue, hun, Py.map_ok, Py.ok_bind]
  rfl

/-- **C145** the text identifies the condition: with names without spaces and distinct texts for distinct numbers, two conditions with float
thresholds and the same text are satisfied by the same configurations. -/
theorem C145_faithful {fmt : ℝ → String} (hfmt : Function.Injective fmt) {cs : ConfigSpace ℝ} {p q : Hp ℝ} {s t : ℝ} {b b' : Bool}
    (hp : Word p.name) (hq : Word q.name) {text : String} (h1 : condStr fmt cs ⟨p, .flt s, some b⟩ = .ok text)
    (h2 : condStr fmt cs ⟨q, .flt t, some b'⟩ = .ok text) :
    p.name = q.name ∧ b = b' ∧ ∀ cfg, isSatisfied cs ⟨p, .flt s, some b⟩ cfg = isSatisfied cs ⟨q, .flt t, some b'⟩ cfg := by
  simp only [condStr] at h1 h2
  obtain ⟨v, e1, f1⟩ := Py.bind_eq_ok.1 h1
  obtain ⟨w, e2, f2⟩ := Py.bind_eq_ok.1 h2
  simp only [condValue] at e1 e2
  obtain ⟨x, g1, rfl⟩ := Py.map_eq_ok.1 e1
  obtain ⟨y, g2, rfl⟩ := Py.map_eq_ok.1 e2
  have hop : ∀ b : Bool, Word (if b then "<=" else ">") := fun b => by cases b <;> (show ' ' ∉ _) <;> decide
  have heq : comparison p.name (if b then "<=" else ">") (fmt x) = comparison q.name (if b' then "<=" else ">") (fmt y) := by
    have := (Except.ok.inj f1).trans (Except.ok.inj f2).symm
    exact this
  obtain ⟨n, o, e⟩ := comparison_inj hp hq (hop b) (hop b') heq
  have hb : b = b' := by
    cases b <;> cases b'
    · rfl
    · exact absurd o (by decide)
    · exact absurd o (by decide)
    · rfl
  subst hb
  have hxy := hfmt e
  subst hxy
  refine ⟨n, rfl, fun cfg => ?_⟩
  simp only [isSatisfied, condValue]
  rw [g1, g2, n]

/-- **C145** without `less_equal` the condition reads `value in name`, and tests for that value. -/
theorem C145_value_in (fmt : ℝ → String) (cs : ConfigSpace ℝ) (hp : Hp ℝ) (cfg : Config ℝ) (s : String) :
    ∃ c, mkCond cs hp none (some (.str s)) none = .ok c ∧ condStr fmt cs c = .ok ("SplitCondition(" ++ s ++ " in " ++ hp.name ++ ")") ∧
      isSatisfied cs c cfg = .ok (decide (cfg.get? hp.name = some (.str s))) :=
  ⟨⟨hp, .str s, none⟩, rfl, rfl, (C60_other_values cs hp none cfg).1 s⟩

/-- **C145** fails for a threshold that is not a Python float (an integer 0 or 1, a float32): the condition reads `name <= i`, but tests
whether the value is `i`. -/
theorem C145_counterexample (fmt : ℝ → String) (cs : ConfigSpace ℝ) (hp : Hp ℝ) (i : Int) {x : ℝ} (hx : x < i) (cfg : Config ℝ)
    (hcfg : cfg.get? hp.name = some (.num x)) :
    ∃ c, mkCond cs hp none (some (.int i)) (some true) = .ok c ∧ condStr fmt cs c = .ok (comparison hp.name "<=" (toString i)) ∧
      isSatisfied cs c cfg = .ok false := by
  refine ⟨⟨hp, .int i, some true⟩, rfl, rfl, ?_⟩
  rw [(C60_other_values cs hp (some true) cfg).2 i, hcfg]
  simp [hx.ne]

/-- the two texts of the repository's own test -/
example (fmt : ℝ → String) (h3 : fmt 3 = "3.0") (h1 : fmt (-1) = "-1.0") (cs : ConfigSpace ℝ) (hcs : Declares cs "x1" (-5) 5 false) :
    (∃ c, mkCond cs ⟨"x1", .float (-5) 5 false⟩ (some (.num 3)) none (some true) = .ok c ∧ condStr fmt cs c = .ok "SplitCondition(x1 <= 3.0)") ∧
    condStr fmt cs ⟨⟨"x1", .float (-5) 5 false⟩, .flt 0.4, some false⟩ = .ok "SplitCondition(x1 > -1.0)" := by
  constructor
  · obtain ⟨c, e1, e2, -⟩ := C145_value fmt (hp := ⟨"x1", .float (-5) 5 false⟩) hcs (v := 3) (by norm_num) (by norm_num) true
    refine ⟨c, e1, ?_⟩
    rw [e2, h3]
    decide
  · obtain ⟨v, e1, -, -, e2, -⟩ := C145_normalized fmt (hp := ⟨"x1", .float (-5) 5 false⟩) hcs (t := 0.4) (by norm_num) (by norm_num) false
    have : v = -1 := by rw [e2]; norm_num [interpolate]
    rw [e1, this, h1]
    decide

end PyPDP
