/-
C01-C03: `scale_float` / `unscale_float`.
-/
import Verif.Model.Utils
import Verif.Spec.Scaling
import Verif.Lemmas.ConfigSpace
import Verif.Lemmas.Py
import Mathlib.Tactic.Linarith
import Mathlib.Tactic.FieldSimp
import Mathlib.Tactic.Ring
import Mathlib.Tactic.NormNum
import Mathlib.Tactic.Positivity

namespace PyPDP
open Spec

variable {cs : ConfigSpace ℝ} {name : String} {lower upper : ℝ} {log : Bool}

theorem declares_lookup (h : Declares cs name lower upper log) :
    ∃ hp, cs.get name = .ok hp ∧ hp.bounds = .ok (lower, upper, log) := by
  obtain ⟨hp, hm, hn, hk⟩ := h.mem
  refine ⟨hp, hn ▸ ConfigSpace.get_of_mem h.wf hm, ?_⟩
  rcases hk with hk | hk <;> simp [Hp.bounds, Hp.numerical?, hk]

theorem scaleFloat_eq (h : Declares cs name lower upper log) (v : ℝ) :
    scaleFloat v cs name =
      if log then
        if v < 0 then .error .nan else if v = 0 then .ok 0
        else .ok (max 0 (min 1 ((Real.log v - Real.log lower) / (Real.log upper - Real.log lower))))
      else .ok (max 0 (min 1 ((v - lower) / (upper - lower)))) := by
  obtain ⟨hp, h1, h2⟩ := declares_lookup h
  simp only [scaleFloat, h1, h2, Py.ok_bind]
  rfl

theorem unscaleFloat_eq (h : Declares cs name lower upper log) (t : ℝ) :
    unscaleFloat t cs name =
      .ok (min upper (max lower
        (if log then Real.exp (t * (Real.log upper - Real.log lower) + Real.log lower)
         else t * (upper - lower) + lower))) := by
  obtain ⟨hp, h1, h2⟩ := declares_lookup h
  simp only [unscaleFloat, h1, h2, Py.ok_bind]
  rfl

theorem log_lt_log_bounds (h : Declares cs name lower upper log) (hl : log = true) :
    Real.log lower < Real.log upper := Real.log_lt_log (h.pos hl) h.lt

theorem interpolate_zero (_ : Declares cs name lower upper log) : interpolate lower upper log 0 = lower := by
  unfold interpolate; split <;> simp

theorem interpolate_one (_ : Declares cs name lower upper log) : interpolate lower upper log 1 = upper := by
  unfold interpolate; split <;> simp

theorem exp_eq_interpolate (hl : 0 < lower) (hu : 0 < upper) (t : ℝ) :
    Real.exp (t * (Real.log upper - Real.log lower) + Real.log lower) = interpolate lower upper true t := by
  simp only [interpolate, if_true]
  rw [Real.rpow_def_of_pos hl, Real.rpow_def_of_pos hu, ← Real.exp_add]
  congr 1; ring

theorem interpolate_strictMono (h : Declares cs name lower upper log) :
    StrictMono (interpolate lower upper log) := by
  intro s t hst
  cases log
  · simp only [interpolate]
    have := h.lt
    simp only [Bool.false_eq_true, if_false]
    nlinarith
  · have hl := h.pos rfl
    rw [← exp_eq_interpolate hl (hl.trans h.lt), ← exp_eq_interpolate hl (hl.trans h.lt)]
    have := log_lt_log_bounds h rfl
    apply Real.exp_lt_exp.2
    nlinarith

/-- `unscale_float` is interpolation at the clamped fraction. -/
theorem unscaleFloat_interpolate (h : Declares cs name lower upper log) (t : ℝ) :
    unscaleFloat t cs name = .ok (interpolate lower upper log (max 0 (min 1 t))) := by
  rw [unscaleFloat_eq h]
  have hm := (interpolate_strictMono h).monotone
  have key : (if log then Real.exp (t * (Real.log upper - Real.log lower) + Real.log lower)
      else t * (upper - lower) + lower) = interpolate lower upper log t := by
    cases log
    · simp [interpolate]; ring
    · have hl := h.pos rfl
      simp only [if_true]
      exact exp_eq_interpolate hl (hl.trans h.lt) t
  rw [key]
  have e : interpolate lower upper log (max 0 (min 1 t)) =
      max lower (min upper (interpolate lower upper log t)) := by
    rw [hm.map_max, hm.map_min, interpolate_zero h, interpolate_one h]
  rw [e]
  congr 1
  rcases le_total (interpolate lower upper log t) lower with h1 | h1
  · rw [max_eq_left h1, min_eq_right h.lt.le, min_eq_right (h1.trans h.lt.le), max_eq_left h1]
  · rw [max_eq_right h1, max_eq_right (le_min h.lt.le h1)]

/-- `scale_float` inverts interpolation. -/
theorem scaleFloat_interpolate (h : Declares cs name lower upper log) {t : ℝ} (h0 : 0 ≤ t) (h1 : t ≤ 1) :
    scaleFloat (interpolate lower upper log t) cs name = .ok t := by
  rw [scaleFloat_eq h]
  cases log
  · have := sub_pos.2 h.lt
    have e : (interpolate lower upper false t - lower) / (upper - lower) = t := by
      rw [div_eq_iff this.ne']; simp [interpolate]; ring
    simp [e, h0, h1]
  · have hl := h.pos rfl
    have hu := hl.trans h.lt
    have hd := sub_pos.2 (log_lt_log_bounds h rfl)
    have hp : 0 < interpolate lower upper true t := by
      rw [← exp_eq_interpolate hl hu]; positivity
    have e : (Real.log (interpolate lower upper true t) - Real.log lower) /
        (Real.log upper - Real.log lower) = t := by
      rw [← exp_eq_interpolate hl hu, Real.log_exp, div_eq_iff hd.ne']; ring
    simp [e, h0, h1, hp.not_gt, hp.ne']

/-- Every value in range is an interpolated one. -/
theorem exists_interpolate (h : Declares cs name lower upper log) {v : ℝ} (h1 : lower ≤ v) (h2 : v ≤ upper) :
    ∃ t, 0 ≤ t ∧ t ≤ 1 ∧ interpolate lower upper log t = v := by
  cases log
  · have hd := sub_pos.2 h.lt
    refine ⟨(v - lower) / (upper - lower), div_nonneg (by linarith) hd.le, (div_le_one hd).2 (by linarith), ?_⟩
    simp only [interpolate, Bool.false_eq_true, if_false]
    field_simp
    ring
  · have hl := h.pos rfl
    have hu := hl.trans h.lt
    have hv := hl.trans_le h1
    have hd := sub_pos.2 (log_lt_log_bounds h rfl)
    refine ⟨(Real.log v - Real.log lower) / (Real.log upper - Real.log lower),
      div_nonneg (by linarith [Real.log_le_log hl h1]) hd.le,
      (div_le_one hd).2 (by linarith [Real.log_le_log hv h2]), ?_⟩
    rw [← exp_eq_interpolate hl hu, div_mul_cancel₀ _ hd.ne', sub_add_cancel, Real.exp_log hv]

/-! ### C01 -/

/-- **C01** (natural → normalised → natural). -/
theorem C01_unscale_scale (h : Declares cs name lower upper log) {v : ℝ} (h1 : lower ≤ v) (h2 : v ≤ upper) :
    ∃ t, 0 ≤ t ∧ t ≤ 1 ∧ scaleFloat v cs name = .ok t ∧ unscaleFloat t cs name = .ok v := by
  obtain ⟨t, h0, h1', rfl⟩ := exists_interpolate h h1 h2
  refine ⟨t, h0, h1', scaleFloat_interpolate h h0 h1', ?_⟩
  rw [unscaleFloat_interpolate h, min_eq_right h1', max_eq_right h0]

/-- **C01** (normalised → natural → normalised). -/
theorem C01_scale_unscale (h : Declares cs name lower upper log) {t : ℝ} (h0 : 0 ≤ t) (h1 : t ≤ 1) :
    ∃ v, lower ≤ v ∧ v ≤ upper ∧ unscaleFloat t cs name = .ok v ∧ scaleFloat v cs name = .ok t := by
  have hm := (interpolate_strictMono h).monotone
  refine ⟨interpolate lower upper log t, ?_, ?_, ?_, scaleFloat_interpolate h h0 h1⟩
  · have := hm h0; rwa [interpolate_zero h] at this
  · have := hm h1; rwa [interpolate_one h] at this
  · rw [unscaleFloat_interpolate h, min_eq_right h1, max_eq_right h0]

/-- **C01** which inverse pair it is: fraction `t` corresponds to the arithmetic (log: geometric) interpolation. -/
theorem C01_unscale_is_interpolation (h : Declares cs name lower upper log) {t : ℝ} (h0 : 0 ≤ t) (h1 : t ≤ 1) :
    unscaleFloat t cs name = .ok (interpolate lower upper log t) := by
  rw [unscaleFloat_interpolate h, min_eq_right h1, max_eq_right h0]

/-! ### C02 -/

/-- **C02**, partial: `scale_float` stays in `[0,1]`, also out of range. Missing: negative values on a log axis, see
`C02_negative_log_counterexample`. -/
theorem C02_scale_range_partial (h : Declares cs name lower upper log) (v : ℝ) (hv : log = true → 0 ≤ v) :
    ∃ t, scaleFloat v cs name = .ok t ∧ 0 ≤ t ∧ t ≤ 1 ∧ (v ≤ lower → t = 0) ∧ (upper ≤ v → t = 1) := by
  rcases lt_or_ge v lower with hlo | hlo
  · refine ⟨0, ?_, le_rfl, zero_le_one, fun _ => rfl, fun hu => absurd (hlo.trans h.lt) (not_lt.2 hu)⟩
    rw [scaleFloat_eq h]
    cases log
    · have hd := sub_pos.2 h.lt
      have : (v - lower) / (upper - lower) ≤ 0 := div_nonpos_of_nonpos_of_nonneg (by linarith) hd.le
      simp [this]
    · have hv0 := hv rfl
      have hl := h.pos rfl
      rcases hv0.eq_or_lt with rfl | hpos
      · simp
      · have hd := sub_pos.2 (log_lt_log_bounds h rfl)
        have : (Real.log v - Real.log lower) / (Real.log upper - Real.log lower) ≤ 0 :=
          div_nonpos_of_nonpos_of_nonneg (by linarith [Real.log_lt_log hpos hlo]) hd.le
        simp [this, hpos.not_gt, hpos.ne']
  · rcases le_or_gt v upper with hup | hup
    · obtain ⟨t, h0, h1, h2⟩ := exists_interpolate h hlo hup
      have hinj := (interpolate_strictMono h)
      refine ⟨t, h2 ▸ scaleFloat_interpolate h h0 h1, h0, h1, fun hle => ?_, fun hge => ?_⟩
      · apply hinj.injective; rw [h2, interpolate_zero h]; exact le_antisymm hle hlo
      · apply hinj.injective; rw [h2, interpolate_one h]; exact le_antisymm hup hge
    · refine ⟨1, ?_, zero_le_one, le_rfl, fun hle => absurd (h.lt.trans hup) (not_lt.2 hle), fun _ => rfl⟩
      rw [scaleFloat_eq h]
      cases log
      · have hd := sub_pos.2 h.lt
        have : 1 ≤ (v - lower) / (upper - lower) := (one_le_div hd).2 (by linarith)
        simp [this]
      · have hl := h.pos rfl
        have hpos : 0 < v := hl.trans_le hlo
        have hd := sub_pos.2 (log_lt_log_bounds h rfl)
        have : 1 ≤ (Real.log v - Real.log lower) / (Real.log upper - Real.log lower) :=
          (one_le_div hd).2 (by linarith [Real.log_lt_log (hl.trans h.lt) hup])
        simp [this, hpos.not_gt, hpos.ne']

/-- **C02** is false for one kind of input: a negative value on a log axis is not mapped to 0, it has no logarithm (numpy: nan). -/
theorem C02_negative_log_counterexample (h : Declares cs name lower upper true) {v : ℝ} (hv : v < 0) :
    scaleFloat v cs name = .error .nan := by
  rw [scaleFloat_eq h]; simp [hv]

/-- **C02** `unscale_float` stays in `[lower, upper]` for every input. -/
theorem C02_unscale_range (h : Declares cs name lower upper log) (t : ℝ) :
    ∃ v, unscaleFloat t cs name = .ok v ∧ lower ≤ v ∧ v ≤ upper ∧ (t ≤ 0 → v = lower) ∧ (1 ≤ t → v = upper) := by
  have hm := (interpolate_strictMono h).monotone
  refine ⟨_, unscaleFloat_interpolate h t, ?_, ?_, fun ht => ?_, fun ht => ?_⟩
  · have := hm (le_max_left 0 (min 1 t)); rwa [interpolate_zero h] at this
  · have := hm (max_le zero_le_one (min_le_left 1 t)); rwa [interpolate_one h] at this
  · rw [min_eq_right (ht.trans zero_le_one), max_eq_left ht, interpolate_zero h]
  · rw [min_eq_left ht, max_eq_right zero_le_one, interpolate_one h]

/-- **C02** looking up an undeclared name is a KeyError in both directions. -/
theorem C02_unknown_name (hn : ∀ hp ∈ cs, hp.name ≠ name) (x : ℝ) :
    scaleFloat x cs name = .error .key ∧ unscaleFloat x cs name = .error .key := by
  have : cs.get name = .error .key := by
    unfold ConfigSpace.get
    split
    · rename_i a ha
      exact absurd (by simpa using List.find?_some ha) (hn a (List.mem_of_find?_eq_some ha))
    · rfl
  simp only [scaleFloat, unscaleFloat, this]
  exact ⟨rfl, rfl⟩

/-! ### C03 -/

/-- **C03** a threshold in normalised space selects the same values as the threshold shown in natural units. -/
theorem C03_threshold (h : Declares cs name lower upper log) {v t : ℝ} (h1 : lower ≤ v) (h2 : v ≤ upper)
    (h3 : 0 ≤ t) (h4 : t ≤ 1) :
    ∃ s w, scaleFloat v cs name = .ok s ∧ unscaleFloat t cs name = .ok w ∧ (v ≤ w ↔ s ≤ t) := by
  obtain ⟨s, hs0, hs1, rfl⟩ := exists_interpolate h h1 h2
  exact ⟨s, _, scaleFloat_interpolate h hs0 hs1, C01_unscale_is_interpolation h h3 h4,
    (interpolate_strictMono h).le_iff_le⟩

/-- **C03** both directions are strictly increasing on the range. -/
theorem C03_strictMono (h : Declares cs name lower upper log) :
    (∀ v v', lower ≤ v → v < v' → v' ≤ upper →
      ∃ t t', scaleFloat v cs name = .ok t ∧ scaleFloat v' cs name = .ok t' ∧ t < t') ∧
    (∀ t t', 0 ≤ t → t < t' → t' ≤ 1 →
      ∃ v v', unscaleFloat t cs name = .ok v ∧ unscaleFloat t' cs name = .ok v' ∧ v < v') := by
  have hm := interpolate_strictMono h
  refine ⟨fun v v' h1 h2 h3 => ?_, fun t t' h1 h2 h3 => ?_⟩
  · obtain ⟨s, hs0, hs1, rfl⟩ := exists_interpolate h h1 (h2.le.trans h3)
    obtain ⟨s', hs0', hs1', rfl⟩ := exists_interpolate h (h1.trans h2.le) h3
    exact ⟨s, s', scaleFloat_interpolate h hs0 hs1, scaleFloat_interpolate h hs0' hs1', hm.lt_iff_lt.1 h2⟩
  · exact ⟨_, _, C01_unscale_is_interpolation h h1 (h2.le.trans h3),
      C01_unscale_is_interpolation h (h1.trans h2.le) h3, hm h2⟩

/-- The hypotheses are met: a two-dimensional space with a linear and a log axis. -/
example : Declares [⟨"x1", .float (-5) 5 false⟩, ⟨"lr", .float 0.001 1 true⟩] "lr" 0.001 1 true :=
  ⟨by decide, ⟨_, List.mem_cons_of_mem _ (List.mem_singleton.2 rfl), rfl, Or.inl rfl⟩, by norm_num, fun _ => by norm_num⟩

end PyPDP
