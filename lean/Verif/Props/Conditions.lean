/-
C57, C60: split conditions; every configuration lies in exactly one leaf.
-/
import Verif.Props.Partition
import Verif.Props.Scaling

namespace PyPDP
open Spec
variable {K : Type}

/-! ### C60 -/

section generic
variable [Field K] [LinearOrder K] [Transc K]

/-- a condition with a float threshold on a numerical hyperparameter of the space -/
theorem isSatisfied_float {cs : ConfigSpace K} {hp : Hp K} {t : K} {cfg : Config K} {x w : K} (hx : cfg.get? hp.name = some (.num x))
    (hw : unscaleFloat t cs hp.name = .ok w) (le : Option Bool) :
    isSatisfied cs ⟨hp, .flt t, le⟩ cfg = .ok (if le = some true then decide (x ≤ w) else decide (w < x)) := by
  simp only [isSatisfied, condValue, hx, hw, Py.map_ok, Py.ok_bind]
  rfl

theorem unscaleFloat_ok {cs : ConfigSpace K} (hwf : cs.WF) {hp : Hp K} (hm : hp ∈ cs) {b : K × K × Bool} (hb : hp.numerical? = some b) (t : K) :
    ∃ w, unscaleFloat t cs hp.name = .ok w := by
  unfold unscaleFloat
  rw [ConfigSpace.get_of_mem hwf hm, Py.ok_bind]
  have : hp.bounds = .ok b := by simp [Hp.bounds, hb]
  rw [this]
  exact ⟨_, rfl⟩

/-- **C60** for the same threshold, exactly one of `<=` and `>` holds of a configuration. -/
theorem C60_complementary {cs : ConfigSpace K} (hwf : cs.WF) {hp : Hp K} (hm : hp ∈ cs) (hnum : hp.isNumerical = true) (t : K) {cfg : Config K}
    {x : K} (hx : cfg.get? hp.name = some (.num x)) :
    ∃ b, isSatisfied cs ⟨hp, .flt t, some true⟩ cfg = .ok b ∧ isSatisfied cs ⟨hp, .flt t, some false⟩ cfg = .ok (!b) := by
  obtain ⟨bd, hb⟩ := Option.isSome_iff_exists.1 hnum
  obtain ⟨w, hw⟩ := unscaleFloat_ok hwf hm hb t
  refine ⟨decide (x ≤ w), by rw [isSatisfied_float hx hw]; rfl, ?_⟩
  rw [isSatisfied_float hx hw]
  simp [← not_le]

/-- **C60** the constructor needs exactly one of `value` and `normalized_value`, and `less_equal` for a float. -/
theorem C60_constructor (cs : ConfigSpace K) (hp : Hp K) :
    (∀ le, mkCond cs hp none none le = .error .assertion) ∧
    (∀ v n le, mkCond cs hp (some v) (some n) le = .error .assertion) ∧
    (∀ t, mkCond cs hp none (some (.flt t)) none = .error .assertion) ∧
    (∀ t b, mkCond cs hp none (some (.flt t)) (some b) = .ok ⟨hp, .flt t, some b⟩) ∧
    (∀ v, ∀ c, mkCond cs hp (some v) none none ≠ .ok c) ∧
    (∀ n le, (∀ t, n ≠ .flt t) → mkCond cs hp none (some n) le = .ok ⟨hp, n, le⟩) := by
  refine ⟨fun _ => rfl, fun _ _ _ => rfl, fun _ => rfl, fun _ _ => rfl, ?_, ?_⟩
  · intro v c h
    simp only [mkCond] at h
    obtain ⟨t, -, h⟩ := Py.bind_eq_ok.1 h
    cases h
  · intro n le hn
    cases n with
    | flt t => exact absurd rfl (hn t)
    | int i => cases le <;> rfl
    | str s => cases le <;> rfl

/-- **C60** a condition whose value is not a float holds of the configurations with that very value. -/
theorem C60_other_values (cs : ConfigSpace K) (hp : Hp K) (le : Option Bool) (cfg : Config K) :
    (∀ s, isSatisfied cs ⟨hp, .str s, le⟩ cfg = .ok (decide (cfg.get? hp.name = some (.str s)))) ∧
    (∀ i : Int, isSatisfied cs ⟨hp, .int i, le⟩ cfg = .ok (decide (cfg.get? hp.name = some (.num (i : K))))) := by
  constructor
  · intro s
    simp only [isSatisfied, condValue, Py.ok_bind]
    cases h : cfg.get? hp.name with
    | none => simp [equalsValue]
    | some v => cases v <;> simp [equalsValue, eq_comm]
  · intro i
    simp only [isSatisfied, condValue, Py.ok_bind]
    cases h : cfg.get? hp.name with
    | none => simp [equalsValue]
    | some v => cases v <;> simp [equalsValue, eq_comm]

end generic

/-- **C60** a condition built from a natural value within the bounds reports that value, and means `x <= value` or `x > value`. -/
theorem C60_value {cs : ConfigSpace ℝ} {hp : Hp ℝ} {l u : ℝ} {g : Bool} (hd : Declares cs hp.name l u g) {v : ℝ} (h1 : l ≤ v) (h2 : v ≤ u)
    (b : Bool) :
    ∃ c, mkCond cs hp (some (.num v)) none (some b) = .ok c ∧ condValue cs c = .ok (.flt v) ∧ c.hp = hp ∧ c.lessEqual = some b ∧
      ∀ (cfg : Config ℝ) x, cfg.get? hp.name = some (.num x) →
        ∃ r, isSatisfied cs c cfg = .ok r ∧ (r = true ↔ if b then x ≤ v else v < x) := by
  obtain ⟨t, -, -, hs, hun⟩ := C01_unscale_scale hd h1 h2
  refine ⟨⟨hp, .flt t, some b⟩, ?_, ?_, rfl, rfl, ?_⟩
  · simp only [mkCond, scaleArg, hs, Py.ok_bind]; rfl
  · simp only [condValue, hun]; rfl
  · intro cfg x hx
    refine ⟨_, isSatisfied_float hx hun _, ?_⟩
    cases b <;> simp

/-- **C60** a normalised threshold `t` stands for the point at fraction `t` of the range. -/
theorem C60_normalized {cs : ConfigSpace ℝ} {hp : Hp ℝ} {l u : ℝ} {g : Bool} (hd : Declares cs hp.name l u g) {t : ℝ} (h1 : 0 ≤ t) (h2 : t ≤ 1)
    (b : Bool) (cfg : Config ℝ) {x : ℝ} (hx : cfg.get? hp.name = some (.num x)) :
    ∃ r, isSatisfied cs ⟨hp, .flt t, some b⟩ cfg = .ok r ∧
      (r = true ↔ if b then x ≤ interpolate l u g t else interpolate l u g t < x) := by
  refine ⟨_, isSatisfied_float hx (C01_unscale_is_interpolation hd h1 h2) _, ?_⟩
  cases b <;> simp

/-- **C60** a categorical hyperparameter cannot be given by `value` (AttributeError: it has no bounds). -/
theorem C60_categorical_value [Field K] [LinearOrder K] [Transc K] {cs : ConfigSpace K} (hwf : cs.WF) {hp : Hp K} (hm : hp ∈ cs)
    (hnum : hp.isNumerical = false) (v : Val K) (le : Option Bool) : mkCond cs hp (some v) none le = .error .attribute := by
  have hb : hp.bounds = .error .attribute := by
    unfold Hp.bounds
    cases h : hp.numerical? with
    | none => rfl
    | some b => simp [Hp.isNumerical, h] at hnum
  have hg := ConfigSpace.get_of_mem hwf hm
  cases v with
  | num x => simp only [mkCond, scaleArg, scaleFloat, hg, Py.ok_bind, hb, Py.error_bind]
  | str s => simp only [mkCond, scaleArg, hg, Py.ok_bind, hb, Py.error_bind]

/-! ### C57 -/

variable [Field K] [LinearOrder K] [Transc K]

theorem containsAll_append (cs : ConfigSpace K) (A B : List (Cond K)) (cfg : Config K) :
    containsAll cs (A ++ B) cfg = (containsAll cs A cfg >>= fun b => if b then containsAll cs B cfg else .ok false) := by
  induction A with
  | nil => rfl
  | cons c A ih =>
    simp only [List.cons_append, containsAll, ih]
    cases isSatisfied cs c cfg with
    | error e => rfl
    | ok b => cases b <;> rfl

/-- the configuration has a number for each of these hyperparameters -/
def HasNumbers (possible : List (Hp K)) (cfg : Config K) : Prop := ∀ hp ∈ possible, ∃ x, cfg.get? hp.name = some (.num x)

theorem Spec.Greedy.contains {cs possible : List (Hp K)} {N minPoints P : Nat} {d : Int} {n : Node K} {L : List (Node K)}
    (h : Greedy cs possible N minPoints P d n L) (hwf : ConfigSpace.WF cs) (hpos : ∀ hp ∈ possible, hp ∈ cs ∧ hp.isNumerical = true) {cfg : Config K}
    (hcfg : HasNumbers possible cfg) {b : Bool} (hb : containsAll cs n.conds cfg = .ok b) :
    ∃ bs : List Bool, List.Forall₂ (fun m r => containsAll cs m.conds cfg = .ok r) L bs ∧ bs.count true = if b then 1 else 0 := by
  induction h generalizing b with
  | leaf _ _ => exact ⟨[b], .cons hb .nil, by cases b <;> rfl⟩
  | @branch n l r Ll Lr i j hp f hn hdep h2 hbest hsp _ _ ih1 ih2 =>
    have hmem := List.mem_of_getElem? hbest.1.hp_at
    obtain ⟨x, hx⟩ := hcfg hp hmem
    obtain ⟨c, hc1, hc2⟩ := C60_complementary hwf (hpos hp hmem).1 (hpos hp hmem).2 (threshold N j : K) hx
    have e1 : containsAll cs l.conds cfg = .ok (b && c) := by
      rw [hsp.left_conds, containsAll_append, hb, Py.ok_bind]
      cases b
      · rfl
      · simp only [containsAll, hc1, Py.ok_bind]; cases c <;> rfl
    have e2 : containsAll cs r.conds cfg = .ok (b && !c) := by
      rw [hsp.right_conds, containsAll_append, hb, Py.ok_bind]
      cases b
      · rfl
      · simp only [containsAll, hc2, Py.ok_bind]; cases c <;> rfl
    obtain ⟨bl, hl1, hl2⟩ := ih1 e1
    obtain ⟨br, hr1, hr2⟩ := ih2 e2
    refine ⟨br ++ bl, List.rel_append hr1 hl1, ?_⟩
    rw [List.count_append, hl2, hr2]
    cases b <;> cases c <;> rfl

theorem one_true {bs : List Bool} (h : bs.count true = 1) : ∃ i : Nat, ∀ (j : Nat) b, bs[j]? = some b → (b = true ↔ j = i) ∧ i < bs.length := by
  induction bs with
  | nil => simp at h
  | cons b bs ih =>
    cases b with
    | true =>
      have h0 : bs.count true = 0 := by simpa using h
      refine ⟨0, fun j b hb => ⟨?_, by simp⟩⟩
      cases j with
      | zero => simp at hb; simp [hb]
      | succ j =>
        simp only [List.getElem?_cons_succ] at hb
        have : b ≠ true := by
          rintro rfl
          exact (List.count_pos_iff.2 (List.mem_of_getElem? hb)).ne' h0
        simp [this]
    | false =>
      obtain ⟨i, hi⟩ := ih (by simpa using h)
      refine ⟨i + 1, fun j b hb => ?_⟩
      cases j with
      | zero =>
        simp at hb
        subst hb
        obtain ⟨k, hk⟩ : ∃ k, bs[k]? = some true := List.mem_iff_getElem?.1 (List.count_pos_iff.1 (by
          have : bs.count true = 1 := by simpa using h
          omega))
        have := (hi k true hk).2
        exact ⟨by simp, by simp; omega⟩
      | succ j =>
        simp only [List.getElem?_cons_succ] at hb
        obtain ⟨h1, h2⟩ := hi j b hb
        exact ⟨by rw [h1]; omega, by simp; omega⟩

theorem firstContaining_eq {cs : ConfigSpace K} {cfg : Config K} {L : List (Node K)} {i : Nat} {leaf : Node K} (hi : L[i]? = some leaf)
    (h : ∀ (j : Nat) m, L[j]? = some m → containsAll cs m.conds cfg = .ok (decide (j = i))) : firstContaining cs cfg L = .ok (some leaf) := by
  induction L generalizing i with
  | nil => simp at hi
  | cons m L ih =>
    have h0 := h 0 m rfl
    cases i with
    | zero =>
      simp only [List.getElem?_cons_zero, Option.some.injEq] at hi
      subst hi
      simp [firstContaining, h0]
    | succ i =>
      simp only [List.getElem?_cons_succ] at hi
      simp only [firstContaining, h0, Py.ok_bind]
      rw [if_neg (by simp)]
      refine ih hi fun j q hq => ?_
      rw [h (j + 1) q (by simpa using hq)]
      simp

variable [IsStrictOrderedRing K]

/-- **C57** exactly one leaf contains the configuration (its values may be any numbers), and `get_incumbent_region` returns it. -/
theorem C57_exactly_one_leaf {P : Nat} {p : DT K} (hv : ValidDT P p) (hnum : ∀ hp ∈ p.possible, hp.isNumerical = true) {d : Int} (hd : 0 < d)
    {cfg : Config K} (hcfg : ∀ hp ∈ p.possible, ∃ x, cfg.get? hp.name = some (.num x)) :
    ∃ leaves i leaf, (dtPartition p d).2 = .ok leaves ∧ leaves[i]? = some leaf ∧
      (∀ (j : Nat) m, leaves[j]? = some m → containsAll p.cfg.space m.conds cfg = .ok (decide (j = i))) ∧
      dtIncumbentRegion (dtPartition p d).1 cfg = .ok (some leaf) := by
  obtain ⟨L, h1, -, h3, -⟩ := partition_eq hv hd
  obtain ⟨bs, hbs, hcount⟩ := h3.contains hv.wf (fun hp hm => ⟨hv.possible_mem hp hm, hnum hp hm⟩) hcfg (b := true) (by rw [hv.conds]; rfl)
  rw [if_pos rfl] at hcount
  obtain ⟨i, hi⟩ := one_true hcount
  have hlen := hbs.length_eq
  have hil : i < bs.length := by
    obtain ⟨k, hk⟩ : ∃ k, bs[k]? = some true := List.mem_iff_getElem?.1 (List.count_pos_iff.1 (by omega))
    exact (hi k true hk).2
  have hleaf : L[i]? = some L[i] := List.getElem?_eq_getElem (by omega)
  have hcont : ∀ (j : Nat) m, L[j]? = some m → containsAll p.cfg.space m.conds cfg = .ok (decide (j = i)) := by
    intro j m hm
    obtain ⟨hj, rfl⟩ := List.getElem?_eq_some_iff.1 hm
    have hj' : j < bs.length := by omega
    have := hbs.get hj hj'
    simp only [List.get_eq_getElem] at this
    rw [this]
    have h4 := (hi j bs[j] (List.getElem?_eq_getElem hj')).1
    congr 1
    rw [Bool.eq_iff_iff, h4]
    simp
  refine ⟨L, i, _, by rw [h1], hleaf, hcont, ?_⟩
  rw [h1]
  unfold dtIncumbentRegion
  rw [if_neg (by intro h0; dsimp only at h0; have := congrArg List.length h0; rw [List.length_nil] at this; omega)]
  exact firstContaining_eq hleaf hcont

omit [IsStrictOrderedRing K] in
/-- **C57** before any call of `partition` there is no region to return. -/
theorem C57_before_partition {space : ConfigSpace K} {predict : Predict K} {sel : Selection K} {samples : List (List K)}
    {perAxis numSplits minPoints : Nat} {notSplittable : Option (Selection K)} {p : DT K}
    (h : dtInit space predict sel samples perAxis numSplits minPoints notSplittable = .ok p) (cfg : Config K) :
    dtIncumbentRegion p cfg = .error .assertion := by
  obtain ⟨_, _, _, _, _, _, _, _, _, rfl⟩ := dtInit_ok h
  rfl

omit [IsStrictOrderedRing K] in
/-- A categorical hyperparameter can be split but then configurations cannot be looked up: `in` raises an AttributeError. (The property
is about numerical hyperparameters.) -/
theorem C57_categorical_raises {cs : ConfigSpace K} (hwf : cs.WF) {hp : Hp K} (hm : hp ∈ cs) (hnum : hp.isNumerical = false) (t : K) (le : Option Bool)
    (cfg : Config K) (rest : List (Cond K)) : containsAll cs (⟨hp, .flt t, le⟩ :: rest) cfg = .error .attribute := by
  have hb : hp.bounds = .error .attribute := by
    unfold Hp.bounds
    cases h : hp.numerical? with
    | none => rfl
    | some b => simp [Hp.isNumerical, h] at hnum
  simp only [containsAll, isSatisfied, condValue, unscaleFloat, ConfigSpace.get_of_mem hwf hm, Py.ok_bind, hb, Py.error_bind, Py.map_error]

/-! ### concrete cases -/

section concrete
local instance : Transc ℚ := ⟨id, id⟩

/-- threshold 1/4 on [-5, 5] is -5/2: the configuration x1 = -5/2 is in the second (left) leaf only, x1 = 0 in the first only -/
example : (exDt.bind fun p => (dtPartition p 1).2).bind
    (fun L => L.mapM fun m => containsAll [⟨"x1", .float (-5) 5 false⟩, ⟨"x2", .float 0 1 false⟩] m.conds ⟨[1/4, 0], [("x1", .num (-5/2)), ("x2", .num 0)]⟩) =
    .ok [false, true] := by decide +kernel

example : (exDt.bind fun p => (dtPartition p 1).2).bind
    (fun L => L.mapM fun m => containsAll [⟨"x1", .float (-5) 5 false⟩, ⟨"x2", .float 0 1 false⟩] m.conds ⟨[1/2, 0], [("x1", .num 0), ("x2", .num 0)]⟩) =
    .ok [true, false] := by decide +kernel

/-- `get_incumbent_region` finds it -/
example : (exDt.bind fun p => dtIncumbentRegion (dtPartition p 1).1 ⟨[1/4, 0], [("x1", .num (-5/2)), ("x2", .num 0)]⟩).map (·.map Node.y) =
    .ok (some [[1/10, 21/10], [2/10, 22/10]]) := by decide +kernel

/-- a condition given by its natural value -/
example : mkCond [⟨"x1", .float (-5) 5 false⟩] ⟨"x1", .float (-5 : ℚ) 5 false⟩ (some (.num 0)) none (some true) =
    .ok ⟨⟨"x1", .float (-5) 5 false⟩, .flt (1/2), some true⟩ := by decide +kernel

end concrete

end PyPDP
