/-
C141: the implied config space of a curve with rounded arithmetic.
-/
import Verif.Model.RoundedImplied
import Verif.Spec.RoundedImplied
import Verif.Props.RoundedRanges
import Verif.Props.IceObject

namespace PyPDP
open Spec

/-! ### exact functions: the model of C47 -/

/-- the exact functions -/
noncomputable def exactlyExp : ComputedExp := ⟨id, Real.log, Real.exp⟩

theorem unscaleNumF_exactly (l u : ℝ) (g : Bool) (t : ℝ) : unscaleNumF exactlyExp l u g t = unscaleNum l u g t := rfl

theorem unscaleRowF_exactly (x : List ℝ) (i : Nat) (obj : Bool) (hps : List (Hp ℝ)) (cur : List (Val ℝ)) :
    unscaleLoop DType.float (.d1 x) i obj hps (.d1 cur) = (unscaleRowF exactlyExp x i hps cur).map .d1 := by
  induction hps generalizing i obj cur with
  | nil => rfl
  | cons hp hps ih =>
    obtain ⟨name, kind⟩ := hp
    cases kind with
    | ordinal _ => rfl
    | constant _ => rfl
    | float l u g =>
      simp only [unscaleLoop, unscaleRowF, updArr, updRow, unscaleEntry]
      cases hx : x[i]? with
      | none => rfl
      | some e => simp only [Py.map_ok, Py.ok_bind]; exact ih _ _ _
    | integer l u g =>
      simp only [unscaleLoop, unscaleRowF, updArr, updRow, unscaleEntry]
      cases hx : x[i]? with
      | none => rfl
      | some e => simp only [Py.map_ok, Py.ok_bind]; exact ih _ _ _
    | categorical cs =>
      simp only [unscaleLoop, unscaleRowF, updArr, updRow, unscaleEntry]
      cases hx : x[i]? <;> rfl

theorem trunc_eq_iff (x : ℝ) : (if 0 ≤ x then ((⌊x⌋ : Int) : ℝ) else ((⌈x⌉ : Int) : ℝ)) = x ↔ ((⌊x⌋ : Int) : ℝ) = x := by
  split
  · rfl
  · constructor
    · intro h
      rw [← h]; simp
    · intro h
      rw [← h]; simp

theorem checkInt_zero (x : ℝ) : checkInt 0 x = if ((⌊x⌋ : Int) : ℝ) ≠ x then .error .value else .ok x := by
  have h := trunc_eq_iff x
  unfold checkInt
  simp only
  generalize (if 0 ≤ x then ((⌊x⌋ : Int) : ℝ) else ((⌈x⌉ : Int) : ℝ)) = i at *
  by_cases hi : i = x
  · rw [if_neg (by simp [hi]), if_neg (by simpa using h.1 hi), hi]
  · rw [if_pos (abs_pos.2 (sub_ne_zero.2 hi)), if_pos fun hh => hi (h.2 hh)]

theorem impliedLoopF_exactly (hps : ConfigSpace ℝ) (los his : List (Val ℝ)) : impliedLoopF 0 hps los his = impliedLoop hps los his := by
  have hre : ∀ (hp : Hp ℝ) lo hi, rebuildHpF 0 hp lo hi = rebuildHp hp lo hi := by
    rintro ⟨name, kind⟩ lo hi
    cases kind with
    | integer l u g =>
      simp only [rebuildHpF, rebuildHp, checkInt_zero]
      by_cases h1 : ((⌊lo⌋ : Int) : ℝ) = lo
      · by_cases h2 : ((⌊hi⌋ : Int) : ℝ) = hi
        · simp [h1, h2]
        · simp [h1, h2]
      · simp [h1]
    | _ => rfl
  have him : ∀ (hp : Hp ℝ) lo hi, impliedHpF 0 hp lo hi = impliedHp hp lo hi := by
    intro hp lo hi
    unfold impliedHpF impliedHp
    cases hp.numerical? with
    | none => rfl
    | some q =>
      cases lo with
      | str _ => rfl
      | num a =>
        cases hi with
        | str _ => rfl
        | num b => by_cases hab : a = b <;> simp [hab, hre]
  induction hps generalizing los his with
  | nil => simp [impliedLoopF, impliedLoop]
  | cons hp hps ih =>
    cases los with
    | nil => simp [impliedLoopF, impliedLoop]
    | cons a los =>
      cases his with
      | nil => simp [impliedLoopF, impliedLoop]
      | cons b his => simp only [impliedLoopF, impliedLoop, him, ih]

/-- **C141** (exact) without rounding and without tolerance this is the implied config space of C47. -/
theorem C141_exact (curve : IceCurve ℝ) : impliedConfigSpaceF exactlyExp 0 curve = impliedConfigSpace curve := by
  unfold impliedConfigSpaceF impliedConfigSpace
  refine congrArg _ (funext fun mins => congrArg _ (funext fun maxs => ?_))
  simp only [unscale, NdArr.map, unscaleRowF_exactly]
  rw [show (fun e : ℝ => Val.num (DType.float.toNum e)) = Val.num from rfl]
  cases unscaleRowF exactlyExp mins 0 curve.space (mins.map .num) with
  | error e => rfl
  | ok lo =>
    simp only [Py.map_ok, Py.ok_bind]
    cases unscaleRowF exactlyExp maxs 0 curve.space (maxs.map .num) with
    | error e => rfl
    | ok hi =>
      simp only [Py.map_ok, Py.ok_bind, NdArr.row]
      exact impliedLoopF_exactly _ _ _

/-! ### one value -/

private theorem zeroDouble : IsDouble 0 := ⟨0, 0, by norm_num, by simp⟩

theorem Spec.RoundsToNearest.mono {fl : ℝ → ℝ} (h : RoundsToNearest fl) {x y : ℝ} (hxy : x ≤ y) : fl x ≤ fl y :=
  rounded_mono (f := id) (h x) (h y) id hxy

/-- unscaling keeps the order -/
theorem unscaleNumF_mono {c : ComputedExp} (hc : CorrectlyRoundedExp c) {l u : ℝ} {g : Bool} (hlu : l < u) (hpos : g = true → 0 < l) {s t : ℝ}
    (hst : s ≤ t) : unscaleNumF c l u g s ≤ unscaleNumF c l u g t := by
  cases g with
  | false =>
    simp only [unscaleNumF, Bool.false_eq_true, if_false]
    have h0 : 0 ≤ c.fl (u - l) := (hc.fl _).ge zeroDouble (by linarith)
    refine hc.fl.mono ?_
    have := hc.fl.mono (mul_le_mul_of_nonneg_right hst h0)
    linarith
  | true =>
    simp only [unscaleNumF, if_true]
    have hl := hpos rfl
    have hlog : c.log l ≤ c.log u := rounded_mono (hc.log l hl) (hc.log u (by linarith)) (fun h => Real.log_lt_log hl h) hlu.le
    have h0 : 0 ≤ c.fl (c.log u - c.log l) := (hc.fl _).ge zeroDouble (by linarith)
    refine min_le_min_left _ (max_le_max_left _ ?_)
    refine rounded_mono (hc.exp _) (hc.exp _) (fun h => Real.exp_lt_exp.2 h) (hc.fl.mono ?_)
    have := hc.fl.mono (mul_le_mul_of_nonneg_right hst h0)
    linarith

/-- **C141** (lower end) the lower end of a linear axis is reproduced. -/
theorem C141_zero {c : ComputedExp} (hc : CorrectlyRoundedExp c) {l u : ℝ} (hl : IsDouble l) : unscaleNumF c l u false 0 = l := by
  simp only [unscaleNumF, Bool.false_eq_true, if_false, zero_mul, (hc.fl 0).self zeroDouble, zero_add, (hc.fl l).self hl]

/-- the upper end of a linear axis -/
theorem C141_one {c : ComputedExp} (hc : CorrectlyRoundedExp c) (l u : ℝ) : unscaleNumF c l u false 1 = c.fl (c.fl (u - l) + l) := by
  simp only [unscaleNumF, Bool.false_eq_true, if_false, one_mul]
  rw [(hc.fl (c.fl (u - l))).self (hc.fl _).1]

/-- **C141** (exactly when) unscaling the interval [0, 1] stays within the bounds: always on a logarithmic axis (which is clipped); on
a linear axis if and only if the rounded width, added to the lower bound, does not exceed the upper bound. -/
theorem C141_unscale_exact {c : ComputedExp} (hc : CorrectlyRoundedExp c) {l u : ℝ} (hlu : l < u) :
    (∀ t, l ≤ unscaleNumF c l u true t ∧ unscaleNumF c l u true t ≤ u) ∧
    (IsDouble l → ((∀ t, 0 ≤ t → t ≤ 1 → l ≤ unscaleNumF c l u false t ∧ unscaleNumF c l u false t ≤ u) ↔ c.fl (c.fl (u - l) + l) ≤ u)) := by
  constructor
  · intro t
    simp only [unscaleNumF, if_true]
    exact ⟨le_min hlu.le (le_max_left _ _), min_le_left _ _⟩
  · intro hl
    constructor
    · intro h
      rw [← C141_one hc]
      exact (h 1 zero_le_one le_rfl).2
    · intro h t h0 h1
      have a := unscaleNumF_mono hc (g := false) hlu (by simp) h0
      have b := unscaleNumF_mono hc (g := false) hlu (by simp) h1
      rw [C141_zero hc hl] at a
      rw [C141_one hc] at b
      exact ⟨a, b.trans h⟩

/-- if the width is a double, the upper end is reproduced -/
theorem C141_width_partial {c : ComputedExp} (hc : CorrectlyRoundedExp c) {l u : ℝ} (hu : IsDouble u) (hw : IsDouble (u - l)) :
    unscaleNumF c l u false 1 = u := by
  rw [C141_one hc, (hc.fl (u - l)).self hw, sub_add_cancel, (hc.fl u).self hu]

/-! ### the row -/

theorem unscaleRowF_ok (c : ComputedExp) {x : List ℝ} {hps : List (Hp ℝ)} (hk : ∀ hp ∈ hps, ∃ l u g, hp.kind = .float l u g ∨ hp.kind = .integer l u g)
    {i : Nat} {cur : List (Val ℝ)} (hi : i + hps.length = x.length) (hcur : cur.length = x.length) :
    ∃ out, unscaleRowF c x i hps cur = .ok out ∧ out.length = x.length ∧ (∀ f < i, out[f]? = cur[f]?) ∧
      ∀ f hp e l u g, hps[f]? = some hp → x[i + f]? = some e → hp.kind = .float l u g ∨ hp.kind = .integer l u g →
        out[i + f]? = some (.num (unscaleNumF c l u g e)) := by
  induction hps generalizing i cur with
  | nil => exact ⟨cur, rfl, hcur, fun _ _ => rfl, by simp⟩
  | cons hp hps ih =>
    simp only [List.length_cons] at hi
    obtain ⟨l, u, g, hkind⟩ := hk hp (by simp)
    have hx : x[i]? = some (x[i]'(by omega)) := List.getElem?_eq_getElem _
    obtain ⟨e, he⟩ : ∃ e, e = x[i]'(by omega) := ⟨_, rfl⟩
    rw [← he] at hx
    have hstep : unscaleRowF c x i (hp :: hps) cur = unscaleRowF c x (i + 1) hps (cur.set i (.num (unscaleNumF c l u g e))) := by
      rcases hkind with hkind | hkind <;> simp [unscaleRowF, hkind, updRow, hx]
    obtain ⟨out, h1, h2, h3, h4⟩ := ih (fun q hq => hk q (by simp [hq])) (i := i + 1) (cur := cur.set i (.num (unscaleNumF c l u g e))) (by omega) (by simpa using hcur)
    refine ⟨out, by rw [hstep, h1], h2, ?_, ?_⟩
    · intro f hf
      rw [h3 f (by omega), List.getElem?_set_ne (by omega)]
    · intro f q e' l' u' g' hq hxe hkq
      cases f with
      | zero =>
        simp only [List.getElem?_cons_zero, Option.some.injEq] at hq
        subst hq
        rw [Nat.add_zero] at hxe ⊢
        rw [hx] at hxe
        cases hxe
        have : l' = l ∧ u' = u ∧ g' = g := by
          rcases hkind with h | h <;> rcases hkq with h' | h' <;> rw [h] at h' <;> cases h' <;> exact ⟨rfl, rfl, rfl⟩
        obtain ⟨rfl, rfl, rfl⟩ := this
        rw [h3 i (by omega), List.getElem?_set_self (by omega)]
      | succ f =>
        rw [show i + (f + 1) = i + 1 + f by omega] at hxe ⊢
        exact h4 f q e' l' u' g' (by simpa using hq) hxe hkq

theorem impliedLoopF_ok {tol : ℝ} {hps : ConfigSpace ℝ} {los his : List (Val ℝ)} {R : Nat → Hp ℝ → Hp ℝ → Prop}
    (hlo : los.length = hps.length) (hhi : his.length = hps.length)
    (h : ∀ (f : Nat) hp lo hi, hps[f]? = some hp → los[f]? = some lo → his[f]? = some hi → ∃ o, impliedHpF tol hp lo hi = .ok o ∧ R f hp o) :
    ∃ out, impliedLoopF tol hps los his = .ok out ∧ out.length = hps.length ∧
      ∀ (f : Nat) hp, hps[f]? = some hp → ∃ o, out[f]? = some o ∧ R f hp o := by
  induction hps generalizing los his R with
  | nil => exact ⟨[], by simp [impliedLoopF], rfl, by simp⟩
  | cons hp hps ih =>
    obtain _ | ⟨lo, los⟩ := los
    · simp at hlo
    obtain _ | ⟨hi, his⟩ := his
    · simp at hhi
    obtain ⟨o, ho, hR⟩ := h 0 hp lo hi (by simp) (by simp) (by simp)
    obtain ⟨out, hout, hlen, hall⟩ := ih (R := fun f => R (f + 1)) (by simpa using hlo) (by simpa using hhi)
      fun f q a b h1 h2 h3 => h (f + 1) q a b (by simpa using h1) (by simpa using h2) (by simpa using h3)
    refine ⟨o :: out, by simp [impliedLoopF, ho, hout], by simp [hlen], ?_⟩
    intro f q hq
    cases f with
    | zero => simp at hq; subst hq; exact ⟨o, by simp, hR⟩
    | succ f => simpa using hall f q (by simpa using hq)

theorem checkInt_int {tol : ℝ} (htol : 0 ≤ tol) (z : ℤ) : checkInt tol z = .ok (z : ℝ) := by
  unfold checkInt
  simp [not_lt.2 htol]

/-- **C141** (within; partial: not for every linear axis and not for integer hyperparameters with a logarithmic axis) with every rounding,
the implied config space exists and each of its hyperparameters has the name of the original one and is a constant or a range of the
same class within the original bounds, if the curve's points are normalised and unscaling 1 does not exceed the bounds (see
`C141_unscale_exact`, `C141_width_partial`); along an integer hyperparameter the curve is constant or goes from 0 to 1 on a linear
axis, as the curves of an ICE object do; then the hyperparameter is unchanged. -/
theorem C141_within_partial {c : ComputedExp} (hc : CorrectlyRoundedExp c) {tol : ℝ} (htol : 0 ≤ tol) {curve : IceCurve ℝ} (hcs : AllDeclared curve.space)
    (hne : curve.x ≠ []) (hx : ∀ r ∈ curve.x, r.length = curve.space.length ∧ ∀ e ∈ r, 0 ≤ e ∧ e ≤ 1)
    (hlin : ∀ hp ∈ curve.space, ∀ l u, hp.kind = .float l u false ∨ hp.kind = .integer l u false → IsDouble l ∧ unscaleNumF c l u false 1 ≤ u)
    (hint : ∀ (f : Nat) hp l u g, curve.space[f]? = some hp → hp.kind = .integer l u g →
      (∃ e, colOf curve.x f = {e}) ∨
        (g = false ∧ (∃ a : ℤ, l = a) ∧ (∃ b : ℤ, u = b) ∧ unscaleNumF c l u false 1 = u ∧ 0 ∈ colOf curve.x f ∧ 1 ∈ colOf curve.x f)) :
    ∃ out, impliedConfigSpaceF c tol curve = .ok out ∧ out.length = curve.space.length ∧
      ∀ (f : Nat) hp l u g, curve.space[f]? = some hp → hp.kind = .float l u g ∨ hp.kind = .integer l u g →
        ∃ o, out[f]? = some o ∧ SubRange hp l u o ∧
          ((∃ e, colOf curve.x f = {e}) → ∃ v, o.kind = .constant (.num v)) ∧
          (g = false → unscaleNumF c l u false 1 = u → 0 ∈ colOf curve.x f → 1 ∈ colOf curve.x f → o = hp) := by
  obtain ⟨mn, mx, hmn, hmx, hln, hlx, hext⟩ := colFold_spec hne fun r hr => (hx r hr).1
  have hcol : ∀ f e, e ∈ colOf curve.x f → 0 ≤ e ∧ e ≤ 1 := fun f e ⟨r, hr, he⟩ => (hx r hr).2 e (List.mem_of_getElem? he)
  have hkinds : ∀ hp ∈ curve.space, ∃ l u g, hp.kind = .float l u g ∨ hp.kind = .integer l u g := by
    intro hp hm
    obtain ⟨l, u, g, -, hk⟩ := allDeclared_kind hcs hm
    exact ⟨l, u, g, hk⟩
  obtain ⟨lo, hlo, hlol, -, hlov⟩ := unscaleRowF_ok c (x := mn) hkinds (i := 0) (cur := mn.map .num) (by omega) (by simp)
  obtain ⟨hi, hhi, hhil, -, hhiv⟩ := unscaleRowF_ok c (x := mx) hkinds (i := 0) (cur := mx.map .num) (by omega) (by simp)
  simp only [Nat.zero_add] at hlov hhiv
  obtain ⟨out, hout, hlen, hall⟩ := impliedLoopF_ok (tol := tol) (hps := curve.space) (los := lo) (his := hi)
    (R := fun f hp o => ∀ l u g, hp.kind = .float l u g ∨ hp.kind = .integer l u g → SubRange hp l u o ∧
          ((∃ e, colOf curve.x f = {e}) → ∃ v, o.kind = .constant (.num v)) ∧
          (g = false → unscaleNumF c l u false 1 = u → 0 ∈ colOf curve.x f → 1 ∈ colOf curve.x f → o = hp))
    (by omega) (by omega) (by
      intro f hp w1 w2 hf hw1 hw2
      have hfl := (List.getElem?_eq_some_iff.1 hf).1
      have hmem := List.mem_of_getElem? hf
      obtain ⟨l, u, g, hd, hk⟩ := allDeclared_kind hcs hmem
      have ha : mn[f]? = some (mn[f]'(by omega)) := List.getElem?_eq_getElem _
      have hb : mx[f]? = some (mx[f]'(by omega)) := List.getElem?_eq_getElem _
      obtain ⟨a, ha'⟩ : ∃ a, a = mn[f]'(by omega) := ⟨_, rfl⟩
      obtain ⟨b, hb'⟩ : ∃ b, b = mx[f]'(by omega) := ⟨_, rfl⟩
      rw [← ha'] at ha
      rw [← hb'] at hb
      obtain ⟨ha1, hb1, hab⟩ := hext f a b ha hb
      have ha01 := hcol f a ha1
      have hb01 := hcol f b hb1
      have e1 := hlov f hp a l u g hf ha hk
      rw [hw1] at e1
      cases e1
      have e2 := hhiv f hp b l u g hf hb hk
      rw [hw2] at e2
      cases e2
      have hnum : hp.numerical? = some (l, u, g) := by rcases hk with hk | hk <;> simp [Hp.numerical?, hk]
      have hkk : ∀ l' u' g', hp.kind = .float l' u' g' ∨ hp.kind = .integer l' u' g' → l' = l ∧ u' = u ∧ g' = g := by
        intro l' u' g' h
        rcases hk with hk | hk <;> rcases h with h | h <;> rw [hk] at h <;> cases h <;> exact ⟨rfl, rfl, rfl⟩
      have hbnd : ∀ t, 0 ≤ t → t ≤ 1 → l ≤ unscaleNumF c l u g t ∧ unscaleNumF c l u g t ≤ u := by
        cases g with
        | true => exact fun t _ _ => (C141_unscale_exact hc hd.lt).1 t
        | false =>
          obtain ⟨hdl, h1⟩ := hlin hp hmem l u hk
          rw [C141_one hc] at h1
          exact ((C141_unscale_exact hc hd.lt).2 hdl).2 h1
      obtain ⟨A, hA⟩ : ∃ A, A = unscaleNumF c l u g a := ⟨_, rfl⟩
      obtain ⟨B, hB⟩ : ∃ B, B = unscaleNumF c l u g b := ⟨_, rfl⟩
      have hAb := hbnd a ha01.1 ha01.2
      have hBb := hbnd b hb01.1 hb01.2
      have hAB : A ≤ B := by rw [hA, hB]; exact unscaleNumF_mono hc hd.lt hd.pos (hab b hb1).1
      have hends : g = false → unscaleNumF c l u false 1 = u → 0 ∈ colOf curve.x f → 1 ∈ colOf curve.x f → A = l ∧ B = u := by
        intro hg h1 h0 h1'
        subst hg
        have a0 : a = 0 := le_antisymm (hab 0 h0).1 ha01.1
        have b1 : b = 1 := le_antisymm hb01.2 (hab 1 h1').2
        rw [hA, hB, a0, b1]
        exact ⟨C141_zero hc (hlin hp hmem l u hk).1, h1⟩
      rw [← hA, ← hB]
      rw [← hA] at hAb
      rw [← hB] at hBb
      by_cases heq : A = B
      · refine ⟨⟨hp.name, .constant (.num A)⟩, by simp [impliedHpF, hnum, heq], ?_⟩
        intro l' u' g' h
        obtain ⟨rfl, rfl, rfl⟩ := hkk l' u' g' h
        refine ⟨⟨rfl, Or.inl ⟨A, rfl, hAb⟩⟩, fun _ => ⟨A, rfl⟩, fun hg h1 h0 h1' => ?_⟩
        obtain ⟨hl', hu'⟩ := hends hg h1 h0 h1'
        exact absurd (hl'.symm.trans (heq.trans hu')) hd.lt.ne
      · have hlt : A < B := lt_of_le_of_ne hAB heq
        have hcon : ¬ ∃ e, colOf curve.x f = {e} := by
          rintro ⟨e, he⟩
          rw [he] at ha1 hb1
          exact heq (by rw [hA, hB, ha1, hb1])
        have hpos : ¬ (g = true ∧ A ≤ 0) := fun h => absurd (hd.pos h.1) (not_lt.2 (hAb.1.trans h.2))
        rcases hk with hk | hk
        · refine ⟨⟨hp.name, .float A B g⟩, ?_, ?_⟩
          · simp only [impliedHpF, hnum, heq, if_false, rebuildHpF, hk]
            rw [if_neg]
            rintro (h | h)
            · exact absurd hlt (not_lt.2 h)
            · exact hpos h
          · intro l' u' g' h
            obtain ⟨rfl, rfl, rfl⟩ := hkk l' u' g' h
            refine ⟨⟨rfl, Or.inr ⟨A, B, _, hAb.1, hlt, hBb.2, Or.inl ⟨hk, rfl⟩⟩⟩, fun h => absurd h hcon, fun hg h1 h0 h1' => ?_⟩
            obtain ⟨hl', hu'⟩ := hends hg h1 h0 h1'
            obtain ⟨n, k⟩ := hp
            simp only at hk
            rw [hk, hl', hu']
        · rcases hint f hp l u g hf hk with h | ⟨hg, ⟨zl, hzl⟩, ⟨zu, hzu⟩, h1, h0, h1'⟩
          · exact absurd h hcon
          obtain ⟨hl', hu'⟩ := hends hg h1 h0 h1'
          refine ⟨⟨hp.name, .integer l u g⟩, ?_, ?_⟩
          · simp only [impliedHpF, hnum, rebuildHpF, hk, hl', hu']
            rw [if_neg hd.lt.ne, hzl, hzu, checkInt_int htol, Py.ok_bind, checkInt_int htol, Py.ok_bind, ← hzl, ← hzu, if_neg]
            rintro (h | h)
            · exact absurd hd.lt (not_lt.2 h)
            · rw [hg] at h; simp at h
          · intro l' u' g' h
            obtain ⟨rfl, rfl, rfl⟩ := hkk l' u' g' h
            refine ⟨⟨rfl, Or.inr ⟨_, _, _, le_rfl, hd.lt, le_rfl, Or.inr ⟨hk, rfl⟩⟩⟩, fun h => absurd h hcon, fun _ _ _ _ => ?_⟩
            obtain ⟨n, k⟩ := hp
            simp only at hk
            rw [hk])
  refine ⟨out, ?_, hlen, fun f hp l u g hf hk => ?_⟩
  · simp only [impliedConfigSpaceF, hmn, hmx, Py.ok_bind, hlo, hhi]
    exact hout
  · obtain ⟨o, ho, hR⟩ := hall f hp hf
    exact ⟨o, ho, hR l u g hk⟩

/-! ### counterexamples -/

/-- the double nearest to 0.1 -/
private noncomputable def tenthD : ℝ := 3602879701896397 / 2 ^ 55

private theorem isDouble_tenthD : IsDouble tenthD := ⟨3602879701896397, -55, by norm_num, by unfold tenthD; rw [zpow_neg]; norm_num⟩

/-- a float hyperparameter between -1 and 0.1 -/
private noncomputable def belowTenth : Hp ℝ := ⟨"x", .float (-1) tenthD false⟩

/-- the curve over the whole axis of one hyperparameter -/
private noncomputable def wholeCurve (hp : Hp ℝ) : IceCurve ℝ := ⟨[hp], [hp], [[0], [1]], [0, 0], [0, 0]⟩

private theorem implied_whole (c : ComputedExp) (tol : ℝ) {hp : Hp ℝ} {l u : ℝ} {g : Bool} (hk : hp.kind = .float l u g ∨ hp.kind = .integer l u g) :
    impliedConfigSpaceF c tol (wholeCurve hp) = (impliedHpF tol hp (.num (unscaleNumF c l u g 0)) (.num (unscaleNumF c l u g 1))).map fun o => [o] := by
  have hmin : colFold min (wholeCurve hp).x = .ok [0] := by simp [colFold, wholeCurve]
  have hmax : colFold max (wholeCurve hp).x = .ok [1] := by simp [colFold, wholeCurve]
  have hrow : ∀ e : ℝ, unscaleRowF c [e] 0 [hp] [.num e] = .ok [.num (unscaleNumF c l u g e)] := by
    intro e
    rcases hk with hk | hk <;> simp [unscaleRowF, hk, updRow]
  simp only [impliedConfigSpaceF, hmin, hmax, Py.ok_bind, List.map_cons, List.map_nil]
  rw [show (wholeCurve hp).space = [hp] from rfl, hrow, Py.ok_bind, hrow, Py.ok_bind]
  simp only [impliedLoopF]
  cases impliedHpF tol hp (.num (unscaleNumF c l u g 0)) (.num (unscaleNumF c l u g 1)) <;> rfl

/-- **C141** fails on linear axes: for a float hyperparameter between -1 and 0.1 and the curve over its whole axis, the upper bound of the
implied config space is above 0.1, however ties are broken. Exactly, the hyperparameter would be unchanged. -/
theorem C141_bounds_counterexample : ∃ (hp : Hp ℝ) (u : ℝ) (curve : IceCurve ℝ), hp.kind = .float (-1) u false ∧ IsDouble u ∧ -1 < u ∧
    curve.space = [hp] ∧ curve.x = [[0], [1]] ∧
    (∀ c tol, CorrectlyRoundedExp c → ∃ v, impliedConfigSpaceF c tol curve = .ok [⟨hp.name, .float (-1) v false⟩] ∧ u < v) ∧
    impliedConfigSpaceF exactlyExp 0 curve = .ok [hp] := by
  have hd1 : IsDouble (-1) := ⟨-1, 0, by norm_num, by norm_num⟩
  have hlt : (-1 : ℝ) < tenthD := by unfold tenthD; norm_num
  refine ⟨belowTenth, tenthD, wholeCurve belowTenth, rfl, isDouble_tenthD, hlt, rfl, rfl, ?_, ?_⟩
  · intro c tol hc
    have hw : c.fl (tenthD - -1) = ((4953959590107546 : ℤ) : ℝ) * (2 : ℝ) ^ (-52 : ℤ) := by
      refine (hc.fl _).eq_of_close ⟨_, _, by norm_num, rfl⟩ (by norm_num) ?_
      rw [zpow_neg, abs_lt]
      unfold tenthD
      norm_num
    have hv : unscaleNumF c (-1) tenthD false 1 = 450359962737050 / 2 ^ 52 := by
      rw [C141_one hc, hw, (hc.fl _).self ⟨450359962737050, -52, by norm_num, by rw [zpow_neg]; norm_num⟩, zpow_neg]
      norm_num
    refine ⟨450359962737050 / 2 ^ 52, ?_, by unfold tenthD; norm_num⟩
    rw [implied_whole c tol (hp := belowTenth) (Or.inl rfl), C141_zero hc hd1, hv]
    have : impliedHpF tol belowTenth (.num (-1)) (.num (450359962737050 / 2 ^ 52)) = .ok ⟨belowTenth.name, .float (-1) (450359962737050 / 2 ^ 52) false⟩ := by
      simp only [impliedHpF, belowTenth, Hp.numerical?, rebuildHpF]
      rw [if_neg (by norm_num), if_neg (by norm_num)]
    rw [this]
    rfl
  · rw [implied_whole _ _ (hp := belowTenth) (Or.inl rfl)]
    have h0 : unscaleNumF exactlyExp (-1) tenthD false 0 = -1 := by simp [unscaleNumF, exactlyExp]
    have h1 : unscaleNumF exactlyExp (-1) tenthD false 1 = tenthD := by simp [unscaleNumF, exactlyExp]
    rw [h0, h1]
    have : impliedHpF 0 belowTenth (.num (-1)) (.num tenthD) = .ok belowTenth := by
      simp only [impliedHpF, belowTenth, Hp.numerical?, rebuildHpF]
      rw [if_neg hlt.ne, if_neg]
      rintro (h | h)
      · linarith
      · simp at h
    rw [this]
    rfl

/-- an integer hyperparameter between 1 and 128 with a logarithmic axis -/
private noncomputable def batchSize : Hp ℝ := ⟨"b", .integer 1 128 true⟩

/-- **C141** fails for integer hyperparameters with a logarithmic axis: for the bounds 1 and 128 and the curve over the whole axis,
`exp(log(128))` is below 128, and the implied config space cannot be built (ValueError), however ties are broken. Exactly, the
hyperparameter would be unchanged. -/
theorem C141_integer_counterexample : ∃ (hp : Hp ℝ) (curve : IceCurve ℝ), hp.kind = .integer 1 128 true ∧
    curve.space = [hp] ∧ curve.x = [[0], [1]] ∧
    (∀ c, CorrectlyRoundedExp c → impliedConfigSpaceF c (1 / 10 ^ 8) curve = .error .value) ∧
    impliedConfigSpaceF exactlyExp 0 curve = .ok [hp] := by
  have hln := log_two_digits
  have hlog : Real.log 128 = 7 * Real.log 2 := by
    rw [show (128 : ℝ) = 2 ^ 7 by norm_num, Real.log_pow]; norm_num
  refine ⟨batchSize, wholeCurve batchSize, rfl, rfl, rfl, ?_, ?_⟩
  · intro c hc
    obtain ⟨L, hL⟩ : ∃ L : ℝ, L = 5462900422144689 / 2 ^ 50 := ⟨_, rfl⟩
    have hLz : ((5462900422144689 : ℤ) : ℝ) * (2 : ℝ) ^ (-50 : ℤ) = L := by rw [hL, zpow_neg]; norm_num
    have hLd : IsDouble L := ⟨5462900422144689, -50, by norm_num, hLz.symm⟩
    have h1 : c.log 1 = 0 := by
      have := hc.log 1 one_pos
      rw [Real.log_one] at this
      exact this.self zeroDouble
    have h128 : c.log 128 = L := by
      rw [← hLz]
      refine (hc.log 128 (by norm_num)).eq_of_close ⟨_, _, by norm_num, rfl⟩ (by norm_num) ?_
      rw [hlog, hLz, hL, zpow_neg, abs_lt]
      norm_num at hln ⊢
      constructor <;> linarith [hln.1, hln.2]
    have hfl : ∀ x, IsDouble x → c.fl x = x := fun x hx => (hc.fl x).self hx
    have hexp : Real.exp L < 128 * (1 - 1 / 2 ^ 53) := by
      have h0 : (0 : ℝ) < 1 - 1 / 2 ^ 53 := by norm_num
      rw [← Real.lt_log_iff_exp_lt (by positivity), Real.log_mul (by norm_num) h0.ne', hlog]
      have h2 := Real.log_le_sub_one_of_pos (inv_pos.2 h0)
      rw [Real.log_inv] at h2
      have h3 : ((1 : ℝ) - 1 / 2 ^ 53)⁻¹ - 1 ≤ 1 / 2 ^ 52 := by norm_num
      have h4 : L < 7 * Real.log 2 - 1 / 2 ^ 52 := by
        rw [hL]
        norm_num at hln ⊢
        linarith [hln.1]
      linarith
    have hlow : 128 * (1 - 1 / 2 ^ 50) < Real.exp L := by
      have h0 : (0 : ℝ) < 1 - 1 / 2 ^ 50 := by norm_num
      rw [← Real.log_lt_iff_lt_exp (by positivity), Real.log_mul (by norm_num) h0.ne', hlog]
      have h2 := Real.log_le_sub_one_of_pos h0
      have h4 : 7 * Real.log 2 - 1 / 2 ^ 50 < L := by
        rw [hL]
        norm_num at hln ⊢
        linarith [hln.2]
      linarith
    have hE := hc.exp L
    obtain ⟨E, hEd⟩ : ∃ E, E = c.exp L := ⟨_, rfl⟩
    rw [← hEd] at hE
    have hEu : E ≤ 128 * (1 - 1 / 2 ^ 53) := hE.le ⟨2 ^ 53 - 1, -46, by norm_num, by rw [zpow_neg]; norm_num⟩ hexp.le
    have hEl : 128 * (1 - 1 / 2 ^ 50) ≤ E := hE.ge ⟨2 ^ 50 - 1, -43, by norm_num, by rw [zpow_neg]; norm_num⟩ hlow.le
    have hone : unscaleNumF c 1 128 true 1 = E := by
      simp only [unscaleNumF, if_true, h1, h128, sub_zero, hfl L hLd, one_mul, add_zero, ← hEd]
      rw [max_eq_right, min_eq_right]
      · refine hEu.trans ?_; norm_num
      · refine le_trans ?_ hEl; norm_num
    have hzero : unscaleNumF c 1 128 true 0 = 1 := by
      have : c.exp 0 = 1 := by
        have := hc.exp 0
        rw [Real.exp_zero] at this
        exact this.self ⟨1, 0, by norm_num, by norm_num⟩
      simp only [unscaleNumF, if_true, h1, h128, sub_zero, hfl L hLd, zero_mul, hfl 0 zeroDouble, add_zero, this]
      norm_num
    rw [implied_whole c _ (hp := batchSize) (Or.inr rfl), hzero, hone]
    have hne : (1 : ℝ) ≠ E := by
      have : (1 : ℝ) < E := lt_of_lt_of_le (by norm_num) hEl
      exact this.ne
    have hfloor : ⌊E⌋ = 127 := by
      rw [Int.floor_eq_iff]
      constructor
      · refine le_trans ?_ hEl; norm_num
      · refine lt_of_le_of_lt hEu ?_; norm_num
    have hci : checkInt (1 / 10 ^ 8) E = .error .value := by
      have hE0 : 0 ≤ E := le_trans (by norm_num) hEl
      unfold checkInt
      simp only [hE0, if_true, hfloor]
      rw [if_pos]
      rw [lt_abs]
      right
      norm_num at hEl ⊢
      linarith
    have h1i : checkInt (1 / 10 ^ 8) 1 = .ok 1 := by
      have := checkInt_int (tol := 1 / 10 ^ 8) (by norm_num) 1
      simpa using this
    have : impliedHpF (1 / 10 ^ 8) batchSize (.num 1) (.num E) = .error .value := by
      simp only [impliedHpF, batchSize, Hp.numerical?, rebuildHpF]
      rw [if_neg hne, h1i, Py.ok_bind, hci]
      rfl
    rw [this]
    rfl
  · rw [implied_whole _ _ (hp := batchSize) (Or.inr rfl)]
    have h0 : unscaleNumF exactlyExp 1 128 true 0 = 1 := by simp [unscaleNumF, exactlyExp]
    have h1 : unscaleNumF exactlyExp 1 128 true 1 = 128 := by
      simp [unscaleNumF, exactlyExp, Real.exp_log]
    rw [h0, h1]
    have c1 : checkInt 0 1 = .ok 1 := by simpa using checkInt_int (tol := 0) le_rfl 1
    have c2 : checkInt 0 128 = .ok 128 := by simpa using checkInt_int (tol := 0) le_rfl 128
    have : impliedHpF 0 batchSize (.num 1) (.num 128) = .ok batchSize := by
      simp only [impliedHpF, batchSize, Hp.numerical?, rebuildHpF]
      rw [if_neg (by norm_num), c1, Py.ok_bind, c2, Py.ok_bind, if_neg (by norm_num)]
    rw [this]
    rfl

/-- correctly rounded functions exist -/
theorem correctlyRoundedExp_exists : ∃ c, CorrectlyRoundedExp c := by
  choose r hr using nearest_exists
  exact ⟨⟨r, fun x => r (Real.log x), fun y => r (Real.exp y)⟩, hr, fun _ _ => hr _, fun _ => hr _⟩

/-- non-trivial case: a float between -5 and 10, an integer between 1 and 100 and a logarithmic float between 1/8 and 3; the curve varies
in the first two -/
example {c : ComputedExp} (hc : CorrectlyRoundedExp c) : ∃ o1 o2 v, impliedConfigSpaceF c (1 / 10 ^ 8)
      ⟨[⟨"a", .float (-5) 10 false⟩, ⟨"b", .integer 1 100 false⟩, ⟨"c", .float (1 / 8) 3 true⟩], [], [[1 / 4, 0, 1 / 2], [3 / 4, 1, 1 / 2]], [0, 0], [0, 0]⟩ =
        .ok [o1, o2, ⟨"c", .constant (.num v)⟩] ∧ SubRange ⟨"a", .float (-5) 10 false⟩ (-5) 10 o1 ∧ o2 = ⟨"b", .integer 1 100 false⟩ ∧
        1 / 8 ≤ v ∧ v ≤ 3 := by
  have d : ∀ z : ℤ, |z| ≤ 2 ^ 53 → IsDouble (z : ℝ) := fun z hz => isDouble_int hz
  have w1 : unscaleNumF c (-5) 10 false 1 = 10 :=
    C141_width_partial hc (by simpa using d 10 (by norm_num)) (by have := d 15 (by norm_num); norm_num at this ⊢; exact this)
  have w2 : unscaleNumF c 1 100 false 1 = 100 :=
    C141_width_partial hc (by simpa using d 100 (by norm_num)) (by have := d 99 (by norm_num); norm_num at this ⊢; exact this)
  have col1 : colOf [[(1 : ℝ) / 4, 0, 1 / 2], [3 / 4, 1, 1 / 2]] 1 = {0, 1} := by
    ext e; simp [colOf, eq_comm]
  have col2 : colOf [[(1 : ℝ) / 4, 0, 1 / 2], [3 / 4, 1, 1 / 2]] 2 = {1 / 2} := by
    ext e; simp [colOf, eq_comm]
  obtain ⟨out, h1, h2, h3⟩ := C141_within_partial hc (tol := 1 / 10 ^ 8) (by norm_num) (curve := ⟨[⟨"a", .float (-5) 10 false⟩, ⟨"b", .integer 1 100 false⟩, ⟨"c", .float (1 / 8) 3 true⟩], [], [[1 / 4, 0, 1 / 2], [3 / 4, 1, 1 / 2]], [0, 0], [0, 0]⟩)
    (by
      have wf : ConfigSpace.WF [(⟨"a", .float (-5) 10 false⟩ : Hp ℝ), ⟨"b", .integer 1 100 false⟩, ⟨"c", .float (1 / 8) 3 true⟩] := by
        simp [ConfigSpace.WF]
      intro hp hm
      simp only [List.mem_cons, List.not_mem_nil, or_false] at hm
      rcases hm with rfl | rfl | rfl
      · exact ⟨-5, 10, false, wf, ⟨_, by simp, rfl, Or.inl rfl⟩, by norm_num, by simp⟩
      · exact ⟨1, 100, false, wf, ⟨⟨"b", .integer 1 100 false⟩, by simp, rfl, Or.inr rfl⟩, by norm_num, by simp⟩
      · exact ⟨1 / 8, 3, true, wf, ⟨⟨"c", .float (1 / 8) 3 true⟩, by simp, rfl, Or.inl rfl⟩, by norm_num, fun _ => by norm_num⟩)
    (by simp) (by
      intro r hr
      simp only [List.mem_cons, List.not_mem_nil, or_false] at hr
      rcases hr with rfl | rfl
      · refine ⟨rfl, fun e he => ?_⟩
        simp only [List.mem_cons, List.not_mem_nil, or_false] at he
        rcases he with rfl | rfl | rfl <;> norm_num
      · refine ⟨rfl, fun e he => ?_⟩
        simp only [List.mem_cons, List.not_mem_nil, or_false] at he
        rcases he with rfl | rfl | rfl <;> norm_num)
    (by
      intro hp hm l u hk
      simp only [List.mem_cons, List.not_mem_nil, or_false] at hm
      rcases hm with rfl | rfl | rfl
      · rcases hk with hk | hk <;> cases hk
        exact ⟨by simpa using d (-5) (by norm_num), w1.le⟩
      · rcases hk with hk | hk <;> cases hk
        exact ⟨by simpa using d 1 (by norm_num), w2.le⟩
      · rcases hk with hk | hk <;> cases hk)
    (by
      intro f hp l u g hf hk
      match f with
      | 0 => simp at hf; subst hf; cases hk
      | 1 =>
        simp at hf; subst hf; cases hk
        refine Or.inr ⟨rfl, ⟨1, by norm_num⟩, ⟨100, by norm_num⟩, w2, ?_, ?_⟩ <;> rw [col1] <;> simp
      | 2 => simp at hf; subst hf; cases hk
      | n + 3 => simp at hf)
  obtain ⟨o1, e1, s1, -, -⟩ := h3 0 ⟨"a", .float (-5) 10 false⟩ (-5) 10 false rfl (Or.inl rfl)
  obtain ⟨o2, e2, -, -, s2⟩ := h3 1 ⟨"b", .integer 1 100 false⟩ 1 100 false rfl (Or.inr rfl)
  obtain ⟨o3, e3, s3, k3, -⟩ := h3 2 ⟨"c", .float (1 / 8) 3 true⟩ (1 / 8) 3 true rfl (Or.inl rfl)
  obtain ⟨v, hv⟩ := k3 ⟨1 / 2, col2⟩
  have hb : 1 / 8 ≤ v ∧ v ≤ 3 := by
    rcases s3.2 with ⟨v', hv', hb⟩ | ⟨_, _, _, _, _, _, ⟨_, hh⟩ | ⟨_, hh⟩⟩
    · rw [hv] at hv'; cases hv'; exact hb
    · rw [hv] at hh; cases hh
    · rw [hv] at hh; cases hh
  refine ⟨o1, o2, v, ?_, s1, s2 rfl w2 (by rw [col1]; simp) (by rw [col1]; simp), hb⟩
  rw [h1]
  match out, h2 with
  | [a, b, d], _ =>
    simp only [List.getElem?_cons_zero, Option.some.injEq, List.getElem?_cons_succ] at e1 e2 e3
    subst e1 e2 e3
    obtain ⟨n, k⟩ := d
    simp only at hv
    have hn : n = "c" := s3.1
    rw [hv, hn]

end PyPDP
