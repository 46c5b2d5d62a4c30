/-
C10, C11: `config_space_nd` and calling a blackbox function.
-/
import Verif.Model.Blackbox
import Verif.Spec.Blackbox
import Verif.Lemmas.Names
import Verif.Lemmas.Py
import Verif.Lemmas.ConfigSpace
import Mathlib.Tactic.NormNum

set_option linter.unusedSectionVars false

namespace PyPDP
open Spec

section C10
variable {K : Type} [Field K] [LinearOrder K] [FloorRing K]

/-- What the axis with number `i` (from 1) has to look like. -/
def AxisSpec (pfx : String) (i : Nat) (low high : K) (log : Bool) (hp : Hp K) : Prop :=
  hp.name = pfx ++ toString i ∧
  (low = high → hp.kind = .constant (.num low)) ∧ (low ≠ high → hp.kind = .float low high log)

theorem axisHp_ok {name : String} {low high : K} {log : Bool} {hp : Hp K} :
    axisHp name low high log = .ok hp ↔
      (low = high ∨ (low < high ∧ (log = true → 0 < low))) ∧ hp.name = name ∧
      (low = high → hp.kind = .constant (.num low)) ∧ (low ≠ high → hp.kind = .float low high log) := by
  unfold axisHp
  split
  · rename_i h
    subst h
    simp only [Except.ok.injEq, true_or, true_and, ne_eq, not_true, false_implies, and_true, forall_const]
    constructor
    · rintro rfl; simp
    · rintro ⟨h1, h2⟩; cases hp; simp_all
  · rename_i h
    split
    · rename_i h2
      simp only [reduceCtorEq, h, false_or, false_iff, not_and]
      rintro ⟨h3, _⟩; exact absurd h3 (not_lt.2 h2)
    · rename_i h2
      have h2 := not_le.1 h2
      split
      · rename_i h3
        simp only [reduceCtorEq, h, false_or, false_iff]
        rintro ⟨⟨_, h4⟩, _⟩; exact absurd (h4 h3.1) (not_lt.2 h3.2)
      · rename_i h3
        have h3 : log = true → 0 < low := fun hl => not_le.1 fun h0 => h3 ⟨hl, h0⟩
        simp only [Except.ok.injEq, h, false_or, h2, true_and, false_implies, ne_eq, not_false_eq_true, forall_const]
        constructor
        · rintro rfl; exact ⟨h3, rfl, rfl⟩
        · rintro ⟨_, h1, h2⟩; cases hp; simp_all

theorem axisLoop_ok {pfx : String} {l : List (K × K × Bool)} {i : Nat} {hps : List (Hp K)}
    (h : axisLoop pfx i l = .ok hps) :
    hps.length = l.length ∧
    ∀ (j : Nat) hp a, hps[j]? = some hp → l[j]? = some a → AxisSpec pfx (i + j + 1) a.1 a.2.1 a.2.2 hp := by
  induction l generalizing i hps with
  | nil => cases h; simp
  | cons a l ih =>
    obtain ⟨low, high, log⟩ := a
    simp only [axisLoop] at h
    obtain ⟨hp, h1, h⟩ := Py.bind_eq_ok.1 h
    obtain ⟨hps', h2, h⟩ := Py.bind_eq_ok.1 h
    cases h
    obtain ⟨h3, h4⟩ := ih h2
    refine ⟨by simp [h3], fun j hp' a hj ha => ?_⟩
    cases j with
    | zero =>
      simp only [List.getElem?_cons_zero, Option.some.injEq] at hj ha
      subst hj; subst ha
      exact (axisHp_ok.1 h1).2
    | succ j =>
      simp only [List.getElem?_cons_succ] at hj ha
      have := h4 j hp' a hj ha
      rwa [show i + (j + 1) + 1 = i + 1 + j + 1 by omega]

theorem axisLoop_total {pfx : String} {l : List (K × K × Bool)} (i : Nat)
    (h : ∀ a ∈ l, a.1 = a.2.1 ∨ (a.1 < a.2.1 ∧ (a.2.2 = true → 0 < a.1))) : ∃ hps, axisLoop pfx i l = .ok hps := by
  induction l generalizing i with
  | nil => exact ⟨[], rfl⟩
  | cons a l ih =>
    obtain ⟨low, high, log⟩ := a
    have h0 := h _ List.mem_cons_self
    obtain ⟨hps, h1⟩ := ih (i + 1) fun a ha => h a (List.mem_cons_of_mem _ ha)
    have : ∃ hp, axisHp (pfx ++ toString (i + 1)) low high log = .ok hp := by
      by_cases hlh : low = high
      · exact ⟨⟨_, .constant (.num low)⟩, axisHp_ok.2 ⟨h0, rfl, fun _ => rfl, fun hh => absurd hlh hh⟩⟩
      · exact ⟨⟨_, .float low high log⟩, axisHp_ok.2 ⟨h0, rfl, fun hh => absurd hh hlh, fun _ => rfl⟩⟩
    obtain ⟨hp, h2⟩ := this
    exact ⟨hp :: hps, by simp only [axisLoop, h1, h2]; rfl⟩

theorem nodup_names {pfx : String} {l : List (K × K × Bool)} {i : Nat} {hps : List (Hp K)}
    (h : axisLoop pfx i l = .ok hps) : (hps.map Hp.name).Nodup := by
  obtain ⟨h1, h2⟩ := axisLoop_ok h
  have key : ∀ j (hj : j < hps.length), hps[j].name = pfx ++ toString (i + j + 1) := fun j hj =>
    (h2 j hps[j] (l[j]'(by omega)) (List.getElem?_eq_getElem hj) (List.getElem?_eq_getElem (by omega))).1
  rw [List.nodup_iff_injective_getElem]
  rintro ⟨a, ha⟩ ⟨b, hb⟩ hab
  simp only [List.length_map] at ha hb
  simp only [List.getElem_map, key a ha, key b hb] at hab
  have := name_inj hab
  ext; simp; omega

/-- **C10** scalar bounds: `config_space_nd(d)` succeeds for bounds ConfigSpace accepts and has exactly `d`
hyperparameters with pairwise different names; they are `prefix1 .. prefixd`, each with the given bounds and log flag, or
a constant exactly if the bounds coincide. -/
theorem C10_scalar [IsStrictOrderedRing K] (order : SpaceOrder K) (horder : ∀ l, (order l).Perm l) (d : Nat) (low high : K) (log : Bool)
    (pfx : String) (hb : low = high ∨ (low < high ∧ (log = true → 0 < low))) :
    ∃ cs, configSpaceNd order (d : K) (.scalar low) (.scalar high) (.scalar log) pfx = .ok cs ∧
      cs.length = d ∧ cs.WF ∧
      (∀ i, 1 ≤ i → i ≤ d → ∃ hp ∈ cs, AxisSpec pfx i low high log hp) ∧
      (∀ hp ∈ cs, ∃ i, 1 ≤ i ∧ i ≤ d ∧ AxisSpec pfx i low high log hp) := by
  set l := (List.replicate d low).zip ((List.replicate d high).zip (List.replicate d log)) with hl
  have hlen : l.length = d := by simp [hl]
  have hget : ∀ j, j < d → l[j]? = some (low, high, log) := by
    intro j hj; simp [hl, hj]
  obtain ⟨hps, h⟩ := axisLoop_total (pfx := pfx) (l := l) 0 (by
    intro a ha
    obtain ⟨j, hj, rfl⟩ := List.getElem_of_mem ha
    have := hget j (by omega)
    rw [List.getElem?_eq_getElem hj] at this
    rw [Option.some.inj this]; exact hb)
  obtain ⟨h1, h2⟩ := axisLoop_ok h
  have hp := horder hps
  refine ⟨order hps, ?_, ?_, ?_, ?_, ?_⟩
  · have e1 : ⌊(d : K)⌋.toNat = d := by rw [Int.floor_natCast]; rfl
    have e2 : ((⌊(d : K)⌋ : Int) : K) = (d : K) := by rw [Int.floor_natCast]; simp
    simp only [configSpaceNd, e1, e2, ne_eq, not_true, if_false, AxisArg.expand, ← hl, h]; rfl
  · rw [hp.length_eq, h1, hlen]
  · unfold ConfigSpace.WF
    exact (hp.map Hp.name).nodup_iff.2 (nodup_names h)
  · intro i hi1 hid
    have hj : i - 1 < hps.length := by omega
    refine ⟨hps[i - 1], hp.mem_iff.2 (List.getElem_mem hj), ?_⟩
    have := h2 (i - 1) _ _ (List.getElem?_eq_getElem hj) (hget (i - 1) (by omega))
    rwa [show 0 + (i - 1) + 1 = i by omega] at this
  · intro q hq
    obtain ⟨j, hj, rfl⟩ := List.getElem_of_mem (hp.mem_iff.1 hq)
    refine ⟨j + 1, by omega, by omega, ?_⟩
    have := h2 j _ _ (List.getElem?_eq_getElem hj) (hget j (by omega))
    rwa [show 0 + j + 1 = j + 1 by omega] at this

/-- **C10** iterables: one axis per position up to the shortest iterable, axis `i` with the `i`-th bounds. -/
theorem C10_iterables (order : SpaceOrder K) (horder : ∀ l, (order l).Perm l) (dims : K) (lower upper : List K)
    (log : List Bool) (pfx : String) {cs : ConfigSpace K}
    (h : configSpaceNd order dims (.iter lower) (.iter upper) (.iter log) pfx = .ok cs) :
    cs.length = min lower.length (min upper.length log.length) ∧ cs.WF ∧
    ∀ (i : Nat) lo hi g, lower[i]? = some lo → upper[i]? = some hi → log[i]? = some g →
      ∃ hp ∈ cs, AxisSpec pfx (i + 1) lo hi g hp := by
  unfold configSpaceNd at h
  split at h
  · cases h
  · obtain ⟨hps, h1, h2⟩ := Py.bind_eq_ok.1 h
    cases h2
    simp only [AxisArg.expand] at h1
    obtain ⟨h3, h4⟩ := axisLoop_ok h1
    have hp := horder hps
    refine ⟨by rw [hp.length_eq, h3]; simp [List.length_zip], ?_, ?_⟩
    · unfold ConfigSpace.WF
      exact (hp.map Hp.name).nodup_iff.2 (nodup_names h1)
    · intro i lo hi g hlo hhi hg
      have hz : (lower.zip (upper.zip log))[i]? = some (lo, hi, g) := by
        simp [List.getElem?_zip_eq_some, hlo, hhi, hg]
      have hi' : i < hps.length := by rw [h3]; exact (List.getElem?_eq_some_iff.1 hz).1
      refine ⟨hps[i], hp.mem_iff.2 (List.getElem_mem hi'), ?_⟩
      have := h4 i _ _ (List.getElem?_eq_getElem hi') hz
      rwa [show 0 + i + 1 = i + 1 by omega] at this

/-- **C10** a dimension that is not a whole number is rejected, and so are bounds ConfigSpace does not accept. -/
theorem C10_errors [IsStrictOrderedRing K] (order : SpaceOrder K) (low high : K) (log : Bool) (pfx : String) :
    (∀ dims : K, (∀ z : Int, (z : K) ≠ dims) →
      configSpaceNd order dims (.scalar low) (.scalar high) (.scalar log) pfx = .error .assertion) ∧
    (∀ d : Nat, 1 ≤ d → (high < low ∨ (low < high ∧ log = true ∧ low ≤ 0)) →
      configSpaceNd order (d : K) (.scalar low) (.scalar high) (.scalar log) pfx = .error .value) := by
  constructor
  · intro dims h
    simp [configSpaceNd, h]
  · intro d hd hb
    obtain ⟨d, rfl⟩ : ∃ d', d = d' + 1 := ⟨d - 1, by omega⟩
    have : axisHp (pfx ++ toString (0 + 1)) low high log = .error .value := by
      unfold axisHp
      rcases hb with h | ⟨h1, h2, h3⟩
      · simp [h.ne', h.le]
      · simp [h1.ne, h1.not_ge, h2, h3]
    have hloop : ∀ l, axisLoop pfx 0 ((low, high, log) :: l) = .error .value := by
      intro l; simp only [axisLoop, this]; rfl
    have e1 : ⌊((d + 1 : Nat) : K)⌋.toNat = d + 1 := by rw [Int.floor_natCast]; rfl
    have e2 : ((⌊((d + 1 : Nat) : K)⌋ : Int) : K) = ((d + 1 : Nat) : K) := by rw [Int.floor_natCast]; simp
    simp only [configSpaceNd, e1, e2, ne_eq, not_true, if_false, AxisArg.expand, List.replicate_succ, List.zip_cons_cons, hloop]
    rfl

example : ∃ cs, configSpaceNd (K := ℚ) id 3 (.scalar (-5)) (.scalar 5) (.scalar false) = .ok cs ∧
    cs.map Hp.name = ["x1", "x2", "x3"] := ⟨_, rfl, by decide +kernel⟩

end C10

section C11
variable {K : Type} [Field K] [LinearOrder K] [FloorRing K]

/-- The keyword arguments name exactly the hyperparameters of the space, each with a legal value. -/
def LegalKwargs (cs : ConfigSpace K) (kwargs : List (String × Val K)) : Prop :=
  (∀ p ∈ kwargs, ∃ hp ∈ cs, hp.name = p.1) ∧
  (∀ hp ∈ cs, ∃ v, (hp.name, v) ∈ kwargs ∧ hp.legal v = true)

/-- **C11** (legal) the call returns `value_from_config` of a configuration holding exactly the given values. -/
theorem C11_legal (inv : Hp K → Val K → K) (f : BlackboxFn K) {kwargs : List (String × Val K)}
    (hkw : (kwargs.map Prod.fst).Nodup) (h : LegalKwargs f.cs kwargs) :
    ∃ config, f.call inv kwargs = f.value config ∧
      config.values.map Prod.fst = f.cs.map Hp.name ∧
      (∀ n v, (n, v) ∈ kwargs ↔ (n, v) ∈ config.values) := by
  obtain ⟨h1, h2⟩ := h
  have hfind : ∀ n v, (n, v) ∈ kwargs → kwargs.find? (fun p => p.1 == n) = some (n, v) := by
    intro n v hm
    clear h1 h2
    induction kwargs with
    | nil => cases hm
    | cons p ps ih =>
      rw [List.map_cons, List.nodup_cons] at hkw
      rcases List.mem_cons.1 hm with rfl | hm
      · simp
      · have hne : p.1 ≠ n := fun e => hkw.1 (e ▸ List.mem_map_of_mem (f := Prod.fst) hm)
        simp [hne, ih hkw.2 hm]
  have hany : ¬ ∃ p ∈ kwargs, ∀ hp ∈ f.cs, hp.name ≠ p.1 := by
    rintro ⟨p, hp, hh⟩
    obtain ⟨q, hq, hn⟩ := h1 p hp
    exact hh q hq hn
  have hm : ∃ vals, (f.cs.mapM fun hp =>
      bindValue kwargs hp) = .ok vals ∧
      List.Forall₂ (fun hp p => p.1 = hp ∧ (hp.name, p.2) ∈ kwargs) f.cs vals := by
    clear hany h1
    revert h2
    generalize f.cs = cs
    intro h2
    induction cs with
    | nil => exact ⟨[], rfl, .nil⟩
    | cons a as ih =>
      obtain ⟨v, hv, hl⟩ := h2 a List.mem_cons_self
      obtain ⟨vs, h3, h4⟩ := ih fun hp hh => h2 hp (List.mem_cons_of_mem _ hh)
      exact ⟨(a, v) :: vs, by
        have hb : bindValue kwargs a = .ok (a, v) := by simp [bindValue, hfind _ _ hv, hl]
        simp [List.mapM_cons, hb, h3], .cons ⟨rfl, hv⟩ h4⟩
  obtain ⟨vals, h3, h4⟩ := hm
  refine ⟨⟨vals.map fun p => inv p.1 p.2, vals.map fun p => (p.1.name, p.2)⟩, ?_, ?_, ?_⟩
  · rw [BlackboxFn.call, mkConfiguration, if_neg hany, h3]; rfl
  · simp only [List.map_map]
    clear h3 hany h1 h2
    revert h4
    generalize f.cs = cs
    intro h4
    induction h4 with
    | nil => rfl
    | cons h _ ih => simp [h.1, ih]
  · intro n v
    simp only [List.mem_map, Prod.mk.injEq]
    constructor
    · intro hm
      obtain ⟨hp, hhp, hn⟩ := h1 _ hm
      obtain ⟨i, hi, rfl⟩ := List.getElem_of_mem hhp
      have hi' : i < vals.length := h4.length_eq ▸ hi
      have := (List.forall₂_iff_get.1 h4).2 i hi hi'
      simp only [List.get_eq_getElem] at this
      refine ⟨vals[i], List.getElem_mem _, by rw [this.1, hn], ?_⟩
      have e1 := hfind _ _ this.2
      have e2 := hfind _ _ hm
      simp only at hn
      rw [hn, e2] at e1
      simpa using e1.symm
    · rintro ⟨p, hp, rfl, rfl⟩
      obtain ⟨i, hi, rfl⟩ := List.getElem_of_mem hp
      have hi' : i < f.cs.length := h4.length_eq ▸ hi
      have := (List.forall₂_iff_get.1 h4).2 i hi' hi
      simp only [List.get_eq_getElem] at this
      rw [this.1]; exact this.2

/-- **C11** (illegal) otherwise — an unknown name, a missing hyperparameter or a value out of bounds — the call raises
ValueError and nothing is evaluated. -/
theorem C11_illegal (inv : Hp K → Val K → K) (f : BlackboxFn K) {kwargs : List (String × Val K)}
    (h : ¬ LegalKwargs f.cs kwargs) : f.call inv kwargs = .error .value := by
  by_cases h1 : ∀ p ∈ kwargs, ∃ hp ∈ f.cs, hp.name = p.1
  · have h2 : ∃ hp ∈ f.cs, ∀ v, (hp.name, v) ∈ kwargs → hp.legal v ≠ true := by
      by_contra hh
      push Not at hh
      exact h ⟨h1, hh⟩
    have herr : (f.cs.mapM fun hp =>
        bindValue kwargs hp) = .error .value := by
      clear h1 h
      revert h2
      generalize f.cs = cs
      intro h2
      induction cs with
      | nil => obtain ⟨_, h, _⟩ := h2; cases h
      | cons a as ih =>
        obtain ⟨hp, hm, hv⟩ := h2
        rw [List.mapM_cons]
        rcases List.mem_cons.1 hm with rfl | hm
        · cases hf : kwargs.find? (fun p => p.1 == hp.name) with
          | none => simp [bindValue, hf]
          | some p =>
            have e : p.1 = hp.name := by simpa using List.find?_some hf
            have : hp.legal p.2 ≠ true := hv p.2 (by rw [← e]; exact List.mem_of_find?_eq_some hf)
            simp [bindValue, hf, this]
        · rw [ih ⟨hp, hm, hv⟩]
          cases hf : kwargs.find? (fun p => p.1 == a.name) with
          | none => simp [bindValue, hf]
          | some p =>
            by_cases hl : a.legal p.2 = true <;> simp [bindValue, hf, hl]
    rw [BlackboxFn.call, mkConfiguration, herr]
    split <;> rfl
  · push Not at h1
    obtain ⟨p, hp, hn⟩ := h1
    rw [BlackboxFn.call, mkConfiguration, if_pos ⟨p, hp, hn⟩]; rfl

example : LegalKwargs ([⟨"a", .float 0 1 false⟩, ⟨"b", .categorical ["u", "v"]⟩] : ConfigSpace ℚ)
    [("b", .str "v"), ("a", .num (1/2))] := by
  constructor
  · decide +kernel
  · intro hp hm
    simp only [List.mem_cons, List.not_mem_nil, or_false] at hm
    rcases hm with rfl | rfl
    · exact ⟨.num (1/2), by simp, by decide +kernel⟩
    · exact ⟨.str "v", by simp, by decide +kernel⟩

end C11
end PyPDP
