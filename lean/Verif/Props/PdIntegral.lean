/-
C17, C18: the analytic partial dependence of StyblinskiTang.
-/
import Verif.Props.Synthetic
import Verif.Props.Selection
import Mathlib.Analysis.SpecialFunctions.Integrals.Basic
import Mathlib.MeasureTheory.Integral.IntervalIntegral.FundThmCalculus

namespace PyPDP
open Spec

/-! ### helper lemmas -/

theorem stTerm_integral (l u c : ℝ) : ∫ t in l..u, (stTerm t + c) =
    (styblinskiTangIntegral u - styblinskiTangIntegral l) + c * (u - l) := by
  have hd : ∀ t ∈ Set.uIcc l u, HasDerivAt (fun t => styblinskiTangIntegral t + c * t) (stTerm t + c) t := by
    intro t _
    have h5 := (hasDerivAt_pow 5 t).const_mul (0.2 : ℝ)
    have h3 := (hasDerivAt_pow 3 t).const_mul (16 / 3 : ℝ)
    have h2 := (hasDerivAt_pow 2 t).const_mul (2.5 : ℝ)
    have h := (((h5.sub h3).add h2).const_mul (0.5 : ℝ)).add ((hasDerivAt_id t).const_mul c)
    refine HasDerivAt.congr_deriv (h.congr_of_eventuallyEq (Filter.Eventually.of_forall fun s => ?_)) ?_
    · simp [styblinskiTangIntegral]
    · unfold stTerm; norm_num; ring
  rw [intervalIntegral.integral_eq_sub_of_hasDerivAt hd]
  · ring
  · apply Continuous.intervalIntegrable
    unfold stTerm; fun_prop

theorem sum_update {S : List String} (hS : S.Nodup) {n : String} (hn : n ∈ S) (p : ℝ → ℝ) (ρ : Assignment) (t : ℝ) :
    (S.map fun m => p (ρ.update n t m)).sum = p t + ((S.filter (· ≠ n)).map fun m => p (ρ m)).sum := by
  induction S with
  | nil => cases hn
  | cons a as ih =>
    rw [List.nodup_cons] at hS
    by_cases h : a = n
    · subst h
      have h1 : as.filter (· ≠ a) = as := List.filter_eq_self.2 fun b hb => by
        simp only [decide_eq_true_eq]; rintro rfl; exact hS.1 hb
      have h2 : (as.map fun m => p (ρ.update a t m)) = as.map fun m => p (ρ m) := List.map_congr_left fun b hb => by
        have : b ≠ a := by rintro rfl; exact hS.1 hb
        simp [Assignment.update, this]
      simp only [List.map_cons, List.sum_cons, h2]
      rw [List.filter_cons_of_neg (by simp), h1]
      simp [Assignment.update]
    · have hn' : n ∈ as := by
        rcases List.mem_cons.1 hn with rfl | hn
        · exact absurd rfl h
        · exact hn
      rw [List.filter_cons_of_pos (by simpa using h)]
      simp only [List.map_cons, List.sum_cons, ih hS.2 hn']
      simp only [Assignment.update, if_neg h]
      ring

theorem average_additive {S : List String} (hS : S.Nodup) (ρ : Assignment) (axes : List Axis)
    (hax : (axes.map Axis.name).Nodup) (hsub : ∀ a ∈ axes, a.name ∈ S) (hlen : ∀ a ∈ axes, a.lower < a.upper) :
    average axes (fun ρ => (S.map fun m => stTerm (ρ m)).sum) ρ =
      ((S.filter fun m => m ∉ axes.map Axis.name).map fun m => stTerm (ρ m)).sum +
      (axes.map fun a => (styblinskiTangIntegral a.upper - styblinskiTangIntegral a.lower) / (a.upper - a.lower)).sum := by
  induction axes generalizing ρ with
  | nil => simp [average]
  | cons a as ih =>
    rw [List.map_cons, List.nodup_cons] at hax
    have hl := hlen a List.mem_cons_self
    set off := (as.map fun a => (styblinskiTangIntegral a.upper - styblinskiTangIntegral a.lower) / (a.upper - a.lower)).sum
      with hoff
    set R := ((S.filter fun m => m ∉ (a :: as).map Axis.name).map fun m => stTerm (ρ m)).sum with hR
    have inner : ∀ t, average as (fun ρ => (S.map fun m => stTerm (ρ m)).sum) (ρ.update a.name t) = stTerm t + (R + off) := by
      intro t
      rw [ih (ρ.update a.name t) hax.2 (fun b hb => hsub b (List.mem_cons_of_mem _ hb))
        (fun b hb => hlen b (List.mem_cons_of_mem _ hb)),
        sum_update (hS.filter _) (List.mem_filter.2 ⟨hsub a List.mem_cons_self, by simpa using hax.1⟩) stTerm ρ t,
        List.filter_filter, add_assoc, hR]
      congr 4
      apply List.filter_congr
      intro m _
      simp [not_or]
    rw [average]
    simp only [inner]
    rw [stTerm_integral, List.map_cons, List.sum_cons, ← hoff]
    have : a.upper - a.lower ≠ 0 := by linarith
    field_simp
    ring

/-- the numerical axis of a hyperparameter -/
def axisOf (hp : Hp ℝ) : Option Axis := hp.numerical?.map fun b => ⟨hp.name, b.1, b.2.1⟩

theorem forall2_denotes_unique {cs : ConfigSpace ℝ} (hcs : cs.WF) {items : List (SelItem ℝ)} {sel : List (Hp ℝ)}
    (h : List.Forall₂ (Denotes cs) items sel) : convertHyperparameters (.many items) cs = .ok sel :=
  (C05_convert_many hcs items sel).2 h

theorem pd_ok {order : SpaceOrder ℝ} {cs : ConfigSpace ℝ} (hcs : cs.WF)
    {items : List (SelItem ℝ)} {sel : List (Hp ℝ)} (hden : List.Forall₂ (Denotes cs) items sel) (hne : items ≠ [])
    {axes : List Axis} (hax : List.Forall₂ (fun hp a => hp.numerical?.isSome ∧ axisOf hp = some a) sel axes) :
    styblinskiTangPdIntegral order cs items = .ok
      (⟨order (cs.filter fun hp => sel.all fun s => s.name ≠ hp.name), fun config => do
        return (← styblinskiTangValue (order (cs.filter fun hp => sel.all fun s => s.name ≠ hp.name)) config) +
          (axes.map fun a => (styblinskiTangIntegral a.upper - styblinskiTangIntegral a.lower) / (a.upper - a.lower)).sum⟩,
        (axes.map fun a => (styblinskiTangIntegral a.upper - styblinskiTangIntegral a.lower) / (a.upper - a.lower)).sum) := by
  have hoff : sel.mapM integralOffset = .ok
      (axes.map fun a => (styblinskiTangIntegral a.upper - styblinskiTangIntegral a.lower) / (a.upper - a.lower)) := by
    rw [Py.mapM_eq_ok, List.forall₂_map_right_iff]
    refine hax.imp fun hp a h => ?_
    obtain ⟨_, h⟩ := h
    unfold axisOf at h
    unfold integralOffset
    cases hn : hp.numerical? with
    | none => simp [hn] at h
    | some b =>
      rw [hn] at h
      simp only [Option.map_some, Option.some.injEq] at h
      subst h; rfl
  have hl : items.length ≠ 0 := by simpa using hne
  rw [styblinskiTangPdIntegral, if_neg hl, forall2_denotes_unique hcs hden, Py.ok_bind, hoff, Py.ok_bind]
  rfl

/-! ### C17 -/

/-- **C17** For every non-empty selection of distinct numerical hyperparameters of the space (given by name or as object),
the returned function maps the remaining coordinates to the average of the full function over the box of the selected
hyperparameters, and the returned offset is the constant added to the StyblinskiTang value of the remaining coordinates.
`g` is the full function as a function of the coordinates. -/
theorem C17_pd_integral {order : SpaceOrder ℝ} (hord : ∀ l, (order l).Perm l) {cs : ConfigSpace ℝ} (hcs : cs.WF)
    {items : List (SelItem ℝ)} {sel : List (Hp ℝ)} (hden : List.Forall₂ (Denotes cs) items sel) (hne : items ≠ [])
    (hmem : ∀ hp ∈ sel, hp ∈ cs) (hdistinct : (sel.map Hp.name).Nodup)
    {axes : List Axis} (hax : List.Forall₂ (fun (hp : Hp ℝ) (a : Axis) => hp.name = a.name ∧
      ((∃ log, hp.kind = .float a.lower a.upper log) ∨ ∃ log, hp.kind = .integer a.lower a.upper log)) sel axes)
    (hlen : ∀ a ∈ axes, a.lower < a.upper) :
    ∃ (f : BlackboxFn ℝ) (offset : ℝ) (g : Assignment → ℝ), styblinskiTangPdIntegral order cs items = .ok (f, offset) ∧
      (∀ ρ, styblinskiTangValue cs (assignConfig cs ρ) = .ok (g ρ)) ∧
      (∀ ρ, f.value (assignConfig f.cs ρ) = .ok (average axes g ρ)) ∧
      (∀ ρ, styblinskiTangValue f.cs (assignConfig f.cs ρ) = .ok (average axes g ρ - offset)) := by
  have hax' : List.Forall₂ (fun (hp : Hp ℝ) a => hp.numerical?.isSome ∧ axisOf hp = some a) sel axes := by
    refine hax.imp fun hp a h => ?_
    obtain ⟨h1, ⟨lg, h2⟩ | ⟨lg, h2⟩⟩ := h <;> simp [axisOf, Hp.numerical?, h1, h2]
  have hnames : sel.map Hp.name = axes.map Axis.name := by
    clear hax' hden hdistinct hmem hlen
    induction hax with
    | nil => rfl
    | cons h _ ih => rw [List.map_cons, List.map_cons, h.1, ih]
  have hsub : ∀ a ∈ axes, a.name ∈ cs.map Hp.name := by
    intro a ha
    have : a.name ∈ sel.map Hp.name := hnames ▸ List.mem_map_of_mem ha
    obtain ⟨hp, h1, h2⟩ := List.mem_map.1 this
    exact List.mem_map.2 ⟨hp, hmem hp h1, h2⟩
  have hg : ∀ ρ : Assignment, (cs.map fun hp => stTerm (ρ hp.name)).sum = ((cs.map Hp.name).map fun m => stTerm (ρ m)).sum := by
    intro ρ; rw [List.map_map]; rfl
  have hkey := fun ρ => average_additive hcs ρ axes (hnames ▸ hdistinct) hsub hlen
  obtain ⟨reduced, hred⟩ : ∃ r, r = order (cs.filter fun hp => sel.all fun s => s.name ≠ hp.name) := ⟨_, rfl⟩
  obtain ⟨off, hoff⟩ : ∃ o, o = (axes.map fun a =>
    (styblinskiTangIntegral a.upper - styblinskiTangIntegral a.lower) / (a.upper - a.lower)).sum := ⟨_, rfl⟩
  have hpd := pd_ok (order := order) hcs hden hne hax'
  rw [← hoff, ← hred] at hpd
  have hsum : ∀ ρ : Assignment, (reduced.map fun hp => stTerm (ρ hp.name)).sum =
      (((cs.map Hp.name).filter fun m => m ∉ axes.map Axis.name).map fun m => stTerm (ρ m)).sum := by
    intro ρ
    have h1 := ((hord (cs.filter fun hp => sel.all fun s => s.name ≠ hp.name)).map fun hp => stTerm (ρ hp.name)).sum_eq
    rw [← hred] at h1
    rw [h1, List.filter_map, List.map_map]
    have : (cs.filter fun hp => sel.all fun s => s.name ≠ hp.name) =
        cs.filter ((fun m => decide (m ∉ axes.map Axis.name)) ∘ Hp.name) := by
      apply List.filter_congr
      intro hp _
      rw [Bool.eq_iff_iff]
      simp only [Function.comp, List.all_eq_true, decide_eq_true_eq, ← hnames, List.mem_map, not_exists, not_and]
    rw [this]; rfl
  have hfin : ∀ ρ, average axes (fun ρ => ((cs.map Hp.name).map fun m => stTerm (ρ m)).sum) ρ =
      (reduced.map fun hp => stTerm (ρ hp.name)).sum + off := by
    intro ρ; rw [hkey, hsum, hoff]
  refine ⟨_, off, fun ρ => ((cs.map Hp.name).map fun m => stTerm (ρ m)).sum, hpd, fun ρ => ?_, fun ρ => ?_, fun ρ => ?_⟩
  · rw [st_value ρ fun _ h => h, hg]
  · dsimp only
    rw [st_value ρ fun _ h => h, Py.ok_bind, Py.pure_eq, hfin]
  · dsimp only
    rw [st_value ρ fun _ h => h, hfin, add_sub_cancel_right]

/-! ### C18 -/

/-- **C18** (part that holds) the returned function's space consists of exactly the non-selected hyperparameters. -/
theorem C18_reduced_space {order : SpaceOrder ℝ} (hord : ∀ l, (order l).Perm l) {cs : ConfigSpace ℝ} (hcs : cs.WF)
    {items : List (SelItem ℝ)} {sel : List (Hp ℝ)} (hden : List.Forall₂ (Denotes cs) items sel) (hne : items ≠ [])
    (hnum : ∀ hp ∈ sel, hp.isNumerical) :
    ∃ f offset, styblinskiTangPdIntegral order cs items = .ok (f, offset) ∧
      (∀ hp, hp ∈ f.cs ↔ hp ∈ cs ∧ ∀ s ∈ sel, s.name ≠ hp.name) ∧
      ((∀ l, l.Sublist cs → order l = l) → f.cs.Sublist cs) := by
  obtain ⟨axes, hax⟩ : ∃ axes, List.Forall₂ (fun (hp : Hp ℝ) (a : Axis) => hp.numerical?.isSome ∧ axisOf hp = some a) sel axes := by
    clear hden
    induction sel with
    | nil => exact ⟨[], .nil⟩
    | cons hp sel ih =>
      obtain ⟨axes, h⟩ := ih fun h hh => hnum h (List.mem_cons_of_mem _ hh)
      have := hnum hp List.mem_cons_self
      obtain ⟨b, hb⟩ := Option.isSome_iff_exists.1 this
      exact ⟨⟨hp.name, b.1, b.2.1⟩ :: axes, .cons ⟨this, by simp [axisOf, hb]⟩ h⟩
  refine ⟨_, _, pd_ok hcs hden hne hax, fun hp => ?_, fun h => ?_⟩
  · rw [(hord _).mem_iff]; simp
  · rw [h _ List.filter_sublist]; exact List.filter_sublist

theorem mapM_error_of {α β : Type} {f : α → Py β} {e : PyErr} {l : List α} {a : α} (ha : a ∈ l) (hf : f a = .error e)
    (hall : ∀ b ∈ l, ∀ e', f b = .error e' → e' = e) : l.mapM f = .error e := by
  induction l with
  | nil => cases ha
  | cons b bs ih =>
    rw [List.mapM_cons]
    cases hb : f b with
    | error e' => rw [Py.error_bind, hall b List.mem_cons_self e' hb]
    | ok v =>
      rcases List.mem_cons.1 ha with rfl | ha
      · rw [hb] at hf; cases hf
      · rw [Py.ok_bind, ih ha fun c hc => hall c (List.mem_cons_of_mem _ hc)]; rfl

/-- **C18** errors: empty selection, unknown name, non-numerical hyperparameter; and the default implementation of other
functions. -/
theorem C18_errors (order : SpaceOrder ℝ) {cs : ConfigSpace ℝ} (hcs : cs.WF) :
    styblinskiTangPdIntegral order cs [] = .error .value ∧
    (∀ names : List String, (∃ n ∈ names, ∀ hp ∈ cs, hp.name ≠ n) →
      styblinskiTangPdIntegral order cs (names.map .name) = .error .key) ∧
    (∀ items sel, List.Forall₂ (Denotes cs) items sel → (∃ hp ∈ sel, hp.isNumerical = false) →
      styblinskiTangPdIntegral order cs items = .error .assertion) ∧
    (∀ hps : List (SelItem ℝ), pdIntegralDefault hps = .error .notImplemented) := by
  refine ⟨rfl, ?_, ?_, fun _ => rfl⟩
  · rintro names ⟨n, hn, hno⟩
    have hl : (names.map (SelItem.name (K := ℝ))).length ≠ 0 := by
      rw [List.length_map]; exact (List.length_pos_of_mem hn).ne'
    have hc : convertHyperparameters (.many (names.map (SelItem.name (K := ℝ)))) cs = .error .key := by
      rw [convertHyperparameters]
      refine mapM_error_of (a := .name n) (List.mem_map_of_mem hn) ?_ ?_
      · obtain ⟨e, he⟩ := ConfigSpace.get_error.2 hno
        have : e = .key := by
          unfold ConfigSpace.get at he
          split at he
          · cases he
          · cases he; rfl
        rw [resolveItem, he, this]
      · intro b hb e' he
        obtain ⟨m, _, rfl⟩ := List.mem_map.1 hb
        rw [resolveItem] at he
        unfold ConfigSpace.get at he
        split at he
        · cases he
        · cases he; rfl
    rw [styblinskiTangPdIntegral, if_neg hl, hc]; rfl
  · rintro items sel hden ⟨hp, hm, hnn⟩
    have hl : items.length ≠ 0 := by
      rw [hden.length_eq]; exact (List.length_pos_of_mem hm).ne'
    have ho : sel.mapM integralOffset = .error .assertion := by
      refine mapM_error_of hm ?_ ?_
      · unfold integralOffset
        unfold Hp.isNumerical at hnn
        cases h : hp.numerical? with
        | none => rfl
        | some b => simp [h] at hnn
      · intro b _ e' he
        unfold integralOffset at he
        split at he
        · cases he; rfl
        · cases he
    rw [styblinskiTangPdIntegral, if_neg hl, forall2_denotes_unique hcs hden, Py.ok_bind, ho]; rfl

/-- one axis `x1 ∈ [0, 1]` -/
def oneAxis : ConfigSpace ℝ := [⟨"x1", .float 0 1 false⟩]

/-- **C18** fails for a repeated hyperparameter: selecting `x1` twice adds its average twice. -/
theorem C18_duplicate_counterexample :
    ∃ f₁ o₁ f₂ o₂, styblinskiTangPdIntegral id oneAxis [.name "x1"] = .ok (f₁, o₁) ∧
      styblinskiTangPdIntegral id oneAxis [.name "x1", .name "x1"] = .ok (f₂, o₂) ∧
      f₁.value (assignConfig f₁.cs fun _ => 0) ≠ f₂.value (assignConfig f₂.cs fun _ => 0) := by
  have hcs : oneAxis.WF := by simp [oneAxis, ConfigSpace.WF]
  have hd : Denotes oneAxis (.name "x1") ⟨"x1", .float 0 1 false⟩ := by simp [Denotes, oneAxis]
  have hx : (⟨"x1", .float 0 1 false⟩ : Hp ℝ).numerical?.isSome ∧
      axisOf ⟨"x1", .float 0 1 false⟩ = some ⟨"x1", 0, 1⟩ := by simp [Hp.numerical?, axisOf]
  have h1 := pd_ok (order := id) hcs (.cons hd .nil) (by simp) (.cons hx .nil)
  have h2 := pd_ok (order := id) hcs (.cons hd (.cons hd .nil)) (by simp) (.cons hx (.cons hx .nil))
  refine ⟨_, _, _, _, h1, h2, ?_⟩
  dsimp only
  rw [st_value _ fun _ h => h, st_value _ fun _ h => h]
  simp only [Py.ok_bind, Py.pure_eq]
  intro h
  have h := Except.ok.inj h
  simp [oneAxis, styblinskiTangIntegral] at h
  norm_num at h

/-- **C18**, partial: selecting any list of hyperparameters gives the same space as the list without
repetitions. Missing (false, see `C18_duplicate_counterexample`): the same value when a name is
repeated. -/
theorem C18_duplicates_partial {order : SpaceOrder ℝ} {cs : ConfigSpace ℝ} (hcs : cs.WF)
    {sel : List (Hp ℝ)} (hne : sel ≠ []) (hnum : ∀ hp ∈ sel, hp.isNumerical) :
    ∃ f o f' o', styblinskiTangPdIntegral order cs (sel.map .hp) = .ok (f, o) ∧
      styblinskiTangPdIntegral order cs ((sel.dedup).map .hp) = .ok (f', o') ∧ f.cs = f'.cs := by
  have hden : ∀ l : List (Hp ℝ), List.Forall₂ (Denotes cs) (l.map .hp) l := by
    intro l
    induction l with
    | nil => exact .nil
    | cons a as ih => exact .cons rfl ih
  have haxes : ∀ l : List (Hp ℝ), (∀ hp ∈ l, hp.isNumerical) →
      ∃ axes, List.Forall₂ (fun (hp : Hp ℝ) (a : Axis) => hp.numerical?.isSome ∧ axisOf hp = some a) l axes := by
    intro l hl
    induction l with
    | nil => exact ⟨[], .nil⟩
    | cons hp sel ih =>
      obtain ⟨axes, h⟩ := ih fun h hh => hl h (List.mem_cons_of_mem _ hh)
      have := hl hp List.mem_cons_self
      obtain ⟨b, hb⟩ := Option.isSome_iff_exists.1 this
      exact ⟨⟨hp.name, b.1, b.2.1⟩ :: axes, .cons ⟨this, by simp [axisOf, hb]⟩ h⟩
  obtain ⟨a1, h1⟩ := haxes sel hnum
  obtain ⟨a2, h2⟩ := haxes sel.dedup fun hp h => hnum hp (List.mem_dedup.1 h)
  have hne2 : sel.dedup ≠ [] := by
    obtain ⟨x, hx⟩ := List.exists_mem_of_ne_nil sel hne
    exact List.ne_nil_of_mem (List.mem_dedup.2 hx)
  refine ⟨_, _, _, _, pd_ok hcs (hden _) (by simpa using hne) h1, pd_ok hcs (hden _) (by simpa using hne2) h2, ?_⟩
  dsimp only
  congr 1
  apply List.filter_congr
  intro hp _
  rw [Bool.eq_iff_iff]
  simp [List.all_eq_true]

/-- **C18**, what a repetition does: for every non-empty selection of numerical hyperparameters, repeated or not, the offset
is the sum of the averages of `(t⁴ - 16t² + 5t)/2` over the axes of the selection, one summand for each occurrence, and the
returned function is StyblinskiTang on the remaining coordinates plus that sum. -/
theorem C18_occurrences {order : SpaceOrder ℝ} (hord : ∀ l, (order l).Perm l) {cs : ConfigSpace ℝ} (hcs : cs.WF)
    {items : List (SelItem ℝ)} {sel : List (Hp ℝ)} (hden : List.Forall₂ (Denotes cs) items sel) (hne : items ≠ [])
    {axes : List Axis} (hax : List.Forall₂ (fun (hp : Hp ℝ) (a : Axis) => hp.name = a.name ∧
      ((∃ log, hp.kind = .float a.lower a.upper log) ∨ ∃ log, hp.kind = .integer a.lower a.upper log)) sel axes) :
    ∃ (f : BlackboxFn ℝ) (offset : ℝ), styblinskiTangPdIntegral order cs items = .ok (f, offset) ∧
      offset = (axes.map fun a => (∫ t in a.lower..a.upper, (t ^ 4 - 16 * t ^ 2 + 5 * t) / 2) / (a.upper - a.lower)).sum ∧
      ∀ ρ : Assignment, f.value (assignConfig f.cs ρ) = .ok
        (((cs.filter fun hp => hp.name ∉ axes.map Axis.name).map fun hp =>
          ((ρ hp.name) ^ 4 - 16 * (ρ hp.name) ^ 2 + 5 * ρ hp.name) / 2).sum + offset) := by
  have hax' : List.Forall₂ (fun (hp : Hp ℝ) a => hp.numerical?.isSome ∧ axisOf hp = some a) sel axes := by
    refine hax.imp fun hp a h => ?_
    obtain ⟨h1, ⟨lg, h2⟩ | ⟨lg, h2⟩⟩ := h <;> simp [axisOf, Hp.numerical?, h1, h2]
  have hnames : sel.map Hp.name = axes.map Axis.name := by
    clear hax' hden
    induction hax with
    | nil => rfl
    | cons h _ ih => rw [List.map_cons, List.map_cons, h.1, ih]
  have hterm : ∀ t : ℝ, (t ^ 4 - 16 * t ^ 2 + 5 * t) / 2 = stTerm t := fun _ => rfl
  refine ⟨_, _, pd_ok (order := order) hcs hden hne hax', ?_, fun ρ => ?_⟩
  · congr 1
    refine List.map_congr_left fun a _ => ?_
    have := stTerm_integral a.lower a.upper 0
    simp only [add_zero, zero_mul] at this
    simp only [hterm, this]
  · dsimp only
    rw [st_value ρ fun _ h => h, Py.ok_bind, Py.pure_eq]
    congr 2
    have h1 := ((hord (cs.filter fun hp => sel.all fun s => s.name ≠ hp.name)).map fun hp => stTerm (ρ hp.name)).sum_eq
    rw [h1]
    have : (cs.filter fun hp => sel.all fun s => s.name ≠ hp.name) =
        cs.filter fun hp => decide (hp.name ∉ axes.map Axis.name) := by
      apply List.filter_congr
      intro hp _
      rw [Bool.eq_iff_iff]
      simp only [List.all_eq_true, decide_eq_true_eq, ← hnames, List.mem_map, not_exists, not_and]
    rw [this]
    simp only [hterm]

/-- the hypotheses of C17 are satisfiable: `x1` of a two-dimensional space, given by name -/
example : ∃ (f : BlackboxFn ℝ) (o : ℝ) (g : Assignment → ℝ), styblinskiTangPdIntegral id [⟨"x1", .float (-5) 5 false⟩, ⟨"x2", .float 0 2 false⟩] [.name "x1"] = .ok (f, o) ∧
    (∀ ρ, styblinskiTangValue [⟨"x1", .float (-5) 5 false⟩, ⟨"x2", .float 0 2 false⟩]
      (assignConfig [⟨"x1", .float (-5) 5 false⟩, ⟨"x2", .float 0 2 false⟩] ρ) = .ok (g ρ)) ∧
    ∀ ρ, f.value (assignConfig f.cs ρ) = .ok ((∫ t in (-5 : ℝ)..5, g (ρ.update "x1" t)) / (5 - -5)) := by
  obtain ⟨f, o, g, h1, h2, h3, _⟩ := C17_pd_integral (order := id) (fun _ => .refl _)
    (cs := [⟨"x1", .float (-5) 5 false⟩, ⟨"x2", .float 0 2 false⟩]) (by simp [ConfigSpace.WF])
    (items := [.name "x1"]) (sel := [⟨"x1", .float (-5) 5 false⟩]) (.cons ⟨by simp, rfl⟩ .nil) (by simp) (by simp) (by simp)
    (axes := [⟨"x1", -5, 5⟩]) (.cons ⟨rfl, .inl ⟨_, rfl⟩⟩ .nil) (by norm_num)
  exact ⟨f, o, g, h1, h2, h3⟩

end PyPDP
