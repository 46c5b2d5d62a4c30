/-
C04: `unscale` on arrays.
-/
import Verif.Props.Scaling
import Verif.Spec.Unscale

namespace PyPDP
open Spec

section loop
variable {ι α K : Type _}

theorem zipWithPy_ok {β : Type _} {R : ι → β → Prop} {R' : ι → α → Prop} {f : ι → β → Py α}
    (hf : ∀ a b, R a b → ∃ c, f a b = .ok c ∧ R' a c) :
    ∀ {x : List ι} {y : List β}, List.Forall₂ R x y → ∃ z, zipWithPy f x y = .ok z ∧ List.Forall₂ R' x z := by
  intro x y h
  induction h with
  | nil => exact ⟨[], rfl, .nil⟩
  | cons hab _ ih =>
    obtain ⟨c, hc, hr⟩ := hf _ _ hab
    obtain ⟨cs, hcs, hrs⟩ := ih
    exact ⟨c :: cs, by simp [zipWithPy, hc, hcs], .cons hr hrs⟩

/-- column `i` of an array can be rewritten row by row. -/
theorem updArr_ok {R : List ι → List α → Prop} {R' : List ι → List α → Prop} {f : Bool → ι → Py α} {i : Nat}
    {x : NdArr ι} {c : NdArr α}
    (hf : ∀ b a y, (b = true ↔ ∃ m, x = .d2 m) → R a y → ∃ z, updRow i (f b) a y = .ok z ∧ R' a z)
    (h : ArrRel R x c) : ∃ z, updArr i f x c = .ok z ∧ ArrRel R' x z := by
  cases x with
  | d1 x =>
    cases c <;> simp only [ArrRel] at h
    obtain ⟨z, hz, hr⟩ := hf false _ _ (by simp) h
    exact ⟨.d1 z, by simp [updArr, hz], hr⟩
  | d2 x =>
    cases c <;> simp only [ArrRel] at h
    obtain ⟨z, hz, hr⟩ := zipWithPy_ok (hf true · · (by simp)) h
    exact ⟨.d2 z, by simp [updArr, hz], hr⟩
  | d3 x =>
    cases c <;> simp only [ArrRel] at h
    obtain ⟨z, hz, hr⟩ := zipWithPy_ok (R := List.Forall₂ R) (R' := List.Forall₂ R') (fun a b hab => zipWithPy_ok (hf false · · (by simp)) hab) h
    exact ⟨.d3 z, by simp [updArr, hz], hr⟩
  | dn => cases c <;> simp [ArrRel] at h

theorem arrRel_mono {P Q : List ι → List α → Prop} (h : ∀ a b, P a b → Q a b) {x : NdArr ι} {y : NdArr α} :
    ArrRel P x y → ArrRel Q x y := by
  cases x <;> cases y <;> simp only [ArrRel, imp_self]
  · exact h _ _
  · exact fun hh => hh.imp h
  · exact fun hh => hh.imp (fun _ _ h2 => h2.imp h)

theorem arrRel_map {P : List ι → List α → Prop} {A : List ι → Prop} (g : ι → α)
    (h : ∀ r, A r → P r (r.map g)) {x : NdArr ι} : AllRows A x → ArrRel P x (x.map g) := by
  cases x <;> simp only [AllRows, NdArr.map, ArrRel]
  · exact h _
  · intro hx
    rw [List.forall₂_map_right_iff]
    exact List.forall₂_same.2 fun r hr => h r (hx r hr)
  · intro hx
    rw [List.forall₂_map_right_iff]
    refine List.forall₂_same.2 fun m hm => ?_
    rw [List.forall₂_map_right_iff]
    exact List.forall₂_same.2 fun r hr => h r (hx m hm r hr)
  · exact id

/-- loop invariant: the first `i` columns are translated, the row has the right length. -/
def RowDone (R : Hp K → ι → α → Prop) (A : List ι → Prop) (cs : ConfigSpace K) (i : Nat) (row : List ι) (out : List α) :
    Prop :=
  A row ∧ out.length = row.length ∧
  ∀ (j : Nat) hp e, j < i → cs[j]? = some hp → row[j]? = some e → ∃ w, out[j]? = some w ∧ R hp e w

variable [Field K] [LinearOrder K] [Transc K]

theorem unscaleLoop_ok {dt : DType ι K} {x : NdArr ι} {cs : ConfigSpace K} {R : Hp K → ι → Val K → Prop}
    {A : List ι → Prop} (hw : ∀ r, A r → r.length = cs.length)
    (hk : ∀ hp ∈ cs, (∃ l u g, hp.kind = .float l u g ∨ hp.kind = .integer l u g) ∨ (∃ c, hp.kind = .categorical c))
    (hstep : ∀ (i : Nat) (obj b : Bool) hp (r : List ι) e, (b = true ↔ ∃ m, x = .d2 m) → cs[i]? = some hp → A r → r[i]? = some e →
      ∃ w, unscaleEntry dt b hp obj e = .ok w ∧ R hp e w) :
    ∀ (hps : List (Hp K)) (i : Nat) (obj : Bool) (cur : NdArr (Val K)), cs.drop i = hps →
      ArrRel (RowDone R A cs i) x cur →
      ∃ z, unscaleLoop dt x i obj hps cur = .ok z ∧ ArrRel (RowDone R A cs cs.length) x z := by
  intro hps
  induction hps with
  | nil =>
    intro i obj cur hd hc
    refine ⟨cur, rfl, arrRel_mono (fun a b h => ⟨h.1, h.2.1, fun j hp e hj => h.2.2 j hp e ?_⟩) hc⟩
    have : cs.length ≤ i := by simpa using hd
    omega
  | cons hp hps ih =>
    intro i obj cur hd hc
    have hi : cs[i]? = some hp := by
      have := congrArg (·[0]?) hd
      simpa using this
    have hd' : cs.drop (i + 1) = hps := by
      rw [← List.drop_drop, hd]; rfl
    have hmem : hp ∈ cs := List.mem_of_getElem? hi
    have upd : ∀ obj', ∃ z, updArr i (fun b => unscaleEntry dt b hp obj') x cur = .ok z ∧
        ArrRel (RowDone R A cs (i + 1)) x z := by
      intro obj'
      refine updArr_ok (R := RowDone R A cs i) ?_ hc
      intro b row y hb ⟨hA, hl, hdone⟩
      have hlen : i < row.length := by
        rw [hw row hA]; exact (List.getElem?_eq_some_iff.1 hi).1
      obtain ⟨w, hw1, hw2⟩ := hstep i obj' b hp row row[i] hb hi hA (List.getElem?_eq_getElem hlen)
      refine ⟨y.set i w, by simp [updRow, List.getElem?_eq_getElem hlen, hw1], hA, by simpa using hl, ?_⟩
      intro j hp' e hj hjs hje
      rcases Nat.lt_succ_iff_lt_or_eq.1 hj with hlt | rfl
      · obtain ⟨w', h1, h2⟩ := hdone j hp' e hlt hjs hje
        exact ⟨w', by rw [List.getElem?_set_ne (by omega)]; exact h1, h2⟩
      · rw [hi] at hjs; cases hjs
        rw [List.getElem?_eq_getElem hlen] at hje; cases hje
        exact ⟨w, by rw [List.getElem?_set_self (by omega)], hw2⟩
    rcases hk hp hmem with ⟨l, u, g, hf | hf⟩ | ⟨c, hf⟩
    · obtain ⟨z, h1, h2⟩ := upd obj
      obtain ⟨z', h3, h4⟩ := ih (i + 1) obj z hd' h2
      exact ⟨z', by simp [unscaleLoop, hf, h1, h3], h4⟩
    · obtain ⟨z, h1, h2⟩ := upd obj
      obtain ⟨z', h3, h4⟩ := ih (i + 1) obj z hd' h2
      exact ⟨z', by simp [unscaleLoop, hf, h1, h3], h4⟩
    · obtain ⟨z, h1, h2⟩ := upd true
      obtain ⟨z', h3, h4⟩ := ih (i + 1) true z hd' h2
      exact ⟨z', by simp [unscaleLoop, hf, h1, h3], h4⟩

theorem unscale_ok {dt : DType ι K} {x : NdArr ι} {cs : ConfigSpace K} {R : Hp K → ι → Val K → Prop}
    {A : List ι → Prop} (hw : ∀ r, A r → r.length = cs.length) (hx : AllRows A x)
    (hk : ∀ hp ∈ cs, (∃ l u g, hp.kind = .float l u g ∨ hp.kind = .integer l u g) ∨ (∃ c, hp.kind = .categorical c))
    (hstep : ∀ (i : Nat) (obj b : Bool) hp (r : List ι) e, (b = true ↔ ∃ m, x = .d2 m) → cs[i]? = some hp → A r → r[i]? = some e →
      ∃ w, unscaleEntry dt b hp obj e = .ok w ∧ R hp e w) :
    ∃ y, unscale dt x cs = .ok y ∧ ArrRel (RowOf R cs) x y := by
  obtain ⟨z, h1, h2⟩ := unscaleLoop_ok hw hk hstep cs 0 false (x.map fun e => .num (dt.toNum e)) rfl
    (arrRel_map _ (fun r hr => ⟨hr, by simp, by simp⟩) hx)
  refine ⟨z, h1, arrRel_mono (fun a b h => ⟨h.2.1, fun i hp e hi he => h.2.2 i hp e ?_ hi he⟩) h2⟩
  exact (List.getElem?_eq_some_iff.1 hi).1

end loop

/-- Every hyperparameter of the space is numerical with bounds that ConfigSpace accepts. -/
def AllDeclared (cs : ConfigSpace ℝ) : Prop :=
  ∀ hp ∈ cs, ∃ l u g, Declares cs hp.name l u g

theorem allDeclared_kind {cs : ConfigSpace ℝ} (h : AllDeclared cs) {hp : Hp ℝ} (hm : hp ∈ cs) :
    ∃ l u g, Declares cs hp.name l u g ∧ (hp.kind = .float l u g ∨ hp.kind = .integer l u g) := by
  obtain ⟨l, u, g, hd⟩ := h hp hm
  obtain ⟨hp', hm', hn, hk⟩ := hd.mem
  have h1 := ConfigSpace.get_of_mem hd.wf hm
  have h2 := ConfigSpace.get_of_mem hd.wf hm'
  rw [hn, h1] at h2
  cases h2
  exact ⟨l, u, g, hd, hk⟩

/-- **C04** on a float array of one, two or three dimensions whose rows match the space and whose entries lie in
`[0,1]`, the result has the same shape and column `i` holds `unscale_float` of column `i`. -/
theorem C04_unscale_float {cs : ConfigSpace ℝ} (hcs : AllDeclared cs) {x : NdArr ℝ}
    (hx : AllRows (fun r => r.length = cs.length ∧ ∀ e ∈ r, 0 ≤ e ∧ e ≤ 1) x) :
    ∃ y, unscale DType.float x cs = .ok y ∧
      ArrRel (RowOf (fun hp e w => ∃ v, unscaleFloat e cs hp.name = .ok v ∧ w = .num v) cs) x y := by
  refine unscale_ok (fun r hr => hr.1) hx (fun hp hm => ?_) ?_
  · obtain ⟨l, u, g, _, hk⟩ := allDeclared_kind hcs hm
    exact Or.inl ⟨l, u, g, hk⟩
  · intro i obj b hp r e _ hi hr he
    obtain ⟨l, u, g, hd, hk⟩ := allDeclared_kind hcs (List.mem_of_getElem? hi)
    obtain ⟨h0, h1⟩ := hr.2 e (List.mem_of_getElem? he)
    have hm := (interpolate_strictMono hd).monotone
    have hlo : l ≤ interpolate l u g e := by have := hm h0; rwa [interpolate_zero hd] at this
    have hup : interpolate l u g e ≤ u := by have := hm h1; rwa [interpolate_one hd] at this
    have e1 : unscaleNum l u g e = interpolate l u g e := by
      unfold unscaleNum
      cases g
      · simp [interpolate]; ring
      · have hl := hd.pos rfl
        have := exp_eq_interpolate hl (hl.trans hd.lt) e
        simp only [if_true]
        show min u (max l (Real.exp (e * (Real.log u - Real.log l) + Real.log l))) = _
        rw [this, max_eq_right hlo, min_eq_right hup]
    refine ⟨.num (interpolate l u g e), ?_, _, C01_unscale_is_interpolation hd h0 h1, rfl⟩
    rcases hk with hk | hk <;> simp [unscaleEntry, hk, DType.float, e1]

/-- **C04**, partial: on a two-dimensional integer array over categorical hyperparameters every code is replaced by the choice
it stands for. Missing: arrays with one or three dimensions, see `C04_categorical_counterexample`. -/
theorem C04_unscale_categorical_partial {cs : ConfigSpace ℝ} (hcs : ∀ hp ∈ cs, ∃ c, hp.kind = .categorical c)
    {x : List (List Int)} (hx : ∀ r ∈ x, r.length = cs.length ∧
      ∀ (i : Nat) hp c k, cs[i]? = some hp → hp.kind = .categorical c → r[i]? = some k → 0 ≤ k ∧ k < c.length) :
    ∃ y, unscale DType.int (.d2 x) cs = .ok (.d2 y) ∧
      List.Forall₂ (RowOf (fun hp k w => ∃ c s, hp.kind = .categorical c ∧ c[k.toNat]? = some s ∧ w = .str s) cs) x y := by
  have := unscale_ok (dt := DType.int) (x := .d2 x) (cs := cs)
    (R := fun hp k w => ∃ c s, hp.kind = .categorical c ∧ c[k.toNat]? = some s ∧ w = .str s)
    (A := fun r => r.length = cs.length ∧
      ∀ (i : Nat) hp c k, cs[i]? = some hp → hp.kind = .categorical c → r[i]? = some k → 0 ≤ k ∧ k < c.length)
    (fun r hr => hr.1) hx (fun hp hm => Or.inr (hcs hp hm)) ?_
  · obtain ⟨y, h1, h2⟩ := this
    cases y <;> simp only [ArrRel] at h2
    exact ⟨_, h1, h2⟩
  · intro i obj b hp r k hb hi hr hk
    obtain ⟨c, hc⟩ := hcs hp (List.mem_of_getElem? hi)
    obtain ⟨h0, h1⟩ := hr.2 i hp c k hi hc hk
    have hlt : k.toNat < c.length := by omega
    have hbt : b = true := hb.2 ⟨x, rfl⟩
    refine ⟨.str c[k.toNat], ?_, c, _, hc, List.getElem?_eq_getElem hlt, rfl⟩
    have : ¬ k < 0 := by omega
    simp [unscaleEntry, hc, hbt, DType.int, choiceAt, this, pyGet, List.getElem?_eq_getElem hlt]

/-- **C04** constants and ordinals are rejected with a TypeError, wherever they stand behind numerical axes. -/
theorem C04_unsupported_kind {cs : ConfigSpace ℝ} {pre post : List (Hp ℝ)} {hp : Hp ℝ} (hcs : cs = pre ++ hp :: post)
    (hpre : ∀ q ∈ pre, ∃ l u g, q.kind = .float l u g ∨ q.kind = .integer l u g)
    (hk : (∃ v, hp.kind = .constant v) ∨ (∃ s, hp.kind = .ordinal s))
    {x : NdArr ℝ} (hx : AllRows (fun r => r.length = cs.length) x) :
    unscale DType.float x cs = .error .type := by
  have gen : ∀ (pre' : List (Hp ℝ)) (i : Nat) (cur : NdArr (Val ℝ)), pre.drop i = pre' →
      ArrRel (fun r c => r.length = cs.length ∧ c.length = cs.length) x cur →
      unscaleLoop DType.float x i false (pre' ++ hp :: post) cur = .error .type := by
    intro pre'
    induction pre' with
    | nil =>
      intro i cur _ _
      rcases hk with ⟨v, hv⟩ | ⟨v, hv⟩ <;> simp [unscaleLoop, hv]
    | cons q qs ih =>
      intro i cur hd hc
      have hq : q ∈ pre := List.mem_of_mem_drop (hd ▸ List.mem_cons_self)
      have hi : i < cs.length := by
        have : i < pre.length := by
          by_contra hh
          rw [List.drop_eq_nil_of_le (by omega)] at hd
          cases hd
        rw [hcs]; simp; omega
      obtain ⟨l, u, g, hg⟩ := hpre q hq
      have hupd : ∃ z, updArr i (fun b => unscaleEntry DType.float b q false) x cur = .ok z ∧
          ArrRel (fun r c => r.length = cs.length ∧ c.length = cs.length) x z := by
        refine updArr_ok (R := fun r c => r.length = cs.length ∧ c.length = cs.length) ?_ hc
        intro b a y _ ⟨h1, h2⟩
        have hlen : i < a.length := by omega
        rcases hg with hg | hg <;>
        exact ⟨y.set i (.num (unscaleNum l u g a[i])),
          by simp [updRow, List.getElem?_eq_getElem hlen, unscaleEntry, hg, DType.float], h1, by simpa using h2⟩
      obtain ⟨z, h1, h2⟩ := hupd
      have hd' : pre.drop (i + 1) = qs := by rw [← List.drop_drop, hd]; rfl
      rcases hg with hg | hg <;> simp [unscaleLoop, hg, h1, ih (i + 1) z hd' h2]
  have h0 := gen pre 0 (x.map fun e => .num e) rfl (arrRel_map _ (fun r hr => ⟨hr, by simpa using hr⟩) hx)
  rw [← hcs] at h0
  exact h0

section categorical
variable {ι : Type}

theorem zipWithPy_error {α β γ : Type} {f : α → β → Py γ} {R : α → β → Prop} {Q : α → Prop}
    (hok : ∀ a b, R a b → (∃ c, f a b = .ok c) ∨ f a b = .error .type) (hbad : ∀ a b, R a b → Q a → f a b = .error .type) :
    ∀ {x : List α} {y : List β}, List.Forall₂ R x y → (∃ a ∈ x, Q a) → zipWithPy f x y = .error .type := by
  intro x y h
  induction h with
  | nil => rintro ⟨a, ha, -⟩; cases ha
  | @cons a b as bs hab _ ih =>
    rintro ⟨a', ha', hq⟩
    rcases hok a b hab with ⟨c, hc⟩ | hc
    · rcases List.mem_cons.1 ha' with rfl | hm
      · rw [hbad _ _ hab hq] at hc; cases hc
      · simp [zipWithPy, hc, ih ⟨a', hm, hq⟩]
    · simp [zipWithPy, hc]

/-- a column that cannot be rewritten -/
theorem updArr_error {α : Type} {R : List ι → List α → Prop} {f : Bool → ι → Py α} {i : Nat} {x : NdArr ι} {c : NdArr α}
    (hf : ∀ b a y, (b = true ↔ ∃ m, x = .d2 m) → R a y → updRow i (f b) a y = .error .type) (hrow : HasRow x) (h : ArrRel R x c) :
    updArr i f x c = .error .type := by
  cases x with
  | d1 x =>
    cases c <;> simp only [ArrRel] at h
    simp [updArr, hf false _ _ (by simp) h]
  | d2 x =>
    cases c <;> simp only [ArrRel] at h
    obtain ⟨r, hr⟩ := List.exists_mem_of_ne_nil _ hrow
    have := zipWithPy_error (f := updRow i (f true)) (Q := fun _ => True) (fun a b hab => .inr (hf true a b (by simp) hab))
      (fun a b hab _ => hf true a b (by simp) hab) h ⟨r, hr, trivial⟩
    simp [updArr, this]
  | d3 x =>
    cases c <;> simp only [ArrRel] at h
    obtain ⟨m, hm, hne⟩ := hrow
    have hin : ∀ a b, List.Forall₂ R a b → a ≠ [] → zipWithPy (updRow i (f false)) a b = .error .type := fun a b hab hne => by
      obtain ⟨r, hr⟩ := List.exists_mem_of_ne_nil _ hne
      exact zipWithPy_error (Q := fun _ => True) (fun a b hab => .inr (hf false a b (by simp) hab))
        (fun a b hab _ => hf false a b (by simp) hab) hab ⟨r, hr, trivial⟩
    have := zipWithPy_error (f := zipWithPy (updRow i (f false))) (R := List.Forall₂ R) (Q := fun m => m ≠ []) (fun a b hab => by
      by_cases ha : a = []
      · subst ha; cases hab; exact .inl ⟨[], rfl⟩
      · exact .inr (hin a b hab ha)) hin h ⟨m, hm, hne⟩
    simp [updArr, this]
  | dn => cases c <;> simp [ArrRel] at h

/-- a categorical column behind numerical ones, none of whose entries has a choice -/
theorem unscale_categorical_error {dt : DType ι ℝ} {cs : ConfigSpace ℝ} {pre post : List (Hp ℝ)} {hp : Hp ℝ} (hcs : cs = pre ++ hp :: post)
    (hpre : ∀ q ∈ pre, ∃ l u g, q.kind = .float l u g ∨ q.kind = .integer l u g) {c : List String} (hk : hp.kind = .categorical c)
    {x : NdArr ι} (hx : AllRows (fun r => r.length = cs.length) x) (hrow : HasRow x)
    (hbad : ∀ e b, (b = true ↔ ∃ m, x = .d2 m) → unscaleEntry dt b hp true e = .error .type) : unscale dt x cs = .error .type := by
  have gen : ∀ (pre' : List (Hp ℝ)) (i : Nat) (cur : NdArr (Val ℝ)), pre.drop i = pre' → i + pre'.length = pre.length →
      ArrRel (fun r c => r.length = cs.length ∧ c.length = cs.length) x cur →
      unscaleLoop dt x i false (pre' ++ hp :: post) cur = .error .type := by
    intro pre'
    induction pre' with
    | nil =>
      intro i cur _ hi hc
      have hi : i < cs.length := by rw [hcs]; simp at hi ⊢; omega
      have := updArr_error (f := fun b => unscaleEntry dt b hp true) (i := i) (fun b a y hb hay => by
        simp [updRow, List.getElem?_eq_getElem (hay.1 ▸ hi), hbad _ b hb]) hrow hc
      simp [unscaleLoop, hk, this]
    | cons q qs ih =>
      intro i cur hd hi' hc
      have hq : q ∈ pre := List.mem_of_mem_drop (hd ▸ List.mem_cons_self)
      have hi : i < cs.length := by rw [hcs]; simp at hi' ⊢; omega
      obtain ⟨l, u, g, hg⟩ := hpre q hq
      have hupd : ∃ z, updArr i (fun b => unscaleEntry dt b q false) x cur = .ok z ∧
          ArrRel (fun r c => r.length = cs.length ∧ c.length = cs.length) x z := by
        refine updArr_ok (R := fun r c => r.length = cs.length ∧ c.length = cs.length) ?_ hc
        intro b a y _ ⟨h1, h2⟩
        have hlen : i < a.length := by omega
        rcases hg with hg | hg <;>
        exact ⟨y.set i (.num (dt.store false (unscaleNum l u g (dt.toNum a[i])))),
          by simp [updRow, List.getElem?_eq_getElem hlen, unscaleEntry, hg], h1, by simpa using h2⟩
      obtain ⟨z, h1, h2⟩ := hupd
      have hd' : pre.drop (i + 1) = qs := by rw [← List.drop_drop, hd]; rfl
      rcases hg with hg | hg <;> simp [unscaleLoop, hg, h1, ih (i + 1) z hd' (by simp at hi'; omega) h2]
  have h0 := gen pre 0 (x.map fun e => .num (dt.toNum e)) rfl (by simp) (arrRel_map _ (fun r hr => ⟨hr, by simpa using hr⟩) hx)
  rw [← hcs] at h0
  exact h0

/-- **C04** a categorical column of a float array is a TypeError, wherever it stands behind numerical columns, for one, two and three
dimensions. -/
theorem C04_categorical_float {cs : ConfigSpace ℝ} {pre post : List (Hp ℝ)} {hp : Hp ℝ} (hcs : cs = pre ++ hp :: post)
    (hpre : ∀ q ∈ pre, ∃ l u g, q.kind = .float l u g ∨ q.kind = .integer l u g) {c : List String} (hk : hp.kind = .categorical c)
    {x : NdArr ℝ} (hx : AllRows (fun r => r.length = cs.length) x) (hrow : HasRow x) : unscale DType.float x cs = .error .type :=
  unscale_categorical_error hcs hpre hk hx hrow fun e b _ => by cases b <;> simp [unscaleEntry, hk, DType.float]

/-- **C04** is false of integer arrays with one or three dimensions: no code of a categorical hyperparameter is translated, `unscale` raises a
TypeError, whatever the codes are. -/
theorem C04_categorical_counterexample {cs : ConfigSpace ℝ} (hne : cs ≠ []) (hcs : ∀ hp ∈ cs, ∃ c, hp.kind = .categorical c) {x : NdArr Int}
    (hx : AllRows (fun r => r.length = cs.length) x) (hrow : HasRow x) (hd : ∀ m, x ≠ .d2 m) : unscale DType.int x cs = .error .type := by
  obtain ⟨hp, post, rfl⟩ := List.exists_cons_of_ne_nil hne
  obtain ⟨c, hc⟩ := hcs hp List.mem_cons_self
  refine unscale_categorical_error (pre := []) rfl (by simp) hc hx hrow fun e b hb => ?_
  have : b = false := by
    cases b
    · rfl
    · obtain ⟨m, hm⟩ := hb.1 rfl; exact absurd hm (hd m)
  simp [unscaleEntry, hc, this]

end categorical

/-- non-vacuity of C04: a linear and a log axis, a 2-d array. -/
example : AllDeclared [⟨"x1", .float (-5) 5 false⟩, ⟨"lr", .float 1 10 true⟩] ∧
    AllRows (fun r => r.length = 2 ∧ ∀ e ∈ r, (0:ℝ) ≤ e ∧ e ≤ 1) (.d2 [[0, 1], [1/2, 1/3]]) := by
  constructor
  · intro hp hm
    simp only [List.mem_cons, List.not_mem_nil, or_false] at hm
    rcases hm with rfl | rfl
    · exact ⟨-5, 5, false, by decide, ⟨_, List.mem_cons_self, rfl, Or.inl rfl⟩, by norm_num, by simp⟩
    · exact ⟨1, 10, true, by decide, ⟨_, List.mem_cons_of_mem _ List.mem_cons_self, rfl, Or.inl rfl⟩, by norm_num, by norm_num⟩
  · simp [AllRows]; norm_num

/-- a choice behind a number: the code of the choice as a float has no translation; a single row of codes has none either -/
example : unscale DType.float (.d3 [[], [[(1/2 : ℝ), 1]]]) [⟨"x1", .float (-5) 5 false⟩, ⟨"c", .categorical ["a", "b"]⟩] = .error .type ∧
    unscale DType.int (.d1 [(1 : Int)]) [(⟨"c", .categorical ["a", "b"]⟩ : Hp ℝ)] = .error .type ∧
    unscale DType.int (.d2 [[(1 : Int)]]) [(⟨"c", .categorical ["a", "b"]⟩ : Hp ℝ)] = .ok (.d2 [[.str "b"]]) := by
  refine ⟨C04_categorical_float (pre := [⟨"x1", .float (-5) 5 false⟩]) (post := []) rfl (by simp) rfl (by simp [AllRows]) (by simp [HasRow]),
    C04_categorical_counterexample (by simp) (by simp) (by simp [AllRows]) (by simp [HasRow]) (by simp), ?_⟩
  simp [unscale, unscaleLoop, updArr, NdArr.map, zipWithPy, updRow, unscaleEntry, DType.int, choiceAt, pyGet]

/-! ### C76: mixed numerical / categorical spaces -/

/-- **C76** is false of the code: in an integer array (the only dtype whose categorical columns can be translated) a
numerical column standing before the categorical one is truncated to an integer, so code 0 of an axis `[1/2, 3/2]` is
reported as 0, outside the axis. -/
theorem C76_mixed_space_counterexample :
    ∃ (cs : ConfigSpace ℝ) (y : Val ℝ), Declares cs "x" (1/2) (3/2) false ∧
      unscale DType.int (.d2 [[0, 1]]) cs = .ok (.d2 [[y, .str "b"]]) ∧
      unscaleFloat 0 cs "x" = .ok (1/2) ∧ y = .num 0 := by
  refine ⟨[⟨"x", .float (1/2) (3/2) false⟩, ⟨"c", .categorical ["a", "b"]⟩], .num 0, ?_, ?_, ?_, rfl⟩
  · exact ⟨by decide, ⟨_, List.mem_cons_self, rfl, Or.inl rfl⟩, by norm_num, by simp⟩
  · have : ⌊(2:ℝ)⁻¹⌋ = 0 := by norm_num
    simp [unscale, unscaleLoop, updArr, NdArr.map, zipWithPy, updRow, unscaleEntry, DType.int, unscaleNum, choiceAt, pyGet, this]
  · have : Declares [⟨"x", .float (1/2) (3/2) false⟩, ⟨"c", .categorical ["a", "b"]⟩] "x" (1/2) (3/2) false :=
      ⟨by decide, ⟨_, List.mem_cons_self, rfl, Or.inl rfl⟩, by norm_num, by simp⟩
    rw [C01_unscale_is_interpolation this le_rfl zero_le_one, interpolate_zero this]

/-- the first categorical hyperparameter of a space -/
theorem first_choice : ∀ l : List (Hp ℝ), (∀ hp ∈ l, (∃ l u g, hp.kind = .float l u g ∨ hp.kind = .integer l u g) ∨ ∃ c, hp.kind = .categorical c) →
    (∃ hp ∈ l, ∃ c, hp.kind = .categorical c) → ∃ pre hp post c, l = pre ++ hp :: post ∧
      (∀ q ∈ pre, ∃ l u g, q.kind = .float l u g ∨ q.kind = .integer l u g) ∧ hp.kind = .categorical c := by
  intro l
  induction l with
  | nil => rintro _ ⟨hp, hm, -⟩; cases hm
  | cons q qs ih =>
    intro hk hc
    rcases hk q List.mem_cons_self with hq | ⟨c, hq⟩
    · have : ∃ hp ∈ qs, ∃ c, hp.kind = .categorical c := by
        obtain ⟨hp, hm, c, hcc⟩ := hc
        rcases List.mem_cons.1 hm with rfl | hm
        · obtain ⟨l, u, g, h | h⟩ := hq <;> rw [h] at hcc <;> cases hcc
        · exact ⟨hp, hm, c, hcc⟩
      obtain ⟨pre, hp, post, c, rfl, h1, h2⟩ := ih (fun hp hm => hk hp (List.mem_cons_of_mem _ hm)) this
      refine ⟨q :: pre, hp, post, c, rfl, fun a ha => ?_, h2⟩
      rcases List.mem_cons.1 ha with rfl | ha
      · exact hq
      · exact h1 a ha
    · exact ⟨[], q, qs, c, rfl, by simp, hq⟩

/-- **C76** is false of every float array: with a categorical hyperparameter anywhere in the space, `unscale` raises a TypeError for one, two
and three dimensions. -/
theorem C76_float_counterexample {cs : ConfigSpace ℝ}
    (hk : ∀ hp ∈ cs, (∃ l u g, hp.kind = .float l u g ∨ hp.kind = .integer l u g) ∨ ∃ c, hp.kind = .categorical c)
    (hc : ∃ hp ∈ cs, ∃ c, hp.kind = .categorical c) {x : NdArr ℝ} (hx : AllRows (fun r => r.length = cs.length) x) (hrow : HasRow x) :
    unscale DType.float x cs = .error .type := by
  obtain ⟨pre, hp, post, c, h, h1, h2⟩ := first_choice cs hk hc
  exact C04_categorical_float h h1 h2 hx hrow

/-- **C76**, partial: two-dimensional integer arrays. An integer array holds normalised values 0 and 1 only, the ends of an axis. If these
are integers, every 0 or 1 in a numerical column becomes the lower or upper end of its axis and every code in a categorical column its choice,
whatever the order of the columns. Missing: other bounds (`C76_mixed_space_counterexample`) and float arrays (`C76_float_counterexample`). -/
theorem C76_integral_bounds_partial {cs : ConfigSpace ℝ}
    (hk : ∀ hp ∈ cs, (∃ (l u : Int) (g : Bool), Declares cs hp.name l u g ∧ (hp.kind = .float l u g ∨ hp.kind = .integer l u g)) ∨
      ∃ c, hp.kind = .categorical c)
    {x : List (List Int)} (hx : ∀ r ∈ x, r.length = cs.length ∧ ∀ (i : Nat) hp k, cs[i]? = some hp → r[i]? = some k →
      (∀ c, hp.kind = .categorical c → 0 ≤ k ∧ k < c.length) ∧ ((∀ c, hp.kind ≠ .categorical c) → k = 0 ∨ k = 1)) :
    ∃ y, unscale DType.int (.d2 x) cs = .ok (.d2 y) ∧
      List.Forall₂ (RowOf (fun hp (k : Int) w => (∃ c s, hp.kind = .categorical c ∧ c[k.toNat]? = some s ∧ w = .str s) ∨
        ∃ v, unscaleFloat (k : ℝ) cs hp.name = .ok v ∧ w = .num v) cs) x y := by
  have := unscale_ok (dt := DType.int) (x := .d2 x) (cs := cs)
    (R := fun hp (k : Int) w => (∃ c s, hp.kind = .categorical c ∧ c[k.toNat]? = some s ∧ w = .str s) ∨
        ∃ v, unscaleFloat (k : ℝ) cs hp.name = .ok v ∧ w = .num v)
    (A := fun r => r.length = cs.length ∧ ∀ (i : Nat) hp k, cs[i]? = some hp → r[i]? = some k →
      (∀ c, hp.kind = .categorical c → 0 ≤ k ∧ k < c.length) ∧ ((∀ c, hp.kind ≠ .categorical c) → k = 0 ∨ k = 1))
    (fun r hr => hr.1) hx (fun hp hm => ?_) ?_
  · obtain ⟨y, h1, h2⟩ := this
    cases y <;> simp only [ArrRel] at h2
    exact ⟨_, h1, h2⟩
  · rcases hk hp hm with ⟨l, u, g, -, h⟩ | h
    · exact .inl ⟨l, u, g, h⟩
    · exact .inr h
  · intro i obj b hp r k hb hi hr hkk
    have hbt : b = true := hb.2 ⟨x, rfl⟩
    obtain ⟨hcat, hnum⟩ := hr.2 i hp k hi hkk
    rcases hk hp (List.mem_of_getElem? hi) with ⟨l, u, g, hd, h⟩ | ⟨c, hc⟩
    · have hk01 : k = 0 ∨ k = 1 := hnum fun c hc => by rcases h with h | h <;> rw [h] at hc <;> cases hc
      obtain ⟨z, hz⟩ : ∃ z : Int, interpolate (l : ℝ) u g (k : ℝ) = z := by
        rcases hk01 with rfl | rfl
        · exact ⟨l, by rw [Int.cast_zero, interpolate_zero hd]⟩
        · exact ⟨u, by rw [Int.cast_one, interpolate_one hd]⟩
      have h01 : (0 : ℝ) ≤ k ∧ (k : ℝ) ≤ 1 := by rcases hk01 with rfl | rfl <;> norm_num
      have hm := (interpolate_strictMono hd).monotone
      have hlo : (l : ℝ) ≤ interpolate l u g k := by have := hm h01.1; rwa [interpolate_zero hd] at this
      have hup : interpolate (l : ℝ) u g k ≤ u := by have := hm h01.2; rwa [interpolate_one hd] at this
      have e1 : unscaleNum (l : ℝ) u g k = z := by
        rw [← hz]
        unfold unscaleNum
        cases g
        · simp [interpolate]; ring
        · have hl := hd.pos rfl
          have := exp_eq_interpolate hl (hl.trans hd.lt) (k : ℝ)
          simp only [if_true]
          show min (u : ℝ) (max (l : ℝ) (Real.exp ((k : ℝ) * (Real.log u - Real.log l) + Real.log l))) = _
          rw [this, max_eq_right hlo, min_eq_right hup]
      refine ⟨.num (z : ℝ), ?_, .inr ⟨_, C01_unscale_is_interpolation hd h01.1 h01.2, by rw [hz]⟩⟩
      rcases h with h | h <;> simp [unscaleEntry, h, DType.int, e1]
    · obtain ⟨h0, h1⟩ := hcat c hc
      have hlt : k.toNat < c.length := by omega
      refine ⟨.str c[k.toNat], ?_, .inl ⟨c, _, hc, List.getElem?_eq_getElem hlt, rfl⟩⟩
      have : ¬ k < 0 := by omega
      simp [unscaleEntry, hc, hbt, DType.int, choiceAt, this, pyGet, List.getElem?_eq_getElem hlt]

/-- both ends of an axis in front of a choice -/
example : unscale DType.int (.d2 [[(1 : Int), 1], [0, 0]]) [(⟨"x1", .float (-5) 5 false⟩ : Hp ℝ), ⟨"c", .categorical ["a", "b"]⟩] =
    .ok (.d2 [[.num 5, .str "b"], [.num (-5), .str "a"]]) := by
  have h1 : ((⌊(5 : ℝ)⌋ : Int) : ℝ) = 5 := by norm_num
  have h2 : ((⌈(-5 : ℝ)⌉ : Int) : ℝ) = -5 := by norm_num
  simp [unscale, unscaleLoop, updArr, NdArr.map, zipWithPy, updRow, unscaleEntry, DType.int, unscaleNum, choiceAt, pyGet]
  norm_num

end PyPDP
