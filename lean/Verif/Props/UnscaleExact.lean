/-
C76 in every case: `unscale` of integer arrays over spaces that mix numerical and categorical hyperparameters.
-/
import Verif.Props.Unscale
import Verif.Spec.UnscaleExact

namespace PyPDP
open Spec

theorem truncated_store (x : ℝ) : Truncated x (DType.int.store false x) := by
  simp only [DType.int, Bool.false_eq_true, if_false]
  by_cases hx : 0 ≤ x
  · rw [if_pos hx]
    have h1 := Int.floor_le x
    have h2 := Int.lt_floor_add_one x
    have h3 : (0 : ℝ) ≤ ⌊x⌋ := by exact_mod_cast Int.floor_nonneg.2 hx
    exact ⟨⟨_, rfl⟩, by rw [abs_of_nonneg h3, abs_of_nonneg hx]; exact h1, by rw [abs_lt]; constructor <;> linarith⟩
  · rw [if_neg hx]
    push Not at hx
    have h1 := Int.le_ceil x
    have h2 := Int.ceil_lt_add_one x
    have h3 : ((⌈x⌉ : Int) : ℝ) ≤ 0 := by exact_mod_cast Int.ceil_le.2 (by simpa using hx.le)
    exact ⟨⟨_, rfl⟩, by rw [abs_of_nonpos h3, abs_of_neg hx]; linarith, by rw [abs_lt]; constructor <;> linarith⟩

theorem unscaleNum_atInteger {cs : ConfigSpace ℝ} {n : String} {l u : ℝ} {g : Bool} (hd : Declares cs n l u g) (k : Int) :
    AtInteger l u g k (unscaleNum l u g (k : ℝ)) := by
  refine ⟨?_, ?_⟩
  · rintro rfl
    simp [unscaleNum]; ring
  · rintro rfl
    have hl := hd.pos rfl
    have hm := (interpolate_strictMono hd).monotone
    have h0 := interpolate_zero hd
    have h1 := interpolate_one hd
    have : unscaleNum l u true (k : ℝ) = min u (max l (interpolate l u true k)) := by
      have := exp_eq_interpolate hl (hl.trans hd.lt) (k : ℝ)
      show min u (max l (Real.exp ((k : ℝ) * (Real.log u - Real.log l) + Real.log l))) = _
      rw [this]
    rw [this]
    split
    · next hk =>
      have hk' : (k : ℝ) ≤ 0 := by exact_mod_cast hk
      have := hm hk'
      rw [h0] at this
      rw [max_eq_left this, min_eq_right hd.lt.le]
    · next hk =>
      have hk' : (1 : ℝ) ≤ k := by exact_mod_cast (by omega : 1 ≤ k)
      have := hm hk'
      rw [h1] at this
      exact min_eq_left (this.trans (le_max_right _ _))

/-- loop invariant: the first `i` columns are translated. -/
private def IntDone (cs : ConfigSpace ℝ) (i : Nat) (r : List Int) (out : List (Val ℝ)) : Prop :=
  r.length = cs.length ∧ out.length = r.length ∧ ∀ (j : Nat) (hp : Hp ℝ) (k : Int), j < i → cs[j]? = some hp → r[j]? = some k →
    ∃ w, out[j]? = some w ∧
    (∀ c, hp.kind = .categorical c → ∃ s, c[(if k < 0 then k + c.length else k).toNat]? = some s ∧ w = .str s) ∧
    ∀ l u g, hp.kind = .float l u g ∨ hp.kind = .integer l u g → ∃ v z, AtInteger l u g k v ∧ w = .num z ∧
      (BehindChoice cs j → z = v) ∧ (¬ BehindChoice cs j → Truncated v z)

theorem choiceAt_known {c : List String} {k : Int} (h0 : -(c.length : Int) ≤ k) (h1 : k < c.length) :
    ∃ s, c[(if k < 0 then k + c.length else k).toNat]? = some s ∧ choiceAt c k = .ok s := by
  obtain ⟨j, hj⟩ : ∃ j, j = if k < 0 then k + (c.length : Int) else k := ⟨_, rfl⟩
  have hj0 : 0 ≤ j := by rw [hj]; split <;> omega
  have hj1 : j.toNat < c.length := by rw [hj]; split <;> omega
  refine ⟨c[j.toNat], ?_, ?_⟩
  · rw [← hj]; exact List.getElem?_eq_getElem hj1
  · simp only [choiceAt, ← hj]
    rw [if_neg (by omega)]
    simp [pyGet, List.getElem?_eq_getElem hj1]

theorem choiceAt_unknown {c : List String} {k : Int} (h : ¬ (-(c.length : Int) ≤ k ∧ k < c.length)) : choiceAt c k = .error .index := by
  obtain ⟨j, hj⟩ : ∃ j, j = if k < 0 then k + (c.length : Int) else k := ⟨_, rfl⟩
  simp only [choiceAt, ← hj]
  by_cases hj0 : j < 0
  · rw [if_pos hj0]
  · rw [if_neg hj0]
    have : c.length ≤ j.toNat := by rw [hj] at hj0 ⊢; split <;> (split at hj0 <;> omega)
    simp [pyGet, List.getElem?_eq_none this]

private theorem intLoop {cs : ConfigSpace ℝ} (hd : ∀ hp ∈ cs, (∃ l u g, Declares cs hp.name l u g ∧ (hp.kind = .float l u g ∨ hp.kind = .integer l u g)) ∨
      ∃ c, hp.kind = .categorical c) {x : NdArr Int} (hx2 : (∃ m, x = .d2 m) ∨ ∀ hp ∈ cs, ∀ c, hp.kind ≠ .categorical c) :
    ∀ (hps : List (Hp ℝ)) (i : Nat) (obj : Bool) (cur : NdArr (Val ℝ)), cs.drop i = hps → (obj = true ↔ BehindChoice cs i) →
      ArrRel (fun r out => CodesKnown cs r ∧ IntDone cs i r out) x cur →
      ∃ z, unscaleLoop DType.int x i obj hps cur = .ok z ∧ ArrRel (fun r out => IntDone cs cs.length r out) x z := by
  intro hps
  induction hps with
  | nil =>
    intro i obj cur hdr _ hc
    refine ⟨cur, rfl, arrRel_mono (fun a b h => ⟨h.2.1, h.2.2.1, fun j hp e hj => h.2.2.2 j hp e ?_⟩) hc⟩
    have : cs.length ≤ i := by simpa using hdr
    omega
  | cons hp hps ih =>
    intro i obj cur hdr hobj hc
    have hi : cs[i]? = some hp := by
      have := congrArg (·[0]?) hdr
      simpa using this
    have hd' : cs.drop (i + 1) = hps := by
      rw [← List.drop_drop, hdr]; rfl
    have hmem : hp ∈ cs := List.mem_of_getElem? hi
    have hbehind : BehindChoice cs (i + 1) ↔ BehindChoice cs i ∨ ∃ c, hp.kind = .categorical c := by
      constructor
      · rintro ⟨j, q, c, hj, hq, hcat⟩
        rcases Nat.lt_succ_iff_lt_or_eq.1 hj with hlt | rfl
        · exact .inl ⟨j, q, c, hlt, hq, hcat⟩
        · rw [hi] at hq; cases hq; exact .inr ⟨c, hcat⟩
      · rintro (⟨j, q, c, hj, hq, hcat⟩ | ⟨c, hcat⟩)
        · exact ⟨j, q, c, by omega, hq, hcat⟩
        · exact ⟨i, hp, c, by omega, hi, hcat⟩
    have upd : ∀ obj', (∀ b r k, (b = true ↔ ∃ m, x = .d2 m) → CodesKnown cs r → r[i]? = some k → ∃ w, unscaleEntry DType.int b hp obj' k = .ok w ∧
          (∀ c, hp.kind = .categorical c → ∃ s, c[(if k < 0 then k + c.length else k).toNat]? = some s ∧ w = .str s) ∧
          ∀ l u g, hp.kind = .float l u g ∨ hp.kind = .integer l u g → ∃ v z, AtInteger l u g k v ∧ w = .num z ∧
            (BehindChoice cs i → z = v) ∧ (¬ BehindChoice cs i → Truncated v z)) →
        ∃ z, updArr i (fun b => unscaleEntry DType.int b hp obj') x cur = .ok z ∧
        ArrRel (fun r out => CodesKnown cs r ∧ IntDone cs (i + 1) r out) x z := by
      intro obj' hstep
      refine updArr_ok (R := fun r out => CodesKnown cs r ∧ IntDone cs i r out) ?_ hc
      intro b row y hb ⟨hA, hw, hl, hdone⟩
      have hlen : i < row.length := by
        rw [hw]; exact (List.getElem?_eq_some_iff.1 hi).1
      obtain ⟨w, hw1, hw2⟩ := hstep b row row[i] hb hA (List.getElem?_eq_getElem hlen)
      refine ⟨y.set i w, by simp [updRow, List.getElem?_eq_getElem hlen, hw1], hA, hw, by simpa using hl, ?_⟩
      intro j hp' e hj hjs hje
      rcases Nat.lt_succ_iff_lt_or_eq.1 hj with hlt | rfl
      · obtain ⟨w', h1, h2⟩ := hdone j hp' e hlt hjs hje
        exact ⟨w', by rw [List.getElem?_set_ne (by omega)]; exact h1, h2⟩
      · rw [hi] at hjs; cases hjs
        rw [List.getElem?_eq_getElem hlen] at hje; cases hje
        exact ⟨w, by rw [List.getElem?_set_self (by omega)], hw2⟩
    rcases hd hp hmem with ⟨l, u, g, hdec, hf⟩ | ⟨c, hf⟩
    · have hnc : ¬ ∃ c, hp.kind = .categorical c := by rintro ⟨c, hcc⟩; rcases hf with hf | hf <;> rw [hf] at hcc <;> cases hcc
      obtain ⟨z, h1, h2⟩ := upd obj (by
        intro b r k _ _ _
        refine ⟨.num (DType.int.store obj (unscaleNum l u g (k : ℝ))), ?_, fun c hcc => absurd ⟨c, hcc⟩ hnc, ?_⟩
        · rcases hf with hf | hf <;> simp [unscaleEntry, hf, DType.int]
        · intro l' u' g' hf'
          have : l' = l ∧ u' = u ∧ g' = g := by
            rcases hf with hf | hf <;> rcases hf' with hf' | hf' <;> rw [hf] at hf' <;> cases hf' <;> exact ⟨rfl, rfl, rfl⟩
          obtain ⟨rfl, rfl, rfl⟩ := this
          refine ⟨_, _, unscaleNum_atInteger hdec k, rfl, fun hb => ?_, fun hb => ?_⟩
          · rw [hobj.2 hb]; simp [DType.int]
          · have : obj = false := by simpa using fun h => hb (hobj.1 h)
            rw [this]; exact truncated_store _)
      obtain ⟨z', h3, h4⟩ := ih (i + 1) obj z hd' (by rw [hobj, hbehind]; simp [hnc]) h2
      exact ⟨z', by rcases hf with hf | hf <;> simp [unscaleLoop, hf, h1, h3], h4⟩
    · obtain ⟨z, h1, h2⟩ := upd true (by
        intro b r k hb hr hk
        obtain ⟨h0, h1⟩ := hr i hp c k hi hf hk
        obtain ⟨s, hs, hs'⟩ := choiceAt_known h0 h1
        have hbt : b = true := hb.2 (hx2.resolve_right fun h => h hp hmem c hf)
        refine ⟨.str s, ?_, fun c' hc' => ?_, fun l u g h => ?_⟩
        · simp [unscaleEntry, hf, hbt, DType.int, hs']
        · rw [hf] at hc'; cases hc'; exact ⟨s, hs, rfl⟩
        · rw [hf] at h; rcases h with h | h <;> cases h)
      obtain ⟨z', h3, h4⟩ := ih (i + 1) true z hd' (by simp [hbehind, hf]) h2
      exact ⟨z', by simp [unscaleLoop, hf, h1, h3], h4⟩

/-- **C76** in every case, integer arrays: over a space of numerical and categorical hyperparameters, every code of a choice becomes the
choice (negative codes count from the end); in numerical columns 0 and 1 become the ends of the axis - exactly behind a column of choices,
without the digits behind the point in front of all of them. Two-dimensional arrays, or spaces without choices. -/
theorem C76_exact {cs : ConfigSpace ℝ} (hd : ∀ hp ∈ cs, (∃ l u g, Declares cs hp.name l u g ∧ (hp.kind = .float l u g ∨ hp.kind = .integer l u g)) ∨
      ∃ c, hp.kind = .categorical c) {x : NdArr Int} (hx2 : (∃ m, x = .d2 m) ∨ ∀ hp ∈ cs, ∀ c, hp.kind ≠ .categorical c)
    (hx : AllRows (fun r => r.length = cs.length ∧ CodesKnown cs r) x) :
    ∃ y, unscale DType.int x cs = .ok y ∧ ArrRel (IntegerRow cs) x y := by
  obtain ⟨z, h1, h2⟩ := intLoop hd hx2 cs 0 false (x.map fun e => .num (DType.int.toNum e)) rfl
    (by simp [BehindChoice]) (arrRel_map _ (fun r hr => ⟨hr.2, hr.1, by simp, by simp⟩) hx)
  refine ⟨z, h1, arrRel_mono (fun a b h => ⟨h.2.1, fun i hp e hi he => h.2.2 i hp e ?_ hi he⟩) h2⟩
  exact (List.getElem?_eq_some_iff.1 hi).1

theorem zipWithPy_some_error {α β γ : Type} {e : PyErr} {f : α → β → Py γ} {R : α → β → Prop} {Q : α → Prop}
    (hok : ∀ a b, R a b → (∃ c, f a b = .ok c) ∨ f a b = .error e) (hbad : ∀ a b, R a b → Q a → f a b = .error e) :
    ∀ {x : List α} {y : List β}, List.Forall₂ R x y → (∃ a ∈ x, Q a) → zipWithPy f x y = .error e := by
  intro x y h
  induction h with
  | nil => rintro ⟨a, ha, -⟩; cases ha
  | @cons a b as bs hab _ ih =>
    rintro ⟨a', ha', hq⟩
    rcases hok a b hab with ⟨c, hc⟩ | hc
    · rcases List.mem_cons.1 ha' with rfl | hm
      · rw [hbad _ _ hab hq] at hc; cases hc
      · simp [zipWithPy, hc, ih ⟨a', hm, hq⟩]
    · simp [zipWithPy, hc]

private theorem badLoop {cs : ConfigSpace ℝ} (hd : ∀ hp ∈ cs, (∃ l u g, hp.kind = .float l u g ∨ hp.kind = .integer l u g) ∨
      ∃ c, hp.kind = .categorical c) {x : List (List Int)} (hx : ∀ r ∈ x, r.length = cs.length) :
    ∀ (hps : List (Hp ℝ)) (i : Nat) (obj : Bool) (cur : List (List (Val ℝ))), cs.drop i = hps → cur.length = x.length →
      (∃ (j : Nat) (hp : Hp ℝ) (c : List String) (r : List Int) (k : Int), i ≤ j ∧ cs[j]? = some hp ∧ hp.kind = .categorical c ∧ r ∈ x ∧
        r[j]? = some k ∧ ¬ (-(c.length : Int) ≤ k ∧ k < c.length)) →
      unscaleLoop DType.int (.d2 x) i obj hps (.d2 cur) = .error .index := by
  intro hps
  induction hps with
  | nil =>
    rintro i obj cur hdr _ ⟨j, hp, c, r, k, hij, hj, -⟩
    have h1 : cs.length ≤ i := by simpa using hdr
    have h2 := (List.getElem?_eq_some_iff.1 hj).1
    omega
  | cons hp hps ih =>
    intro i obj cur hdr hc hbad
    have hi : cs[i]? = some hp := by
      have := congrArg (·[0]?) hdr
      simpa using this
    have hil := (List.getElem?_eq_some_iff.1 hi).1
    have hd' : cs.drop (i + 1) = hps := by
      rw [← List.drop_drop, hdr]; rfl
    have hrel : List.Forall₂ (fun (r : List Int) (_ : List (Val ℝ)) => r ∈ x) x cur := by
      rw [List.forall₂_iff_get]
      exact ⟨hc.symm, fun n h1 h2 => List.getElem_mem _⟩
    have next : ∀ obj' z, zipWithPy (updRow i (unscaleEntry DType.int true hp obj')) x cur = .ok z → ∀ obj'',
        (∀ c, hp.kind = .categorical c → ∀ r ∈ x, ∀ k, r[i]? = some k → -(c.length : Int) ≤ k ∧ k < c.length) →
        unscaleLoop DType.int (.d2 x) (i + 1) obj'' hps (.d2 z) = .error .index := by
      intro obj' z hz obj'' hgood
      have hlen : z.length = x.length := by
        have gen : ∀ (x : List (List Int)) (y z : List (List (Val ℝ))), y.length = x.length →
            zipWithPy (updRow i (unscaleEntry DType.int true hp obj')) x y = .ok z → z.length = x.length := by
          intro x
          induction x with
          | nil => intro y z hy h; cases y <;> simp [zipWithPy] at h hy ⊢; exact h
          | cons a as ih =>
            intro y z hy h
            cases y with
            | nil => simp at hy
            | cons b bs =>
              simp only [zipWithPy, Py.bind_eq_ok] at h
              obtain ⟨c, -, cs', h2, h3⟩ := h
              cases h3
              simp [ih bs cs' (by simpa using hy) h2]
        exact gen x cur z hc hz
      refine ih (i + 1) obj'' z hd' hlen ?_
      obtain ⟨j, q, c, r, k, hij, hj, hcat, hr, hk, hb⟩ := hbad
      refine ⟨j, q, c, r, k, ?_, hj, hcat, hr, hk, hb⟩
      rcases Nat.lt_or_eq_of_le hij with h | rfl
      · exact h
      · rw [hi] at hj; cases hj; exact absurd (hgood c hcat r hr k hk) hb
    rcases hd hp (List.mem_of_getElem? hi) with ⟨l, u, g, hf⟩ | ⟨c, hf⟩
    · have hnc : ∀ c, hp.kind ≠ .categorical c := by intro c hcc; rcases hf with hf | hf <;> rw [hf] at hcc <;> cases hcc
      obtain ⟨z, hz, -⟩ := zipWithPy_ok (R' := fun _ _ => True) (f := updRow i (unscaleEntry DType.int true hp obj)) (fun a b hab => by
        have hl : i < a.length := by rw [hx a hab]; exact hil
        refine ⟨b.set i (.num (DType.int.store obj (unscaleNum l u g (DType.int.toNum a[i])))), ?_, trivial⟩
        rcases hf with hf | hf <;> simp [updRow, List.getElem?_eq_getElem hl, unscaleEntry, hf]) hrel
      have := next obj z hz obj (fun c hcc => absurd hcc (hnc c))
      rcases hf with hf | hf <;> simp [unscaleLoop, hf, updArr, hz, this]
    · by_cases hgood : ∀ r ∈ x, ∀ k, r[i]? = some k → -(c.length : Int) ≤ k ∧ k < c.length
      · obtain ⟨z, hz, -⟩ := zipWithPy_ok (R' := fun _ _ => True) (f := updRow i (unscaleEntry DType.int true hp true)) (fun a b hab => by
          have hl : i < a.length := by rw [hx a hab]; exact hil
          obtain ⟨h0, h1⟩ := hgood a hab a[i] (List.getElem?_eq_getElem hl)
          obtain ⟨s, -, hs⟩ := choiceAt_known h0 h1
          exact ⟨b.set i (.str s), by simp [updRow, List.getElem?_eq_getElem hl, unscaleEntry, hf, DType.int, hs], trivial⟩) hrel
        have := next true z hz true (fun c' hcc => by rw [hf] at hcc; cases hcc; exact hgood)
        simp [unscaleLoop, hf, updArr, hz, this]
      · push Not at hgood
        obtain ⟨r, hr, k, hk, hb⟩ := hgood
        have : zipWithPy (updRow i (unscaleEntry DType.int true hp true)) x cur = .error .index := by
          refine zipWithPy_some_error (Q := fun a => a = r) (fun a b hab => ?_) (fun a b hab ha => ?_) hrel ⟨r, hr, rfl⟩
          · have hl : i < a.length := by rw [hx a hab]; exact hil
            by_cases hg : -(c.length : Int) ≤ a[i] ∧ a[i] < c.length
            · obtain ⟨s, -, hs⟩ := choiceAt_known hg.1 hg.2
              exact .inl ⟨b.set i (.str s), by simp [updRow, List.getElem?_eq_getElem hl, unscaleEntry, hf, DType.int, hs]⟩
            · exact .inr (by simp [updRow, List.getElem?_eq_getElem hl, unscaleEntry, hf, DType.int, choiceAt_unknown hg])
          · subst ha
            simp [updRow, hk, unscaleEntry, hf, DType.int, choiceAt_unknown fun h => absurd h.2 (not_lt.2 (hb h.1))]
        simp [unscaleLoop, hf, updArr, this]

/-- **C76** in every case, a code without a choice: IndexError. -/
theorem C76_exact_unknown {cs : ConfigSpace ℝ} (hd : ∀ hp ∈ cs, (∃ l u g, hp.kind = .float l u g ∨ hp.kind = .integer l u g) ∨
      ∃ c, hp.kind = .categorical c) {x : List (List Int)} (hx : ∀ r ∈ x, r.length = cs.length) (hbad : ∃ r ∈ x, ¬ CodesKnown cs r) :
    unscale DType.int (.d2 x) cs = .error .index := by
  refine badLoop hd hx cs 0 false _ rfl (by simp) ?_
  obtain ⟨r, hr, hb⟩ := hbad
  simp only [CodesKnown, not_forall] at hb
  obtain ⟨i, hp, c, k, h1, h2, h3, h4⟩ := hb
  exact ⟨i, hp, c, r, k, Nat.zero_le _, h1, h2, hr, h3, h4⟩

/-- **C76** in every case, integer arrays of one or three dimensions over a space with a choice: TypeError. -/
theorem C76_exact_dimensions {cs : ConfigSpace ℝ}
    (hk : ∀ hp ∈ cs, (∃ l u g, hp.kind = .float l u g ∨ hp.kind = .integer l u g) ∨ ∃ c, hp.kind = .categorical c)
    (hc : ∃ hp ∈ cs, ∃ c, hp.kind = .categorical c) {x : NdArr Int} (hx : AllRows (fun r => r.length = cs.length) x) (hrow : HasRow x)
    (hd : ∀ m, x ≠ .d2 m) : unscale DType.int x cs = .error .type := by
  obtain ⟨pre, hp, post, c, h, h1, h2⟩ := first_choice cs hk hc
  refine unscale_categorical_error h h1 h2 hx hrow fun e b hb => ?_
  have : b = false := by
    cases b
    · rfl
    · obtain ⟨m, hm⟩ := hb.1 rfl; exact absurd hm (hd m)
  simp [unscaleEntry, h2, this]

/-- an axis before and behind a choice; the last choice and a choice that does not exist -/
example : unscale DType.int (.d2 [[(1 : Int), -1, 0]]) [(⟨"x", .float (1/2) (3/2) false⟩ : Hp ℝ), ⟨"c", .categorical ["a", "b", "d"]⟩,
      ⟨"y", .float (1/2) (3/2) false⟩] = .ok (.d2 [[.num 1, .str "d", .num (1/2)]]) ∧
    unscale DType.int (.d2 [[(1 : Int), -1, 0], [0, 3, 0]]) [(⟨"x", .float (1/2) (3/2) false⟩ : Hp ℝ), ⟨"c", .categorical ["a", "b", "d"]⟩,
      ⟨"y", .float (1/2) (3/2) false⟩] = .error .index := by
  constructor
  · have : ⌊(1 - (2 : ℝ)⁻¹ + 2⁻¹ + 2⁻¹)⌋ = 1 := by norm_num
    have h1 : ⌊(3 / 2 : ℝ)⌋ = 1 := by norm_num
    simp [unscale, unscaleLoop, updArr, NdArr.map, zipWithPy, updRow, unscaleEntry, DType.int, unscaleNum, choiceAt, pyGet]
    norm_num [h1]
  · refine C76_exact_unknown (by simp) (by simp) ⟨[0, 3, 0], by simp, fun h => ?_⟩
    have := (h 1 ⟨"c", .categorical ["a", "b", "d"]⟩ ["a", "b", "d"] 3 rfl rfl rfl).2
    simp at this

end PyPDP
