/-
Facts about masks, splits and the loop of `partition`.
-/
import Verif.Spec.Partitioner
import Verif.Lemmas.Py
import Verif.Lemmas.ConfigSpace
import Verif.Props.Loss

namespace PyPDP
open Spec
variable {K : Type}

/-! ### masks -/

theorem maskSelect_map {α : Type} (l : List α) (p : α → Bool) : maskSelect (l.map p) l = l.filter p := by
  induction l with
  | nil => rfl
  | cons a as ih => cases h : p a <;> simp [maskSelect, h, ih]

theorem maskSelect_zip {α β : Type} (m : List Bool) {x : List α} {y : List β} (h : x.length = y.length) :
    (maskSelect m x).zip (maskSelect m y) = maskSelect m (x.zip y) ∧ (maskSelect m x).length = (maskSelect m y).length := by
  induction m generalizing x y with
  | nil => simp [maskSelect]
  | cons b bs ih =>
    match x, y, h with
    | [], [], _ => cases b <;> simp [maskSelect]
    | a :: as, c :: cs, h =>
      have h' : as.length = cs.length := by simpa using h
      obtain ⟨h1, h2⟩ := ih h'
      cases b <;> simp [maskSelect, h1, h2]

theorem mem_of_mem_maskSelect {α : Type} {m : List Bool} {x : List α} {a : α} (h : a ∈ maskSelect m x) : a ∈ x := by
  induction m generalizing x with
  | nil => simp [maskSelect] at h
  | cons b bs ih =>
    match x, b with
    | [], b => cases b <;> simp [maskSelect] at h
    | c :: cs, true =>
      rcases List.mem_cons.1 h with rfl | h
      · simp
      · exact List.mem_cons_of_mem _ (ih h)
    | c :: cs, false => exact List.mem_cons_of_mem _ (ih h)

/-! ### curves of a region -/

theorem Spec.RegionShape.curves_length {P F : Nat} {n : Node K} (h : RegionShape P F n) : (curves n).length = n.x.length := by
  simp [curves, ← h.yv, ← h.xy]

theorem Spec.RegionShape.map_x {P F : Nat} {n : Node K} (h : RegionShape P F n) : (curves n).map Prod.fst = n.x := by
  rw [curves, List.map_fst_zip]
  rw [List.length_zip, ← h.yv, min_self, h.xy]

theorem Spec.RegionShape.map_y {P F : Nat} {n : Node K} (h : RegionShape P F n) : (curves n).map (fun c => c.2.1) = n.y := by
  have : (curves n).map (fun c => c.2.1) = ((curves n).map Prod.snd).map Prod.fst := by simp
  rw [this, curves, List.map_snd_zip, List.map_fst_zip]
  · rw [h.yv]
  · rw [List.length_zip, ← h.yv, min_self, h.xy]

theorem Spec.RegionShape.map_v {P F : Nat} {n : Node K} (h : RegionShape P F n) : (curves n).map (fun c => c.2.2) = n.v := by
  have : (curves n).map (fun c => c.2.2) = ((curves n).map Prod.snd).map Prod.snd := by simp
  rw [this, curves, List.map_snd_zip, List.map_snd_zip]
  · rw [h.yv]
  · rw [List.length_zip, ← h.yv, min_self, h.xy]

theorem firstValues_eq [Field K] {x : List (List (List K))} {P F f : Nat} (hP : 1 ≤ P) (hx : ∀ m ∈ x, m.length = P ∧ ∀ r ∈ m, r.length = F)
    (hf : f < F) : firstValues x f = .ok (x.map fun m => (m.getD 0 []).getD f 0) := by
  unfold firstValues
  rw [Py.mapM_eq_ok, List.forall₂_map_right_iff, List.forall₂_same]
  intro m hm
  obtain ⟨h1, h2⟩ := hx m hm
  obtain ⟨r, rs, rfl⟩ : ∃ r rs, m = r :: rs := by
    cases m with
    | nil => simp at h1; omega
    | cons r rs => exact ⟨r, rs, rfl⟩
  have hr := h2 r (by simp)
  simp only [pyGet, List.getElem?_cons_zero, Py.ok_bind]
  rw [List.getElem?_eq_getElem (by omega)]
  simp [List.getD, List.getElem?_eq_getElem (show f < r.length by omega)]

/-- the predicate behind a condition with a float threshold -/
def passes [Field K] [LinearOrder K] (f : Nat) (t : K) (le : Bool) (c : Curve K) : Bool :=
  if le then decide (featureOf f c ≤ t) else decide (t < featureOf f c)

theorem filterByCondition_spec [Field K] [LinearOrder K] {cs : ConfigSpace K} {n : Node K} {P F f : Nat} (hn : RegionShape P F n)
    {hp : Hp K} (hf : cs.idx hp.name = .ok f) (hfF : f < F) (t : K) (le : Bool) :
    ∃ m, filterByCondition cs n ⟨hp, .flt t, some le⟩ = .ok m ∧ curves m = (curves n).filter (passes f t le) ∧
      RegionShape P F m ∧ m.depth = n.depth + 1 ∧ m.conds = n.conds ++ [⟨hp, .flt t, some le⟩] := by
  obtain ⟨mask, hmask⟩ : ∃ mask, mask = condMask (some le) t (n.x.map fun m => (m.getD 0 []).getD f 0) := ⟨_, rfl⟩
  have hm2 : mask = (curves n).map (passes f t le) := by
    have : n.x.map (fun m => (m.getD 0 []).getD f (0 : K)) = (curves n).map (featureOf f) := by
      conv_lhs => rw [← hn.map_x, List.map_map]
      rfl
    rw [hmask, this]
    cases le <;> simp [condMask, passes, Function.comp_def]
  obtain ⟨hyv1, hyv2⟩ := maskSelect_zip mask hn.yv
  obtain ⟨hxy1, hxy2⟩ := maskSelect_zip mask hn.xy
  have hsh : RegionShape P F (⟨n.depth + 1, maskSelect mask n.x, maskSelect mask n.y, maskSelect mask n.v, n.conds ++ [⟨hp, .flt t, some le⟩]⟩ : Node K) :=
    ⟨hn.pos, hxy2, hyv2, fun m hm => hn.xs m (mem_of_mem_maskSelect hm), fun m hm => hn.ys m (mem_of_mem_maskSelect hm),
      fun m hm => hn.vs m (mem_of_mem_maskSelect hm)⟩
  refine ⟨_, ?_, ?_, hsh, rfl, rfl⟩
  · unfold filterByCondition
    rw [hf, Py.ok_bind]
    rw [firstValues_eq hn.pos hn.xs hfF, Py.ok_bind, NVal.toNum, Py.ok_bind]
    dsimp only
    rw [← hmask]
    have hrow : rowsAgree (maskSelect mask n.x) (maskSelect mask n.y) (maskSelect mask n.v) = true := by
      unfold rowsAgree
      have e1 : (maskSelect mask n.x).map List.length = (maskSelect mask n.x).map fun _ => P :=
        List.map_congr_left fun m hm => (hsh.xs m hm).1
      have e2 : (maskSelect mask n.y).map List.length = (maskSelect mask n.y).map fun _ => P :=
        List.map_congr_left fun m hm => hsh.ys m hm
      have e3 : (maskSelect mask n.v).map List.length = (maskSelect mask n.v).map fun _ => P :=
        List.map_congr_left fun m hm => hsh.vs m hm
      rw [e1, e2, e3, List.map_const', List.map_const', List.map_const', hxy2, hyv2]
      simp
    rw [mkNode, if_pos ⟨hxy2, hyv2, hrow⟩]
  · have hyvl : (n.y.zip n.v).length = n.x.length := by rw [List.length_zip, ← hn.yv, min_self, hn.xy]
    show (maskSelect mask n.x).zip ((maskSelect mask n.y).zip (maskSelect mask n.v)) = _
    rw [hyv1, (maskSelect_zip mask hyvl.symm).1, hm2]
    exact maskSelect_map _ _

theorem splitAtValue_spec [Field K] [LinearOrder K] [Transc K] {cs : ConfigSpace K} {n : Node K} {P F f : Nat} (hn : RegionShape P F n)
    {hp : Hp K} (hf : cs.idx hp.name = .ok f) (hfF : f < F) (t : K) :
    ∃ l r, splitAtValue cs n hp t = .ok (l, r) ∧ IsSplit f hp t n l r ∧ RegionShape P F l ∧ RegionShape P F r := by
  obtain ⟨l, hl, hl1, hl2, hl3, hl4⟩ := filterByCondition_spec hn hf hfF t true
  obtain ⟨r, hr, hr1, hr2, hr3, hr4⟩ := filterByCondition_spec hn hf hfF t false
  refine ⟨l, r, ?_, ⟨?_, ?_, hl3, hr3, hl4, hr4⟩, hl2, hr2⟩
  · unfold splitAtValue
    simp only [mkCond, checkCond, Py.ok_bind, hl, hr]
    rfl
  · rw [hl1]; rfl
  · rw [hr1]; rfl

theorem IsSplit.counts [Field K] [LinearOrder K] {f : Nat} {hp : Hp K} {t : K} {n l r : Node K} (h : IsSplit f hp t n l r) :
    (curves l ++ curves r).Perm (curves n) := by
  rw [h.left_curves, h.right_curves]
  have : (fun c : Curve K => decide (t < featureOf f c)) = fun c => !decide (featureOf f c ≤ t) := by
    funext c; simp [← not_le]
  rw [this]
  exact List.filter_append_perm _ _

/-! ### loss of a region -/

theorem regionLoss_curves [Field K] {P F : Nat} {n : Node K} (h : RegionShape P F n) : regionLoss n.v = curveLoss P (curves n) := by
  by_cases hn : n.v.length = 0
  · have hv : n.v = [] := List.length_eq_zero_iff.1 hn
    have hc : curves n = [] := List.length_eq_zero_iff.1 (by rw [h.curves_length, h.xy, h.yv, hn])
    rw [hv, hc, regionLoss_nil]
    simp [curveLoss]
  · obtain ⟨m, _, hm, hl⟩ := regionLoss_eq hn (⟨rfl, h.vs⟩ : Shape2 n.v.length P n.v)
    rw [hl]
    unfold dist2 curveLoss
    rw [list_sum_finset_comm]
    refine Finset.sum_congr rfl fun p hp => ?_
    have hp' := Finset.mem_range.1 hp
    have h1 : m.getD p 0 = meanVar p (curves n) := by
      rw [List.getD, hm p hp', ← h.map_v, meanVar]
      simp [List.map_map, Function.comp_def]
    rw [h1, ← h.map_v]
    simp [List.map_map, Function.comp_def]

/-! ### the loop of `calc_best_split` -/

section best
variable {β : Type} [LinearOrder K]

/-- keep the first smallest -/
def keepBest (best e : Option (K × β)) : Option (K × β) :=
  match best, e with
  | b, none => b
  | none, some e => some e
  | some b, some e => if e.1 < b.1 then some e else some b

theorem keepBest_foldl (evals : List (Option (K × β))) :
    (evals.foldl keepBest none = none ↔ ∀ (k : Nat) b, evals[k]? ≠ some (some b)) ∧
    ∀ b, evals.foldl keepBest none = some b → ∃ k : Nat, evals[k]? = some (some b) ∧
      ∀ (k' : Nat) b', evals[k']? = some (some b') → b.1 ≤ b'.1 ∧ (b.1 = b'.1 → k ≤ k') := by
  induction evals using List.reverseRecOn with
  | nil => simp
  | append_singleton es e ih =>
    obtain ⟨ih1, ih2⟩ := ih
    rw [List.foldl_append]
    simp only [List.foldl_cons, List.foldl_nil]
    have get_old : ∀ {k : Nat}, k < es.length → (es ++ [e])[k]? = es[k]? := fun hk => List.getElem?_append_left hk
    have get_cases : ∀ {k : Nat} {b}, (es ++ [e])[k]? = some (some b) → es[k]? = some (some b) ∨ (k = es.length ∧ e = some b) := by
      intro k b hk
      rcases Nat.lt_trichotomy k es.length with h | h | h
      · rw [get_old h] at hk; exact .inl hk
      · subst h
        rw [List.getElem?_append_right le_rfl] at hk
        simp at hk
        exact .inr ⟨rfl, hk⟩
      · rw [List.getElem?_append_right h.le, List.getElem?_eq_none (by simp; omega)] at hk
        cases hk
    have lt_of : ∀ {k : Nat} {b}, es[k]? = some (some b) → k < es.length := fun h => (List.getElem?_eq_some_iff.1 h).1
    have get_new : (es ++ [e])[es.length]? = some e := by simp
    cases e with
    | none =>
      have hk : keepBest (es.foldl keepBest none) none = es.foldl keepBest none := by
        cases es.foldl keepBest none <;> rfl
      rw [hk]
      refine ⟨?_, ?_⟩
      · rw [ih1]
        constructor
        · intro h k b hk
          rcases get_cases hk with h1 | ⟨_, h1⟩
          · exact h k b h1
          · cases h1
        · intro h k b hk
          exact h k b (by rw [get_old (lt_of hk)]; exact hk)
      · intro b hb
        obtain ⟨k, hk, hmin⟩ := ih2 b hb
        refine ⟨k, by rw [get_old (lt_of hk)]; exact hk, fun k' b' hk' => ?_⟩
        rcases get_cases hk' with h1 | ⟨_, h1⟩
        · exact hmin k' b' h1
        · cases h1
    | some e =>
      cases hb : es.foldl keepBest none with
      | none =>
        have hnone := ih1.1 hb
        simp only [keepBest]
        refine ⟨by simpa using ⟨es.length, e.1, e.2, get_new⟩, ?_⟩
        rintro b h
        obtain rfl := Option.some.inj h
        refine ⟨es.length, get_new, fun k' b' hk' => ?_⟩
        rcases get_cases hk' with h1 | ⟨h0, h1⟩
        · exact absurd h1 (hnone _ _)
        · obtain rfl := Option.some.inj h1
          exact ⟨le_rfl, fun _ => h0.ge⟩
      | some b0 =>
        obtain ⟨k, hk, hmin⟩ := ih2 b0 hb
        simp only [keepBest]
        refine ⟨?_, ?_⟩
        · constructor
          · intro h; split at h <;> cases h
          · intro h; exact absurd get_new (h _ _)
        · intro b h
          split at h
          · rename_i hlt
            obtain rfl := Option.some.inj h
            refine ⟨es.length, get_new, fun k' b' hk' => ?_⟩
            rcases get_cases hk' with h1 | ⟨h0, h1⟩
            · have := (hmin k' b' h1).1
              exact ⟨(hlt.trans_le this).le, fun he => absurd (he ▸ hlt.trans_le this) (lt_irrefl _)⟩
            · obtain rfl := Option.some.inj h1
              exact ⟨le_rfl, fun _ => h0.ge⟩
          · rename_i hlt
            obtain rfl := Option.some.inj h
            refine ⟨k, by rw [get_old (lt_of hk)]; exact hk, fun k' b' hk' => ?_⟩
            rcases get_cases hk' with h1 | ⟨h0, h1⟩
            · exact hmin k' b' h1
            · obtain rfl := Option.some.inj h1
              exact ⟨not_lt.1 hlt, fun _ => h0 ▸ (lt_of hk).le⟩

end best

theorem foldlM_ok {α σ : Type} {f : σ → α → Py σ} {g : σ → α → σ} (l : List α) (h : ∀ s, ∀ a ∈ l, f s a = .ok (g s a)) (s : σ) :
    l.foldlM f s = .ok (l.foldl g s) := by
  induction l generalizing s with
  | nil => rfl
  | cons a as ih =>
    rw [List.foldlM_cons, h s a (by simp), Py.ok_bind, List.foldl_cons]
    exact ih (fun s b hb => h s b (by simp [hb])) _

theorem foldl_keepBest_map {α β : Type} [LinearOrder K] (l : List α) (e : α → Option (K × β)) (s : Option (K × β)) :
    l.foldl (fun s a => keepBest s (e a)) s = (l.map e).foldl keepBest s := by
  rw [List.foldl_map]

end PyPDP
