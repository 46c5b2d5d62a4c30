/-
C135: best elements among machine numbers, with nan.
-/
import Verif.Model.MachineBest
import Verif.Props.Machine
import Verif.Props.Sampler

namespace PyPDP
open Spec
variable {F : Type}

/-- `a` is at least as good as `b` -/
def AsGood [Machine F] (minimize : Bool) (a b : F) : Bool := if minimize then Machine.le a b else Machine.le b a

/-- `a` is strictly better than `b` -/
def BetterM [Machine F] (minimize : Bool) (a b : F) : Bool := if minimize then Machine.lt a b else Machine.lt b a

section laws
variable [Machine F] (H : Comparable F) (minimize : Bool)
include H

theorem asGood_trans {a b c : F} (h1 : AsGood minimize a b = true) (h2 : AsGood minimize b c = true) : AsGood minimize a c = true := by
  cases minimize
  · exact H.trans _ _ _ h2 h1
  · exact H.trans _ _ _ h1 h2

theorem asGood_num {a b : F} (h : AsGood minimize a b = true) : IsNum a ∧ IsNum b := by
  cases minimize
  · exact (H.num_of_le _ _ h).symm
  · exact H.num_of_le _ _ h

omit H in
theorem asGood_refl {a : F} (h : IsNum a) : AsGood minimize a a = true := by
  cases minimize <;> exact h

theorem betterM_iff {a b : F} : BetterM minimize a b = true ↔ IsNum a ∧ IsNum b ∧ AsGood minimize b a = false := by
  cases minimize
  · rw [BetterM, if_neg (by simp), H.lt_iff]
    simp only [AsGood, Bool.false_eq_true, if_false]
    tauto
  · rw [BetterM, if_pos rfl, H.lt_iff]
    simp only [AsGood, if_true]

theorem asGood_total {a b : F} (ha : IsNum a) (hb : IsNum b) : AsGood minimize a b = true ∨ AsGood minimize b a = true := by
  cases minimize
  · exact H.total b a hb ha
  · exact H.total a b ha hb

theorem betterM_asGood {a b : F} (h : BetterM minimize a b = true) : AsGood minimize a b = true := by
  obtain ⟨ha, hb, hn⟩ := (betterM_iff H minimize).1 h
  exact (asGood_total H minimize ha hb).resolve_right (by simp [hn])

/-- what the position found by the loop is: the first nan, or else the first best -/
def BestOrNan (minimize : Bool) (ys : List F) (i : Nat) : Prop :=
  ∃ v, ys[i]? = some v ∧ (¬ IsNum v ∨ ∀ w ∈ ys, AsGood minimize v w = true) ∧
    ∀ j < i, ∀ w, ys[j]? = some w → IsNum w ∧ (IsNum v → BetterM minimize v w = true)

theorem argBestFromM_spec (vs : List F) : ∀ (pre : List F) (bi : Nat) (bv : F), BestOrNan minimize pre bi → pre[bi]? = some bv →
    BestOrNan minimize (pre ++ vs) (argBestFromM minimize bi bv pre.length vs) := by
  induction vs with
  | nil => intro pre bi bv h _; simpa [argBestFromM] using h
  | cons v vs ih =>
    intro pre bi bv h hb
    obtain ⟨v0, h1, h2, h3⟩ := h
    obtain rfl : v0 = bv := by rw [hb] at h1; exact (Option.some.inj h1).symm
    have hlt := (List.getElem?_eq_some_iff.1 hb).1
    have hpre : pre ++ v :: vs = (pre ++ [v]) ++ vs := by simp
    have hlen : pre.length + 1 = (pre ++ [v]).length := by simp
    rw [argBestFromM]
    by_cases hn : IsNum v0
    · have hn' : machineNan v0 = false := by unfold machineNan; unfold IsNum at hn; simp [hn]
      rw [hn', if_neg (by simp)]
      have hall : ∀ w ∈ pre, AsGood minimize v0 w = true := h2.resolve_left (by simp [hn])
      change BestOrNan minimize _ (if AsGood minimize v0 v = true then _ else _)
      split
      · rename_i hg
        rw [hpre, hlen]
        refine ih (pre ++ [v]) bi v0 ⟨v0, by rw [List.getElem?_append_left hlt, hb], .inr ?_, ?_⟩ (by rw [List.getElem?_append_left hlt, hb])
        · intro w hw
          rcases List.mem_append.1 hw with hw | hw
          · exact hall w hw
          · rw [List.mem_singleton.1 hw]; exact hg
        · intro j hj w hw
          rw [List.getElem?_append_left (by omega)] at hw
          exact h3 j hj w hw
      · rename_i hg
        have hat : (pre ++ [v])[pre.length]? = some v := by simp
        rw [hpre, hlen]
        refine ih (pre ++ [v]) pre.length v ⟨v, hat, ?_, ?_⟩ hat
        · by_cases hv : IsNum v
          · right
            intro w hw
            have hvb : AsGood minimize v v0 = true := (asGood_total H minimize hn hv).resolve_left hg
            rcases List.mem_append.1 hw with hw | hw
            · exact asGood_trans H minimize hvb (hall w hw)
            · rw [List.mem_singleton.1 hw]; exact asGood_refl minimize hv
          · exact .inl hv
        · intro j hj w hw
          rw [List.getElem?_append_left hj] at hw
          have hw' := hall w (List.mem_of_getElem? hw)
          refine ⟨(asGood_num H minimize hw').2, fun hv => (betterM_iff H minimize).2 ⟨hv, (asGood_num H minimize hw').2, ?_⟩⟩
          by_contra hc
          exact hg (asGood_trans H minimize hw' (by simpa using hc))
    · have hn' : machineNan v0 = true := by unfold machineNan; unfold IsNum at hn; simpa using hn
      rw [hn', if_pos rfl]
      refine ⟨v0, by rw [List.getElem?_append_left hlt, hb], .inl hn, ?_⟩
      intro j hj w hw
      rw [List.getElem?_append_left (by omega)] at hw
      exact ⟨(h3 j hj w hw).1, fun h => absurd h hn⟩

theorem bestIndexM_spec {ys : List F} (hne : ys ≠ []) : ∃ i, bestIndexM minimize ys = .ok i ∧ BestOrNan minimize ys i := by
  cases ys with
  | nil => exact absurd rfl hne
  | cons v vs =>
    refine ⟨_, rfl, ?_⟩
    have := argBestFromM_spec H minimize vs [v] 0 v ⟨v, rfl, ?_, by omega⟩ rfl
    · simpa using this
    · by_cases hv : IsNum v
      · right; intro w hw; rw [List.mem_singleton.1 hw]; exact asGood_refl minimize hv
      · exact .inl hv

/-- **C135** whatever the arithmetic: without a nan among the values, the incumbent is the first best of the points; with one, it is the
first point whose value is nan. -/
theorem C135_incumbent {C X : Type} (s : SamplerState C F X) (hlen : s.configs.length = s.ys.length) (hne : s.ys ≠ []) :
    ∃ (i : Nat) (c : C) (v : F), incumbentM minimize s = .ok (some c, some v) ∧ s.configs[i]? = some c ∧ s.ys[i]? = some v ∧
      ((∀ w ∈ s.ys, IsNum w) → (∀ w ∈ s.ys, AsGood minimize v w = true) ∧ ∀ j < i, ∀ w, s.ys[j]? = some w → BetterM minimize v w = true) ∧
      ((∃ w ∈ s.ys, ¬ IsNum w) → ¬ IsNum v ∧ ∀ j < i, ∀ w, s.ys[j]? = some w → IsNum w) := by
  obtain ⟨i, hi, v, h1, h2, h3⟩ := bestIndexM_spec H minimize hne
  have hlt := (List.getElem?_eq_some_iff.1 h1).1
  have hc : s.configs[i]? = some (s.configs[i]'(by omega)) := List.getElem?_eq_getElem _
  refine ⟨i, _, v, ?_, hc, h1, ?_, ?_⟩
  · unfold incumbentM
    rw [if_neg (by simpa using hne), hi, Py.ok_bind]
    simp [pyGet, hc, h1]
  · intro hall
    have hv := hall v (List.mem_of_getElem? h1)
    exact ⟨h2.resolve_left (by simp [hv]), fun j hj w hw => (h3 j hj w hw).2 hv⟩
  · rintro ⟨w, hw, hwn⟩
    refine ⟨?_, fun j hj w' hw' => (h3 j hj w' hw').1⟩
    rcases h2 with h2 | h2
    · exact h2
    · exact absurd (asGood_num H minimize (h2 w hw)).2 hwn

/-- **C135** one nan among the values, and the incumbent's value is nan from then on: no number sampled later, however good, replaces it, and
the incumbent configuration stays the same. -/
theorem C135_poisoned {C X : Type} (s : SamplerState C F X) (hlen : s.configs.length = s.ys.length) (hn : ∃ w ∈ s.ys, ¬ IsNum w)
    (new : List (C × F)) :
    ∃ c v, ¬ IsNum v ∧ incumbentM minimize s = .ok (some c, some v) ∧
      incumbentM minimize { s with configs := s.configs ++ new.map Prod.fst, ys := s.ys ++ new.map Prod.snd } = .ok (some c, some v) := by
  have hne : s.ys ≠ [] := by obtain ⟨w, hw, -⟩ := hn; exact List.ne_nil_of_mem hw
  obtain ⟨i, c, v, e1, e2, e3, -, e4⟩ := C135_incumbent H minimize s hlen hne
  obtain ⟨s', hs'⟩ : ∃ s' : SamplerState C F X, s' = { s with configs := s.configs ++ new.map Prod.fst, ys := s.ys ++ new.map Prod.snd } :=
    ⟨_, rfl⟩
  obtain ⟨j, c', v', f1, f2, f3, -, f4⟩ := C135_incumbent H minimize s' (by rw [hs']; simp [hlen]) (by rw [hs']; simp [hne])
  obtain ⟨hv, hb⟩ := e4 hn
  obtain ⟨hv', hb'⟩ := f4 (by
    obtain ⟨w, hw, hwn⟩ := hn
    exact ⟨w, by rw [hs']; exact List.mem_append_left _ hw, hwn⟩)
  have hi := (List.getElem?_eq_some_iff.1 e3).1
  have hys : s'.ys[i]? = some v := by rw [hs']; simp only; rw [List.getElem?_append_left hi, e3]
  have hij : i = j := by
    rcases Nat.lt_trichotomy i j with h | h | h
    · exact absurd (hb' i h v hys) hv
    · exact h
    · have : s.ys[j]? = some v' := by
        rw [hs'] at f3; simp only at f3; rwa [List.getElem?_append_left (by omega)] at f3
      exact absurd (hb j h v' this) hv'
  subst hij
  rw [hys] at f3
  obtain rfl := Option.some.inj f3
  have hcc : s'.configs[i]? = some c := by rw [hs']; simp only; rw [List.getElem?_append_left (by omega), e2]
  rw [hcc] at f2
  obtain rfl := Option.some.inj f2
  exact ⟨c, v, hv, e1, by rw [← hs']; exact f1⟩

theorem pyBestByM_spec {α : Type} (key : α → F) (a : α) (as : List α) :
    ∃ (i : Nat) (x : α), pyBestByM minimize key (a :: as) = .ok x ∧ (a :: as)[i]? = some x ∧
      (¬ IsNum (key a) → i = 0) ∧
      (IsNum (key a) → IsNum (key x) ∧ (∀ y ∈ a :: as, IsNum (key y) → AsGood minimize (key x) (key y) = true) ∧
        ∀ j < i, ∀ y, (a :: as)[j]? = some y → IsNum (key y) → BetterM minimize (key x) (key y) = true) := by
  have step : ∀ best x, (if (if minimize then Machine.lt (key x) (key best) else Machine.lt (key best) (key x)) = true then x else best) =
      if BetterM minimize (key x) (key best) = true then x else best := fun _ _ => rfl
  unfold pyBestByM
  simp only [step]
  suffices ∀ (l pre : List α) (b : α) (k : Nat), pre[k]? = some b →
      (¬ IsNum (key a) → k = 0 ∧ pre[0]? = some a) →
      (IsNum (key a) → IsNum (key b) ∧ (∀ y ∈ pre, IsNum (key y) → AsGood minimize (key b) (key y) = true) ∧
        ∀ j < k, ∀ y, pre[j]? = some y → IsNum (key y) → BetterM minimize (key b) (key y) = true) →
      ∃ (i : Nat) (x : α), l.foldl (fun best x => if BetterM minimize (key x) (key best) = true then x else best) b = x ∧ (pre ++ l)[i]? = some x ∧
        (¬ IsNum (key a) → i = 0) ∧
        (IsNum (key a) → IsNum (key x) ∧ (∀ y ∈ pre ++ l, IsNum (key y) → AsGood minimize (key x) (key y) = true) ∧
          ∀ j < i, ∀ y, (pre ++ l)[j]? = some y → IsNum (key y) → BetterM minimize (key x) (key y) = true) by
    obtain ⟨i, x, h1, h2, h3, h4⟩ := this as [a] a 0 rfl (fun _ => ⟨rfl, rfl⟩) (fun ha => ⟨ha, by
      intro y hy _; rw [List.mem_singleton.1 hy]; exact asGood_refl minimize ha, by omega⟩)
    exact ⟨i, x, by rw [h1], h2, h3, h4⟩
  intro l
  induction l with
  | nil =>
    intro pre b k hk h1 h2
    exact ⟨k, b, rfl, by simpa using hk, fun h => (h1 h).1, fun h => by simpa using h2 h⟩
  | cons y l ih =>
    intro pre b k hk h1 h2
    have hklt := (List.getElem?_eq_some_iff.1 hk).1
    rw [List.foldl_cons]
    have hpre : pre ++ y :: l = (pre ++ [y]) ++ l := by simp
    rw [hpre]
    split
    · rename_i hb
      obtain ⟨hy, hbn, hnot⟩ := (betterM_iff H minimize).1 hb
      have hka : IsNum (key a) := by
        by_contra hna
        obtain ⟨rfl, h0⟩ := h1 hna
        rw [hk] at h0
        obtain rfl := Option.some.inj h0
        exact hna hbn
      refine ih (pre ++ [y]) y pre.length (by simp) (fun h => absurd hka h) (fun _ => ?_)
      obtain ⟨-, g2, g3⟩ := h2 hka
      refine ⟨hy, ?_, ?_⟩
      · intro z hz hzn
        rcases List.mem_append.1 hz with hz | hz
        · exact asGood_trans H minimize (betterM_asGood H minimize hb) (g2 z hz hzn)
        · rw [List.mem_singleton.1 hz]; exact asGood_refl minimize hy
      · intro j hj z hz hzn
        rw [List.getElem?_append_left hj] at hz
        refine (betterM_iff H minimize).2 ⟨hy, hzn, ?_⟩
        by_contra hc
        have := asGood_trans H minimize (g2 z (List.mem_of_getElem? hz) hzn) (by simpa using hc)
        rw [this] at hnot
        cases hnot
    · rename_i hb
      refine ih (pre ++ [y]) b k (by rw [List.getElem?_append_left hklt, hk]) ?_ ?_
      · intro hna
        obtain ⟨rfl, h0⟩ := h1 hna
        exact ⟨rfl, by rw [List.getElem?_append_left hklt, h0]⟩
      · intro hka
        obtain ⟨g1, g2, g3⟩ := h2 hka
        refine ⟨g1, ?_, ?_⟩
        · intro z hz hzn
          rcases List.mem_append.1 hz with hz | hz
          · exact g2 z hz hzn
          · rw [List.mem_singleton.1 hz] at hzn ⊢
            by_contra hc
            exact hb ((betterM_iff H minimize).2 ⟨hzn, g1, by simpa using hc⟩)
        · intro j hj z hz
          rw [List.getElem?_append_left (by omega)] at hz
          exact g3 j hj z hz

/-- **C135** `get_optimum` (two or more candidates): if the value of the first candidate is nan, the first candidate is returned, whatever
the others are; otherwise the first best of the candidates whose value is a number. -/
theorem C135_optimum {C S : Type} (names : List String) (d : Drawer C S) {n : Int} (hn : 2 ≤ n) (value : C → F) (rng : S) :
    ∃ (i : Nat) (c : C), (getOptimumM names d n value rng).2 = .ok (.config c) ∧ (d.draw rng n.toNat).1[i]? = some c ∧
      (∀ c₀, (d.draw rng n.toNat).1[0]? = some c₀ →
        (¬ IsNum (value c₀) → c = c₀) ∧
        (IsNum (value c₀) → IsNum (value c) ∧
          (∀ y ∈ (d.draw rng n.toNat).1, IsNum (value y) → Machine.le (value y) (value c) = true) ∧
          ∀ j < i, ∀ y, (d.draw rng n.toNat).1[j]? = some y → IsNum (value y) → Machine.lt (value y) (value c) = true)) := by
  have hl := d.draw_length rng n.toNat
  have hsc : d.sampleConfiguration rng n = (.many (d.draw rng n.toNat).1, (d.draw rng n.toNat).2) := by
    unfold Drawer.sampleConfiguration
    rw [if_neg (by omega)]
    simp only
    rw [if_neg (by omega)]
  unfold getOptimumM
  rw [hsc]
  dsimp only
  generalize (d.draw rng n.toNat).1 = l at hl
  cases l with
  | nil => simp at hl; omega
  | cons a as =>
    obtain ⟨i, x, h1, h2, h3, h4⟩ := pyBestByM_spec H false (fun p : Picked C × F => p.2) (Picked.config a, value a)
      (as.map fun c => (Picked.config c, value c))
    rw [← List.map_cons (f := fun c => (Picked.config c, value c)), List.getElem?_map] at h2
    obtain ⟨c, hc, rfl⟩ := Option.map_eq_some_iff.1 h2
    refine ⟨i, c, ?_, hc, fun c₀ hc₀ => ?_⟩
    · simp only [pickMaxM, List.map_cons]
      rw [h1]
      rfl
    · simp only [List.getElem?_cons_zero, Option.some.injEq] at hc₀
      subst hc₀
      refine ⟨fun hna => ?_, fun ha => ?_⟩
      · obtain rfl := h3 hna
        simpa using hc.symm
      · obtain ⟨g1, g2, g3⟩ := h4 ha
        refine ⟨g1, fun y hy hyn => ?_, fun j hj y hy hyn => ?_⟩
        · exact g2 (Picked.config y, value y) (by
            rw [← List.map_cons (f := fun c => (Picked.config c, value c))]
            exact List.mem_map_of_mem (f := fun c => (Picked.config c, value c)) hy) hyn
        · exact g3 j hj (Picked.config y, value y) (by
            rw [← List.map_cons (f := fun c => (Picked.config c, value c)), List.getElem?_map, hy]; rfl) hyn

/-- **C135** the same of `get_incumbent`. -/
theorem C135_surrogate_incumbent {C : Type} (c₀ : C) (v₀ : F) (configs : List C) (values : List F) :
    ∃ (i : Nat) (p : C × F), pickIncumbentM minimize (c₀ :: configs) (v₀ :: values) = .ok p ∧
      (c₀ :: configs)[i]? = some p.1 ∧ (v₀ :: values)[i]? = some p.2 ∧
      (¬ IsNum v₀ → i = 0) ∧
      (IsNum v₀ → IsNum p.2 ∧ (∀ (j : Nat) c w, (c₀ :: configs)[j]? = some c → (v₀ :: values)[j]? = some w → IsNum w →
        AsGood minimize p.2 w = true ∧ (j < i → BetterM minimize p.2 w = true))) := by
  obtain ⟨i, p, h1, h2, h3, h4⟩ := pyBestByM_spec H minimize (fun p : C × F => p.2) (c₀, v₀) (configs.zip values)
  rw [← List.zip_cons_cons] at h2
  obtain ⟨e1, e2⟩ := List.getElem?_zip_eq_some.1 h2
  refine ⟨i, p, by rw [pickIncumbentM, List.zip_cons_cons, h1], e1, e2, h3, fun hv => ?_⟩
  obtain ⟨g1, g2, g3⟩ := h4 hv
  refine ⟨g1, fun j c w hc hw hwn => ⟨?_, fun hj => ?_⟩⟩
  · refine g2 (c, w) ?_ hwn
    rw [← List.zip_cons_cons]
    exact List.mem_of_getElem? (List.getElem?_zip_eq_some.2 ⟨hc, hw⟩)
  · refine g3 j hj (c, w) ?_ hwn
    rw [← List.zip_cons_cons]
    exact List.getElem?_zip_eq_some.2 ⟨hc, hw⟩

end laws

/-! ### the exact models are an instance -/

section exact
variable {K : Type} [Field K] [LinearOrder K] [Transc K]

theorem argBest_exact (minimize : Bool) (vs : List K) : ∀ (bi : Nat) (bv : K) (i : Nat),
    @argBestFromM K (exactMachine K) minimize bi bv i vs = if minimize then argminFrom bi bv i vs else argmaxFrom bi bv i vs := by
  let _ := exactMachine K
  induction vs with
  | nil => intro bi bv i; cases minimize <;> rfl
  | cons v vs ih =>
    intro bi bv i
    have h0 : @machineNan K (exactMachine K) bv = false := by simp [machineNan, Machine.le]
    rw [argBestFromM, h0, if_neg (by simp), ih, ih]
    cases minimize
    · simp only [Bool.false_eq_true, if_false, Machine.le, decide_eq_true_eq, argmaxFrom]
      by_cases h : bv < v
      · rw [if_neg (not_le.2 h), if_pos h]
      · rw [if_pos (not_lt.1 h), if_neg h]
    · simp only [if_true, Machine.le, decide_eq_true_eq, argminFrom]
      by_cases h : v < bv
      · rw [if_neg (not_le.2 h), if_pos h]
      · rw [if_pos (not_lt.1 h), if_neg h]

/-- **C135** the exact incumbent, `get_optimum` and `get_incumbent` are those of the machine with exact arithmetic. -/
theorem C135_exact {C X S : Type} (minimize : Bool) (s : SamplerState C K X) (names : List String) (d : Drawer C S) (n : Int)
    (value : C → K) (rng : S) (predict : Predict K) (l : List (Config K)) :
    @incumbentM K (exactMachine K) C X minimize s = incumbent minimize s ∧
    @getOptimumM K (exactMachine K) C S names d n value rng = getOptimum names d n value rng ∧
    getIncumbent predict minimize (.many l) = (do
      match ← surrogateCall predict (.configs l) with
      | .scalar _ => .error .type
      | .list values => @pickIncumbentM K (exactMachine K) _ minimize l values) := by
  let _ := exactMachine K
  have hb : ∀ {α : Type} (key : α → K) (l : List α),
      @pyBestByM K (exactMachine K) α minimize key l = if minimize then pyMinBy key l else pyMaxBy key l := by
    intro α key l
    cases l <;> cases minimize <;> simp [pyBestByM, pyMinBy, pyMaxBy, Machine.lt]
  have hb' : ∀ {α : Type} (key : α → K) (l : List α), @pyBestByM K (exactMachine K) α false key l = pyMaxBy key l := by
    intro α key l
    cases l <;> simp [pyBestByM, pyMaxBy, Machine.lt]
  refine ⟨?_, ?_, ?_⟩
  · unfold incumbentM incumbent
    have : @bestIndexM K (exactMachine K) minimize s.ys = bestIndex minimize s.ys := by
      cases s.ys with
      | nil => cases minimize <;> rfl
      | cons v vs =>
        rw [bestIndexM, argBest_exact]
        cases minimize <;> rfl
    rw [this]
  · unfold getOptimumM getOptimum
    have : ∀ dr : Draws C, @pickMaxM K (exactMachine K) C names value dr = pickMax names value dr := by
      intro dr
      cases dr <;> exact hb' _ _
    simp only [this]
  · unfold getIncumbent pickIncumbentM
    simp only [hb]
    cases surrogateCall predict (.configs l) with
    | error e => rfl
    | ok out => cases out <;> rfl

end exact

/-! ### concrete cases -/

section example_
attribute [local instance] tenthMachine

private def nanSampler : SamplerState Nat Tenth Unit where
  configs := [7, 8, 9]
  ys := [.num 30, .nan, .num 20]
  cache := []
  calls := 3
  extra := ()

/-- the second point has the value nan: it is the incumbent, although the third has the smallest number -/
example : incumbentM true nanSampler = .ok (some 8, some .nan) := by decide +kernel

/-- nor does a much better fourth point change that -/
example : incumbentM true { nanSampler with configs := [7, 8, 9] ++ [10], ys := nanSampler.ys ++ [.num (-500)] } =
    .ok (some 8, some .nan) := by
  obtain ⟨c, v, -, h1, h2⟩ := C135_poisoned tenth_comparable true nanSampler rfl ⟨.nan, by simp [nanSampler], by simp [IsNum, Machine.le]⟩
    [(10, .num (-500))]
  exact h2.trans (h1.symm.trans (by decide +kernel))

/-- without the nan, the first of the smallest -/
example : incumbentM true { nanSampler with ys := [.num 30, .num 20, .num 20] } = .ok (some 8, some (.num 20)) := by decide +kernel

/-- **C135** the builtin `max` is not the numpy maximum: the same values, with the nan first, or second -/
theorem C135_position_matters :
    pickIncumbentM true [7, 8, 9] [Tenth.nan, .num 30, .num 20] = .ok (7, .nan) ∧
    pickIncumbentM true [7, 8, 9] [Tenth.num 30, .nan, .num 20] = .ok (9, .num 20) ∧
    bestIndexM true [Tenth.num 30, .nan, .num 20] = .ok 1 := by decide +kernel

end example_

end PyPDP
