/-
Functions on an axis: C73 (plot_function).
-/
import Verif.Lemmas.Plot
import Verif.Props.Selection

namespace PyPDP
open Spec

section C73

theorem parametersOf_eq {K : Type} (cs : ConfigSpace K) : parametersOf cs = varying cs := by
  unfold parametersOf varying
  congr 1
  funext hp
  unfold Hp.constant?
  cases hp.kind <;> rfl

theorem constantsOf_spec {K : Type} (cs : ConfigSpace K) : ConstantsOf cs (constantsOf cs) := by
  constructor
  · unfold constantsOf
    induction cs with
    | nil => exact .slnil
    | cons hp cs ih =>
      rcases h : hp.constant? with _ | v
      · rw [List.filterMap_cons_none (by simp [h])]
        exact ih.cons _
      · rw [List.filterMap_cons_some (b := (hp.name, v)) (by simp [h])]
        exact ih.cons_cons _
  · intro name v
    unfold constantsOf
    rw [List.mem_filterMap]
    constructor
    · rintro ⟨⟨n, k⟩, hm, h⟩
      cases k <;> simp [Hp.constant?] at h
      obtain ⟨rfl, rfl⟩ := h
      exact hm
    · intro h
      exact ⟨_, h, rfl⟩

theorem mapM_pair_ok {f : ℝ × ℝ → Py ℝ} {Z : ℝ → ℝ → ℝ} {x y : List ℝ} (h : ∀ a ∈ x, ∀ b ∈ y, f (a, b) = .ok (Z a b)) :
    (y.flatMap fun b => x.map fun a => (a, b)).mapM f = .ok (y.flatMap fun b => x.map fun a => Z a b) := by
  rw [Py.mapM_eq_ok]
  induction y with
  | nil => exact .nil
  | cons b y ih =>
    rw [List.flatMap_cons, List.flatMap_cons]
    refine List.rel_append ?_ (ih fun a ha b hb => h a ha b (by simp [hb]))
    rw [List.forall₂_map_left_iff, List.forall₂_map_right_iff, List.forall₂_same]
    exact fun a ha => h a ha b (by simp)

theorem reshape2_rows {α β : Type} (f : β → List α) (n : Nat) {y : List β} (h : ∀ b ∈ y, (f b).length = n) :
    reshape2 y.length n (y.flatMap f) = .ok (y.map f) := by
  have hlen : (y.flatMap f).length = y.length * n := by
    induction y with
    | nil => simp
    | cons b y ih => rw [List.flatMap_cons, List.length_append, ih fun b hb => h b (by simp [hb]), h b (by simp), List.length_cons]; ring
  unfold reshape2
  rw [if_pos hlen]
  congr 1
  clear hlen
  induction y with
  | nil => rfl
  | cons b y ih =>
    rw [List.length_cons, List.range_succ_eq_map, List.map_cons, List.map_map, List.map_cons]
    have hb := h b (by simp)
    congr 1
    · rw [List.flatMap_cons, zero_mul, List.drop_zero, List.take_append_of_le_length hb.ge, List.take_of_length_le hb.le]
    · rw [← ih fun b hb => h b (by simp [hb])]
      refine List.map_congr_left fun r _ => ?_
      simp only [Function.comp]
      rw [List.flatMap_cons, List.drop_append, hb, List.drop_of_length_le (by rw [hb, Nat.succ_mul]; omega), List.nil_append]
      congr 2
      rw [Nat.succ_mul]; omega

/-- the ranges of numerical hyperparameters -/
theorem ranges_even {hps : List (Hp ℝ)} (h : ∀ hp ∈ hps, ∃ l u g, ValidNumerical hp l u g) {n : Nat} (hn : 2 ≤ n) :
    ∃ rows, getUniformDistributedRanges hps n false = .ok rows ∧
      List.Forall₂ (fun hp row => ∃ l u g, ValidNumerical hp l u g ∧ EvenAxis l u g n row) hps rows := (C07_ranges h hn).1

/-- the first exception of a loop is its result -/
private theorem mapM_some_error {α β : Type} {f : α → Py β} {l : List α} (hex : ∃ a ∈ l, ∃ e, f a = .error e) :
    ∃ a ∈ l, ∃ e, f a = .error e ∧ l.mapM f = .error e := by
  induction l with
  | nil => obtain ⟨a, ha, -⟩ := hex; cases ha
  | cons a xs ih =>
    rw [List.mapM_cons]
    rcases hfa : f a with e | v
    · exact ⟨a, by simp, e, hfa, rfl⟩
    · obtain ⟨b, hb, e, he, hm⟩ := ih (by
        obtain ⟨b, hb, e, he⟩ := hex
        rcases List.mem_cons.1 hb with rfl | hb
        · rw [hfa] at he; cases he
        · exact ⟨b, hb, e, he⟩)
      exact ⟨b, by simp [hb], e, he, by rw [Py.ok_bind, hm]; rfl⟩

/-- **C73** with one non-constant hyperparameter: the function is evaluated at the `n` points of the axis, with all constants, and
the line pairs every point with its own value. If the function raises, the exception propagates and nothing is drawn. -/
theorem C73_one {cs : ConfigSpace ℝ} {p : Hp ℝ} (hcs : varying cs = [p]) {l u : ℝ} {g : Bool} (hp : ValidNumerical p l u g) {n : Nat}
    (hn : 2 ≤ n) (f : List (String × Val ℝ) → Py ℝ) (color : String) {ax ax' : Ax ℝ} (hax : checkAndSetAxis [p] true "Prediction" ax = (ax', .ok ())) :
    ∃ (xs : List ℝ) (consts : List (String × Val ℝ)), EvenAxis l u g n xs ∧ ConstantsOf cs consts ∧
      (∀ Y : ℝ → ℝ, (∀ a ∈ xs, f ((p.name, .num a) :: consts) = .ok (Y a)) →
        plotFunction f cs n color ax = (ax'.draw [.line color xs (xs.map Y)], .ok ())) ∧
      ((∃ a ∈ xs, ∃ e, f ((p.name, .num a) :: consts) = .error e) →
        ∃ a ∈ xs, ∃ e, f ((p.name, .num a) :: consts) = .error e ∧ plotFunction f cs n color ax = (ax', .error e)) := by
  obtain ⟨rows, hr, hrows⟩ := ranges_even (hps := [p]) (by
    intro hp' hm
    rw [List.mem_singleton.1 hm]
    exact ⟨l, u, g, hp⟩) hn
  obtain ⟨xs, rfl⟩ : ∃ xs, rows = [xs] := by
    cases hrows with
    | cons h hs => cases hs; exact ⟨_, rfl⟩
  obtain ⟨l', u', g', hp', hev⟩ : ∃ l' u' g', ValidNumerical p l' u' g' ∧ EvenAxis l' u' g' n xs := by
    cases hrows with
    | cons h hs => exact h
  have hsame : l' = l ∧ u' = u ∧ g' = g := by
    rcases hp.1 with h | h <;> rcases hp'.1 with h' | h' <;> rw [h] at h' <;> simp_all
  obtain ⟨rfl, rfl, rfl⟩ := hsame
  have hpar : parametersOf cs = [p] := by rw [parametersOf_eq, hcs]
  refine ⟨xs, constantsOf cs, hev, constantsOf_spec cs, ?_, ?_⟩
  · intro Y hY
    have hmap : xs.mapM (fun t => f ((p.name, .num t) :: constantsOf cs)) = .ok (xs.map Y) := by
      rw [Py.mapM_eq_ok, List.forall₂_map_right_iff, List.forall₂_same]; exact hY
    unfold plotFunction
    rw [hpar, if_neg (by simp), if_neg (by simp), hr, Plot.lift_bind_ok, Plot.bind_ok hax]
    simp only [plotValues]
    rw [show pyGet [xs] 0 = .ok xs from rfl, Plot.lift_bind_ok, hmap, Plot.lift_bind_ok]
    unfold drawLine
    rw [if_pos ⟨zero_le_one, le_refl _, by simp⟩, Plot.add_eq]
  · intro hex
    have hmap : ∃ a ∈ xs, ∃ e, f ((p.name, .num a) :: constantsOf cs) = .error e ∧ xs.mapM (fun t => f ((p.name, .num t) :: constantsOf cs)) = .error e := by
      clear hev hrows hr
      induction xs with
      | nil => obtain ⟨a, ha, -⟩ := hex; cases ha
      | cons a xs ih =>
        rw [List.mapM_cons]
        rcases hfa : f ((p.name, .num a) :: constantsOf cs) with e | v
        · exact ⟨a, by simp, e, hfa, rfl⟩
        · obtain ⟨b, hb, e, he, hm⟩ := ih (by
            obtain ⟨b, hb, e, he⟩ := hex
            rcases List.mem_cons.1 hb with rfl | hb
            · rw [hfa] at he; cases he
            · exact ⟨b, hb, e, he⟩)
          exact ⟨b, by simp [hb], e, he, by rw [Py.ok_bind, hm]; rfl⟩
    obtain ⟨a, ha, e, he, hm⟩ := hmap
    refine ⟨a, ha, e, he, ?_⟩
    unfold plotFunction
    rw [hpar, if_neg (by simp), if_neg (by simp), hr, Plot.lift_bind_ok, Plot.bind_ok hax]
    simp only [plotValues]
    rw [show pyGet [xs] 0 = .ok xs from rfl, Plot.lift_bind_ok, hm, Plot.lift_bind_error]

/-- **C73** with two non-constant hyperparameters: the function is evaluated at every combination of the points of the two axes, with
all constants; the value in row `r`, column `c` of the mesh belongs to the `c`-th value of the first and the `r`-th value of the
second hyperparameter. -/
theorem C73_two {cs : ConfigSpace ℝ} {p q : Hp ℝ} (hcs : varying cs = [p, q]) {l u l' u' : ℝ} {g g' : Bool} (hp : ValidNumerical p l u g)
    (hq : ValidNumerical q l' u' g') {n : Nat} (hn : 2 ≤ n) (f : List (String × Val ℝ) → Py ℝ) (color : String) {ax ax' : Ax ℝ}
    (hax : checkAndSetAxis [p, q] true "Prediction" ax = (ax', .ok ())) :
    ∃ (xs ys : List ℝ) (consts : List (String × Val ℝ)), EvenAxis l u g n xs ∧ EvenAxis l' u' g' n ys ∧ ConstantsOf cs consts ∧
      (∀ Z : ℝ → ℝ → ℝ, (∀ a ∈ xs, ∀ b ∈ ys, f ((p.name, .num a) :: (q.name, .num b) :: consts) = .ok (Z a b)) →
        plotFunction f cs n color ax = (ax'.draw [.mesh xs ys (ys.map fun b => xs.map fun a => Z a b)], .ok ()))  ∧
      ((∃ a ∈ xs, ∃ b ∈ ys, ∃ e, f ((p.name, .num a) :: (q.name, .num b) :: consts) = .error e) →
        ∃ a ∈ xs, ∃ b ∈ ys, ∃ e, f ((p.name, .num a) :: (q.name, .num b) :: consts) = .error e ∧
          plotFunction f cs n color ax = (ax', .error e)) := by
  obtain ⟨rows, hr, hrows⟩ := ranges_even (hps := [p, q]) (by
    intro hp' hm
    simp only [List.mem_cons, List.not_mem_nil, or_false] at hm
    rcases hm with rfl | rfl
    · exact ⟨_, _, _, hp⟩
    · exact ⟨_, _, _, hq⟩) hn
  obtain ⟨xs, ys, rfl⟩ : ∃ xs ys, rows = [xs, ys] := by
    cases hrows with
    | cons h hs => cases hs with
      | cons h' hs => cases hs; exact ⟨_, _, rfl⟩
  have hkind : ∀ {hp : Hp ℝ} {l u g l' u' g'}, ValidNumerical hp l u g → ValidNumerical hp l' u' g' → l' = l ∧ u' = u ∧ g' = g := by
    intro hp l u g l' u' g' h1 h2
    rcases h1.1 with h | h <;> rcases h2.1 with h' | h' <;> rw [h] at h' <;> simp_all
  have hx : EvenAxis l u g n xs := by
    cases hrows with
    | cons h hs =>
      obtain ⟨l1, u1, g1, h1, h2⟩ := h
      obtain ⟨rfl, rfl, rfl⟩ := hkind hp h1
      exact h2
  have hy : EvenAxis l' u' g' n ys := by
    cases hrows with
    | cons h hs => cases hs with
      | cons h' hs =>
        obtain ⟨l1, u1, g1, h1, h2⟩ := h'
        obtain ⟨rfl, rfl, rfl⟩ := hkind hq h1
        exact h2
  have hpar : parametersOf cs = [p, q] := by rw [parametersOf_eq, hcs]
  refine ⟨xs, ys, constantsOf cs, hx, hy, constantsOf_spec cs, fun Z hZ => ?_, ?_⟩
  · unfold plotFunction
    rw [hpar, if_neg (by simp), if_neg (by simp), hr, Plot.lift_bind_ok, Plot.bind_ok hax]
    simp only [plotValues]
    rw [show pyGet [xs, ys] 0 = .ok xs from rfl, Plot.lift_bind_ok, show pyGet [xs, ys] 1 = .ok ys from rfl, Plot.lift_bind_ok,
      mapM_pair_ok (f := fun ab => f ((p.name, .num ab.1) :: (q.name, .num ab.2) :: constantsOf cs)) hZ, Plot.lift_bind_ok,
      reshape2_rows (fun b => xs.map fun a => Z a b) xs.length (by simp), Plot.lift_bind_ok, Plot.add_eq]
  · rintro ⟨a, ha, b, hb, hex⟩
    obtain ⟨pairs, hpairs⟩ : ∃ pairs : List (ℝ × ℝ), pairs = ys.flatMap fun b => xs.map fun a => (a, b) := ⟨_, rfl⟩
    obtain ⟨t, ht, e, he, hm⟩ := mapM_some_error (l := pairs)
      (f := fun ab => f ((p.name, .num ab.1) :: (q.name, .num ab.2) :: constantsOf cs)) ⟨(a, b), by simp [hpairs, ha, hb], hex⟩
    simp only [hpairs, List.mem_flatMap, List.mem_map] at ht
    obtain ⟨b', hb', a', ha', rfl⟩ := ht
    refine ⟨a', ha', b', hb', e, he, ?_⟩
    unfold plotFunction
    rw [hpar, if_neg (by simp), if_neg (by simp), hr, Plot.lift_bind_ok, Plot.bind_ok hax]
    simp only [plotValues]
    rw [show pyGet [xs, ys] 0 = .ok xs from rfl, Plot.lift_bind_ok, show pyGet [xs, ys] 1 = .ok ys from rfl, Plot.lift_bind_ok,
      ← hpairs, hm, Plot.lift_bind_error]

/-- **C73** no or more than two non-constant hyperparameters: ValueError, the axis is untouched and the function is not needed. -/
theorem C73_count {cs : ConfigSpace ℝ} (h : (varying cs).length = 0 ∨ 2 < (varying cs).length) (f : List (String × Val ℝ) → Py ℝ) (n : Nat)
    (color : String) (ax : Ax ℝ) : plotFunction f cs n color ax = (ax, .error .value) := by
  unfold plotFunction
  rw [parametersOf_eq]
  split
  · rfl
  · rw [if_pos (by omega)]; rfl

/-- **C73** a non-constant hyperparameter that is not numerical: AssertionError, the axis is untouched. -/
theorem C73_kind {cs : ConfigSpace ℝ} (h : OneOrTwo (varying cs)) {p : Hp ℝ} (hp : p ∈ varying cs) (hk : p.numerical? = none)
    (f : List (String × Val ℝ) → Py ℝ) (n : Nat) (color : String) (ax : Ax ℝ) : plotFunction f cs n color ax = (ax, .error .assertion) := by
  have hr : ∀ hps : List (Hp ℝ), p ∈ hps → hps.mapM (uniformRange n false) = .error .assertion := by
    intro hps hm
    induction hps with
    | nil => cases hm
    | cons a as ih =>
      rw [List.mapM_cons]
      rcases hn : a.numerical? with _ | b
      · have : uniformRange n false a = .error .assertion := by simp [uniformRange, hn]
        rw [this]; rfl
      · have hpa : p ∈ as := by
          rcases List.mem_cons.1 hm with rfl | h
          · rw [hk] at hn; cases hn
          · exact h
        have : ∃ row, uniformRange n false a = .ok row := by
          obtain ⟨l, u, g⟩ := b
          unfold uniformRange
          rw [hn]
          cases g <;> exact ⟨_, rfl⟩
        obtain ⟨row, hrow⟩ := this
        rw [hrow, Py.ok_bind, ih hpa]; rfl
  unfold plotFunction
  rw [parametersOf_eq, if_neg (by rcases h with h | h <;> omega), if_neg (by rcases h with h | h <;> omega)]
  unfold getUniformDistributedRanges
  rw [hr _ hp]
  rfl

/-- **C73** an axis that belongs to other hyperparameters is rejected before the function is evaluated. -/
theorem C73_axis {cs : ConfigSpace ℝ} (h : OneOrTwo (varying cs)) (hnum : ∀ hp ∈ varying cs, ∃ l u g, ValidNumerical hp l u g) {n : Nat}
    (hn : 2 ≤ n) {ax ax' : Ax ℝ} {e : PyErr} (hax : checkAndSetAxis (varying cs) true "Prediction" ax = (ax', .error e))
    (f : List (String × Val ℝ) → Py ℝ) (color : String) : plotFunction f cs n color ax = (ax', .error e) := by
  obtain ⟨rows, hr, -⟩ := ranges_even hnum hn
  unfold plotFunction
  rw [parametersOf_eq, if_neg (by rcases h with h | h <;> omega), if_neg (by rcases h with h | h <;> omega), hr, Plot.lift_bind_ok,
    Plot.bind_error hax]

example : plotFunction (fun kw => match kw with
      | [(_, .num a), (_, .num c)] => .ok (a + c)
      | _ => .error .type) [⟨"c", .constant (.num 5)⟩, ⟨"x", .float 0 4 false⟩] 3 "k" Ax.new =
    (⟨"x", "Prediction", false, false, some (0, 4), none, [.line "k" [0, 2, 4] [5, 7, 9]]⟩, .ok ()) := by
  have hr : getUniformDistributedRanges [⟨"x", .float 0 4 false⟩] 3 false = .ok [[0, 2, 4]] := by
    simp [getUniformDistributedRanges, uniformRange, Hp.numerical?, linspace, List.range_succ]
    norm_num
  unfold plotFunction
  rw [show parametersOf [⟨"c", .constant (.num 5)⟩, ⟨"x", .float 0 4 false⟩] = [(⟨"x", .float 0 4 false⟩ : Hp ℝ)] by rfl,
    if_neg (by simp), if_neg (by simp), hr, Plot.lift_bind_ok]
  simp [checkAndSetAxis, Plot.bind_apply, Ax.new, Ax.boundX, Hp.numerical?, plotValues, constantsOf, pyGet, Hp.constant?, drawLine]
  norm_num

end C73
end PyPDP
