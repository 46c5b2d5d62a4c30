/-
C86: Sampler.plot.
-/
import Verif.Spec.Plots
import Verif.Props.Axis
import Verif.Props.Forest
import Verif.Lemmas.Plot
import Mathlib.Data.List.Sort

namespace PyPDP
open Spec
variable {K X : Type}

theorem configNumbers_ok {name : String} {configs : List (Config K)} {xs : List K} (h : ReadsAs name configs xs) :
    configs.mapM (configNumber name) = .ok xs := by
  rw [Py.mapM_eq_ok]
  refine h.imp fun c v hc => ?_
  simp [configNumber, hc, asNumber]

/-- values picked from two lists of the same length at the same positions -/
theorem zip_picked {α β : Type} {a : List α} {b : List β} (hl : a.length = b.length) {order : List Nat} {ao : List α} {bo : List β}
    (ha : List.Forall₂ (fun i v => a[i]? = some v) order ao) (hb : List.Forall₂ (fun i v => b[i]? = some v) order bo)
    (hp : order.Perm (List.range a.length)) : (ao.zip bo).Perm (a.zip b) := by
  have h1 : List.Forall₂ (fun i v => (a.zip b)[i]? = some v) order (ao.zip bo) := by
    clear hp
    induction ha generalizing bo with
    | nil => exact .nil
    | cons h _ ih =>
      cases hb with
      | cons h' hb =>
        refine .cons ?_ (ih hb)
        rw [List.getElem?_zip_eq_some]
        exact ⟨h, h'⟩
  have h2 : ∀ (l : List (α × β)) (o : List Nat) (z : List (α × β)), List.Forall₂ (fun i v => l[i]? = some v) o z → z = o.filterMap fun i => l[i]? := by
    intro l o z h
    induction h with
    | nil => rfl
    | cons h _ ih => rw [List.filterMap_cons_some h, ← ih]
  rw [h2 _ _ _ h1]
  refine (hp.filterMap _).trans ?_
  rw [show a.length = (a.zip b).length by simp [hl]]
  generalize a.zip b = l
  clear h1 h2
  induction l with
  | nil => simp
  | cons c l ih =>
    rw [List.length_cons, List.range_succ_eq_map, List.filterMap_cons_some (b := c) (by simp), List.filterMap_map]
    exact ih.cons c

theorem mapM_pyGet_index {α : Type} {l : List α} {idx : List Nat} (h : ∃ i ∈ idx, l.length ≤ i) : idx.mapM (pyGet l) = .error .index := by
  induction idx with
  | nil => obtain ⟨_, h, _⟩ := h; cases h
  | cons i is ih =>
    rw [List.mapM_cons]
    by_cases hi : i < l.length
    · obtain ⟨j, hj, hl⟩ := h
      rw [show pyGet l i = .ok l[i] by simp [pyGet, hi], Py.ok_bind, ih ⟨j, by
        rcases List.mem_cons.1 hj with rfl | hj
        · omega
        · exact hj, hl⟩, Py.error_bind]
    · rw [show pyGet l i = .error .index by simp [pyGet, List.getElem?_eq_none (Nat.le_of_not_lt hi)], Py.error_bind]

section
variable [LE K]

/-- **C86** one hyperparameter: every evaluated point once - its value of the hyperparameter and its objective value - sorted by the
hyperparameter. -/
theorem C86_one {argsort : List K → List Nat} (hsort : Argsort argsort) {cs : ConfigSpace K} {sel : Selection K} {hp : Hp K}
    (hsel : getHyperparameters sel cs = .ok [hp]) {s : SamplerState (Config K) K X} (hlen : s.configs.length = s.ys.length) {xs : List K}
    (hxs : ReadsAs hp.name s.configs xs) (color : String) {ax ax' : Ax K} (hax : checkAndSetAxis [hp] true "Prediction" ax = (ax', .ok ())) :
    ∃ xo yo, samplerPlot argsort color cs sel s ax = (ax'.draw [.points color xo yo], .ok ()) ∧ xo.length = s.configs.length ∧
      yo.length = s.configs.length ∧ xo.Pairwise (· ≤ ·) ∧ (xo.zip yo).Perm (xs.zip s.ys) := by
  have hxl : xs.length = s.ys.length := by rw [← hlen, hxs.length_eq]
  have hperm := hsort.perm xs
  have hlt : ∀ i ∈ argsort xs, i < xs.length := fun i hi => List.mem_range.1 (hperm.mem_iff.1 hi)
  obtain ⟨xo, hx1, hx2⟩ := mapM_pyGet_ok (l := xs) hlt
  obtain ⟨yo, hy1, hy2⟩ := mapM_pyGet_ok (l := s.ys) (idx := argsort xs) (by rw [← hxl]; exact hlt)
  have hol : (argsort xs).length = s.configs.length := by rw [hperm.length_eq, List.length_range, hxl, hlen]
  have h1 : xo.length = s.configs.length := by rw [← hx2.length_eq, hol]
  have h2 : yo.length = s.configs.length := by rw [← hy2.length_eq, hol]
  refine ⟨xo, yo, ?_, h1, h2, hsort.sorts xs xo hx2, zip_picked hxl hx2 hy2 hperm⟩
  unfold samplerPlot
  rw [hsel, Plot.lift_bind_ok, Plot.bind_ok hax]
  simp only [drawSamples2]
  rw [configNumbers_ok hxs, Plot.lift_bind_ok]
  unfold takeOrder
  rw [hx1, Plot.lift_bind_ok, hy1, Plot.lift_bind_ok]
  unfold drawPoints
  rw [if_pos (by rw [h1, h2]), Plot.add_eq]

/-- **C86** a configuration without an objective value (as a crash of GridSampler leaves it, `C20_grid_counterexample`): IndexError,
nothing is drawn. -/
theorem C86_misaligned {argsort : List K → List Nat} (hsort : Argsort argsort) {cs : ConfigSpace K} {sel : Selection K} {hp : Hp K}
    (hsel : getHyperparameters sel cs = .ok [hp]) {s : SamplerState (Config K) K X} (hlen : s.ys.length < s.configs.length) {xs : List K}
    (hxs : ReadsAs hp.name s.configs xs) (color : String) {ax ax' : Ax K} (hax : checkAndSetAxis [hp] true "Prediction" ax = (ax', .ok ())) :
    samplerPlot argsort color cs sel s ax = (ax', .error .index) := by
  have hperm := hsort.perm xs
  obtain ⟨xo, hx1, hx2⟩ := mapM_pyGet_ok (l := xs) fun i hi => List.mem_range.1 (hperm.mem_iff.1 hi)
  unfold samplerPlot
  rw [hsel, Plot.lift_bind_ok, Plot.bind_ok hax]
  simp only [drawSamples2]
  rw [configNumbers_ok hxs, Plot.lift_bind_ok]
  unfold takeOrder
  rw [hx1, Plot.lift_bind_ok, mapM_pyGet_index ⟨s.ys.length, hperm.mem_iff.2 (List.mem_range.2 (by rw [← hxs.length_eq]; exact hlen)), le_refl _⟩,
    Plot.lift_bind_error]

end

/-- **C86** two hyperparameters: every evaluated configuration once, in the order of evaluation. -/
theorem C86_two (argsort : List K → List Nat) {cs : ConfigSpace K} {sel : Selection K} {p q : Hp K} (hsel : getHyperparameters sel cs = .ok [p, q])
    {s : SamplerState (Config K) K X} (hne : s.configs ≠ []) {xs ys : List K} (hxs : ReadsAs p.name s.configs xs) (hys : ReadsAs q.name s.configs ys)
    (color : String) {ax ax' : Ax K} (hax : checkAndSetAxis [p, q] true "Prediction" ax = (ax', .ok ())) :
    samplerPlot argsort color cs sel s ax = (ax'.draw [.points color xs ys], .ok ()) := by
  unfold samplerPlot
  rw [hsel, Plot.lift_bind_ok, Plot.bind_ok hax]
  simp only [drawSamples2]
  rw [configNumbers_ok hxs, Plot.lift_bind_ok, configNumbers_ok hys, Plot.lift_bind_ok, if_neg (fun h => hne (List.length_eq_zero_iff.1 h))]
  unfold drawPoints
  rw [if_pos (by rw [← hxs.length_eq, ← hys.length_eq]), Plot.add_eq]

/-- **C86** nothing evaluated yet: an empty plot for one hyperparameter, a ValueError for two. -/
theorem C86_nothing [LE K] {argsort : List K → List Nat} (hsort : Argsort argsort) {cs : ConfigSpace K} {sel : Selection K} {hps : List (Hp K)}
    (hsel : getHyperparameters sel cs = .ok hps) {s : SamplerState (Config K) K X} (h : s.configs = []) (hy : s.ys = []) (color : String)
    {ax ax' : Ax K} (hax : checkAndSetAxis hps true "Prediction" ax = (ax', .ok ())) :
    (hps.length = 1 → samplerPlot argsort color cs sel s ax = (ax'.draw [.points color [] []], .ok ())) ∧
    (hps.length = 2 → samplerPlot argsort color cs sel s ax = (ax', .error .value)) := by
  constructor
  · intro hl
    obtain ⟨hp, rfl⟩ := List.length_eq_one_iff.1 hl
    obtain ⟨xo, yo, h1, h2, h3, -⟩ := C86_one hsort hsel (s := s) (by rw [h, hy]; rfl) (xs := []) (by rw [h]; exact .nil) color hax
    rw [h, List.length_nil, List.length_eq_zero_iff] at h2 h3
    rw [h1, h2, h3]
  · intro hl
    obtain ⟨p, q, rfl⟩ := List.length_eq_two.1 hl
    unfold samplerPlot
    rw [hsel, Plot.lift_bind_ok, Plot.bind_ok hax, h]
    rfl

theorem configNumbers_missing {name : String} {pre post : List (Config K)} {c : Config K} {xs : List K} (hpre : ReadsAs name pre xs)
    (hc : c.get? name = none) : (pre ++ c :: post).mapM (configNumber name) = .error .key := by
  induction hpre with
  | nil => rw [List.nil_append, List.mapM_cons, configNumber, hc, Py.error_bind]
  | @cons c' v _ _ h _ ih =>
    have e : configNumber name c' = .ok v := by rw [configNumber, h]; rfl
    rw [List.cons_append, List.mapM_cons, e, Py.ok_bind, ih, Py.error_bind]

/-- **C86** an evaluated configuration that has no value for a selected hyperparameter: KeyError, nothing is drawn. -/
theorem C86_missing (argsort : List K → List Nat) {cs : ConfigSpace K} {sel : Selection K} {hps : List (Hp K)}
    (hsel : getHyperparameters sel cs = .ok hps) {s : SamplerState (Config K) K X} {pre post : List (Config K)} {c : Config K}
    (hs : s.configs = pre ++ c :: post) (color : String) {ax ax' : Ax K} (hax : checkAndSetAxis hps true "Prediction" ax = (ax', .ok ())) :
    (∀ p, hps = [p] → c.get? p.name = none → (∃ xs, ReadsAs p.name pre xs) → samplerPlot argsort color cs sel s ax = (ax', .error .key)) ∧
    (∀ p q, hps = [p, q] → c.get? p.name = none → (∃ xs, ReadsAs p.name pre xs) → samplerPlot argsort color cs sel s ax = (ax', .error .key)) ∧
    ∀ p q, hps = [p, q] → (∃ xs, ReadsAs p.name s.configs xs) → c.get? q.name = none → (∃ ys, ReadsAs q.name pre ys) →
      samplerPlot argsort color cs sel s ax = (ax', .error .key) := by
  refine ⟨?_, ?_, ?_⟩
  · rintro p rfl hc ⟨xs, hpre⟩
    unfold samplerPlot
    rw [hsel, Plot.lift_bind_ok, Plot.bind_ok hax]
    simp only [drawSamples2]
    rw [hs, configNumbers_missing hpre hc, Plot.lift_bind_error]
  · rintro p q rfl hc ⟨xs, hpre⟩
    unfold samplerPlot
    rw [hsel, Plot.lift_bind_ok, Plot.bind_ok hax]
    simp only [drawSamples2]
    rw [hs, configNumbers_missing hpre hc, Plot.lift_bind_error]
  · rintro p q rfl ⟨xs, hxs⟩ hc ⟨ys, hpre⟩
    unfold samplerPlot
    rw [hsel, Plot.lift_bind_ok, Plot.bind_ok hax]
    simp only [drawSamples2]
    rw [configNumbers_ok hxs, Plot.lift_bind_ok, hs, configNumbers_missing hpre hc, Plot.lift_bind_error]

/-- **C86** any other number of hyperparameters: NotImplementedError, nothing is drawn. -/
theorem C86_other (argsort : List K → List Nat) {cs : ConfigSpace K} {sel : Selection K} {hps : List (Hp K)} (hsel : getHyperparameters sel cs = .ok hps)
    (h : ¬ OneOrTwo hps) (s : SamplerState (Config K) K X) (color : String) (ax : Ax K) :
    samplerPlot argsort color cs sel s ax = (ax, .error .notImplemented) := by
  unfold samplerPlot
  rw [hsel, Plot.lift_bind_ok, Plot.bind_ok (C71_many_counterexample ax h true "Prediction")]
  have : drawSamples2 argsort color s.configs s.ys hps = Plot.raise .notImplemented := by
    unfold drawSamples2
    split
    · exact absurd (Or.inl rfl) h
    · exact absurd (Or.inr rfl) h
    · rfl
  rw [this, Plot.raise_apply]

/-- **C86** a selection the space does not know, or an axis that shows something else: the error is passed on, the axis is untouched. -/
theorem C86_refused (argsort : List K → List Nat) {cs : ConfigSpace K} {sel : Selection K} (s : SamplerState (Config K) K X) (color : String) (ax : Ax K) :
    (∀ e, getHyperparameters sel cs = .error e → samplerPlot argsort color cs sel s ax = (ax, .error e)) ∧
    ∀ hps ax' e, getHyperparameters sel cs = .ok hps → checkAndSetAxis hps true "Prediction" ax = (ax', .error e) →
      samplerPlot argsort color cs sel s ax = (ax, .error .value) := by
  constructor
  · intro e h
    unfold samplerPlot
    rw [h, Plot.lift_bind_error]
  · intro hps ax' e h hax
    have := (C71_rejected ax hps true "Prediction").2 e (by rw [hax])
    rw [hax] at this
    obtain ⟨rfl, he⟩ := this
    dsimp only at he
    subst he
    unfold samplerPlot
    rw [h, Plot.lift_bind_ok, Plot.bind_error hax]

section examples

/-- the positions sorted by value -/
def exArgsort {K : Type} [LinearOrder K] [Zero K] (a : List K) : List Nat := (List.range a.length).insertionSort fun i j => a.getD i 0 ≤ a.getD j 0

theorem exArgsort_sorts {K : Type} [LinearOrder K] [Zero K] : Argsort (exArgsort (K := K)) := by
  refine ⟨fun a => List.perm_insertionSort _ _, fun a sorted h => ?_⟩
  have hp : (exArgsort a).Pairwise fun i j => a.getD i 0 ≤ a.getD j 0 := by
    have : Std.Total fun i j : Nat => a.getD i 0 ≤ a.getD j 0 := ⟨fun i j => le_total _ _⟩
    have : IsTrans Nat fun i j => a.getD i 0 ≤ a.getD j 0 := ⟨fun i j k => le_trans⟩
    exact List.pairwise_insertionSort _ _
  have hs : sorted = (exArgsort a).map fun i => a.getD i 0 := by
    clear hp
    generalize exArgsort a = o at h
    induction h with
    | nil => rfl
    | cons h _ ih => rw [List.map_cons, ← ih, List.getD_eq_getElem?_getD, h]; rfl
  rw [hs, List.pairwise_map]
  exact hp

def exSampled : SamplerState (Config ℚ) ℚ Unit :=
  ⟨[⟨[], [("x", .num 3), ("z", .num 0)]⟩, ⟨[], [("x", .num 1), ("z", .num 1)]⟩, ⟨[], [("x", .num 2), ("z", .num 2)]⟩], [30, 10, 20], [], 3, ()⟩

example : (samplerPlot exArgsort "red" [⟨"x", .float 0 5 false⟩, ⟨"z", .float 0 5 false⟩] (.name "x") exSampled Ax.new).1.shapes =
    [.points "red" [1, 2, 3] [10, 20, 30]] := by decide +kernel

example : (samplerPlot exArgsort "red" [⟨"x", .float 0 5 false⟩, ⟨"z", .float 0 5 false⟩] .none exSampled Ax.new).1.shapes =
    [.points "red" [3, 1, 2] [0, 1, 2]] := by decide +kernel

example : (samplerPlot exArgsort "red" [⟨"x", .float 0 5 false⟩, ⟨"z", .float 0 5 false⟩] (.name "x") { exSampled with ys := [30, 10] } Ax.new).2 =
    .error .index := by decide +kernel

end examples

end PyPDP
