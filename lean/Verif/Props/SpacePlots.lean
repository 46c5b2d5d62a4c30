/-
C87: plot_config_space.
-/
import Verif.Spec.Plots
import Verif.Props.Axis
import Verif.Lemmas.Plot

namespace PyPDP
open Spec
variable {K : Type}

theorem boxSide_ends {hp : Hp K} {lo hi : K} : boxSide hp = .ok (lo, hi) ↔ EndsOf hp lo hi := by
  unfold boxSide EndsOf Hp.numerical? Hp.constant?
  rcases hp with ⟨name, k⟩
  cases k with
  | constant v =>
    cases v with
    | num v => simp; rintro rfl; exact eq_comm
    | str s => simp
  | _ => simp

/-- **C87** one numerical hyperparameter: lines at its bounds and the area between them; limits and scales of the axis stay as they are. -/
theorem C87_one {cs : ConfigSpace K} {sel : Selection K} {hp : Hp K} (hsel : getHyperparameters sel cs = .ok [hp]) {l u : K} {g : Bool}
    (hk : hp.kind = .float l u g ∨ hp.kind = .integer l u g) (color : String) {ax ax' : Ax K}
    (hax : checkAndSetAxis [hp] false "Prediction" ax = (ax', .ok ())) :
    plotConfigSpace cs sel color ax = (ax'.draw [.vline color l, .vline color u, .vspan color l u], .ok ()) ∧
      ax'.xlim = ax.xlim ∧ ax'.xlog = ax.xlog ∧ ax'.ylim = ax.ylim ∧ ax'.ylog = ax.ylog ∧ ax'.shapes = ax.shapes := by
  have hn : hp.numerical? = some (l, u, g) := by rcases hk with hk | hk <;> simp [Hp.numerical?, hk]
  constructor
  · unfold plotConfigSpace
    rw [hsel, Plot.lift_bind_ok, Plot.bind_ok hax]
    simp only [drawSpace, hn]
    rw [Plot.add_bind, Plot.add_bind, Plot.add_apply]
    simp [Ax.draw]
  · simp only [checkAndSetAxis, Ax.boundX] at hax
    split at hax
    · cases hax
    · split at hax
      · cases hax
      · cases hax; simp

/-- **C87** two hyperparameters, numerical or constant: the box between their ends, the first on the x axis. -/
theorem C87_two {cs : ConfigSpace K} {sel : Selection K} {p q : Hp K} (hsel : getHyperparameters sel cs = .ok [p, q]) {x0 x1 y0 y1 : K}
    (hp : EndsOf p x0 x1) (hq : EndsOf q y0 y1) (color : String) {ax ax' : Ax K}
    (hax : checkAndSetAxis [p, q] false "Prediction" ax = (ax', .ok ())) :
    plotConfigSpace cs sel color ax = (ax'.draw [.box color x0 x1 y0 y1], .ok ()) ∧
      ax'.xlim = ax.xlim ∧ ax'.xlog = ax.xlog ∧ ax'.ylim = ax.ylim ∧ ax'.ylog = ax.ylog ∧ ax'.shapes = ax.shapes := by
  constructor
  · unfold plotConfigSpace
    rw [hsel, Plot.lift_bind_ok, Plot.bind_ok hax]
    simp only [drawSpace]
    rw [boxSide_ends.2 hp, Plot.lift_bind_ok, boxSide_ends.2 hq, Plot.lift_bind_ok, Plot.add_eq]
  · simp only [checkAndSetAxis, Ax.boundX, Ax.boundY] at hax
    split at hax
    · cases hax
    · cases hax; simp

/-- **C87** other kinds: AssertionError for one hyperparameter that is not numerical (also a constant), TypeError if one of two is neither
numerical nor constant; nothing is drawn. -/
theorem C87_kind {cs : ConfigSpace K} {sel : Selection K} {hps : List (Hp K)} (hsel : getHyperparameters sel cs = .ok hps) (color : String) {ax ax' : Ax K}
    (hax : checkAndSetAxis hps false "Prediction" ax = (ax', .ok ())) :
    (∀ hp, hps = [hp] → hp.isNumerical = false → plotConfigSpace cs sel color ax = (ax', .error .assertion)) ∧
    (∀ p q, hps = [p, q] → (∃ hp ∈ hps, hp.isNumerical = false ∧ ∀ v, hp.kind ≠ .constant v) → plotConfigSpace cs sel color ax = (ax', .error .type)) := by
  constructor
  · rintro hp rfl hn
    have hn : hp.numerical? = none := by simpa [Hp.isNumerical] using hn
    unfold plotConfigSpace
    rw [hsel, Plot.lift_bind_ok, Plot.bind_ok hax]
    simp only [drawSpace, hn]
    rfl
  · rintro p q rfl h
    have herr : ∀ (hp : Hp K) e, boxSide hp = .error e → e = .type := by
      intro hp e hb
      unfold boxSide at hb
      split at hb <;> simp_all
    have hside : ∀ hp : Hp K, hp.isNumerical = false → (∀ v, hp.kind ≠ .constant v) → boxSide hp = .error .type := by
      intro hp hn hno
      have hn : hp.numerical? = none := by simpa [Hp.isNumerical] using hn
      have hc : hp.constant? = none := by
        unfold Hp.constant?
        split
        · exact absurd (by assumption) (hno _)
        · rfl
      simp [boxSide, hn, hc]
    unfold plotConfigSpace
    rw [hsel, Plot.lift_bind_ok, Plot.bind_ok hax]
    simp only [drawSpace]
    obtain ⟨hp, hm, hn, hc⟩ := h
    have hb := hside hp hn hc
    rcases hbp : boxSide p with e | s
    · rw [Plot.lift_bind_error, herr p e hbp]
    · rw [Plot.lift_bind_ok]
      simp only [List.mem_cons, List.not_mem_nil, or_false] at hm
      rcases hm with rfl | rfl
      · rw [hbp] at hb; cases hb
      · rw [hb, Plot.lift_bind_error]

/-- **C87** none or more than two hyperparameters: NotImplementedError; the axis is untouched. -/
theorem C87_other {cs : ConfigSpace K} {sel : Selection K} {hps : List (Hp K)} (hsel : getHyperparameters sel cs = .ok hps) (h : ¬ OneOrTwo hps)
    (color : String) (ax : Ax K) : plotConfigSpace cs sel color ax = (ax, .error .notImplemented) := by
  unfold plotConfigSpace
  rw [hsel, Plot.lift_bind_ok, Plot.bind_ok (C71_many_counterexample ax h false "Prediction")]
  have : drawSpace color hps = Plot.raise .notImplemented := by
    unfold drawSpace
    split
    · exact absurd (Or.inl rfl) h
    · exact absurd (Or.inr rfl) h
    · rfl
  rw [this, Plot.raise_apply]

/-- **C87** a selection the space does not know, or an axis that shows something else: the error is passed on, the axis is untouched. -/
theorem C87_refused {cs : ConfigSpace K} {sel : Selection K} (color : String) (ax : Ax K) :
    (∀ e, getHyperparameters sel cs = .error e → plotConfigSpace cs sel color ax = (ax, .error e)) ∧
    ∀ hps ax' e, getHyperparameters sel cs = .ok hps → checkAndSetAxis hps false "Prediction" ax = (ax', .error e) →
      plotConfigSpace cs sel color ax = (ax, .error .value) := by
  constructor
  · intro e h
    unfold plotConfigSpace
    rw [h, Plot.lift_bind_error]
  · intro hps ax' e h hax
    have := (C71_rejected ax hps false "Prediction").2 e (by rw [hax])
    rw [hax] at this
    obtain ⟨rfl, he⟩ := this
    dsimp only at he
    subst he
    unfold plotConfigSpace
    rw [h, Plot.lift_bind_ok, Plot.bind_error hax]

section examples

/-- a numerical, a constant and a categorical hyperparameter -/
def exBoxSpace : ConfigSpace ℚ := [⟨"x", .float 0 5 false⟩, ⟨"c", .constant (.num 3)⟩, ⟨"k", .categorical ["a", "b"]⟩]

example : plotConfigSpace exBoxSpace (.name "x") "o" Ax.new =
    (⟨"x", "Prediction", false, false, none, none, [.vline "o" 0, .vline "o" 5, .vspan "o" 0 5]⟩, .ok ()) := by decide +kernel
example : plotConfigSpace exBoxSpace (.many [.name "x", .name "c"]) "o" Ax.new =
    (⟨"x", "c", false, false, none, none, [.box "o" 0 5 3 3]⟩, .ok ()) := by decide +kernel
example : (plotConfigSpace exBoxSpace (.name "c") "o" Ax.new).2 = .error .assertion ∧
    (plotConfigSpace exBoxSpace (.many [.name "x", .name "k"]) "o" Ax.new).2 = .error .type ∧
    (plotConfigSpace exBoxSpace .none "o" Ax.new).2 = .error .notImplemented ∧
    (plotConfigSpace exBoxSpace (.name "y") "o" Ax.new).2 = .error .key := by decide +kernel

end examples

end PyPDP
