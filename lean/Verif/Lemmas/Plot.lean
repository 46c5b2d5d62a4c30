/-
Lemmas about plotting functions (state transformers on an axis).
-/
import Verif.Spec.Plotting
import Verif.Lemmas.Py

namespace PyPDP
namespace Plot
variable {K α β : Type}

@[simp] theorem pure_apply (a : α) (ax : Ax K) : (pure a : Plot K α) ax = (ax, .ok a) := rfl
@[simp] theorem lift_apply (r : Py α) (ax : Ax K) : (lift r : Plot K α) ax = (ax, r) := rfl
@[simp] theorem add_apply (s : Shape K) (ax : Ax K) : add s ax = ({ ax with shapes := ax.shapes ++ [s] }, .ok ()) := rfl
@[simp] theorem raise_apply (e : PyErr) (ax : Ax K) : (raise e : Plot K α) ax = (ax, .error e) := rfl

theorem bind_apply (p : Plot K α) (f : α → Plot K β) (ax : Ax K) : (p >>= f) ax = match p ax with
    | (ax', .ok a) => f a ax'
    | (ax', .error e) => (ax', .error e) := rfl

theorem bind_ok {p : Plot K α} {f : α → Plot K β} {ax ax' : Ax K} {a : α} (h : p ax = (ax', .ok a)) : (p >>= f) ax = f a ax' := by
  rw [bind_apply, h]

theorem bind_error {p : Plot K α} {f : α → Plot K β} {ax ax' : Ax K} {e : PyErr} (h : p ax = (ax', .error e)) :
    (p >>= f) ax = (ax', .error e) := by
  rw [bind_apply, h]

@[simp] theorem lift_bind_ok (a : α) (f : α → Plot K β) (ax : Ax K) : ((lift (.ok a) : Plot K α) >>= f) ax = f a ax := rfl
@[simp] theorem lift_bind_error (e : PyErr) (f : α → Plot K β) (ax : Ax K) : ((lift (.error e) : Plot K α) >>= f) ax = (ax, .error e) := rfl
@[simp] theorem add_bind (s : Shape K) (f : Unit → Plot K β) (ax : Ax K) :
    (add s >>= f) ax = f () { ax with shapes := ax.shapes ++ [s] } := rfl

theorem bind_eq_ok {p : Plot K α} {f : α → Plot K β} {ax ax2 : Ax K} {b : β} :
    (p >>= f) ax = (ax2, .ok b) ↔ ∃ ax1 a, p ax = (ax1, .ok a) ∧ f a ax1 = (ax2, .ok b) := by
  rw [bind_apply]
  constructor
  · intro h
    split at h
    · exact ⟨_, _, by assumption, h⟩
    · cases h
  · rintro ⟨ax1, a, h1, h2⟩
    rw [h1]; exact h2

theorem lift_bind_eq_ok {r : Py α} {f : α → Plot K β} {ax ax2 : Ax K} {b : β} :
    ((lift r : Plot K α) >>= f) ax = (ax2, .ok b) ↔ ∃ a, r = .ok a ∧ f a ax = (ax2, .ok b) := by
  cases r <;> simp

end Plot

section
variable {K : Type}

@[simp] theorem Ax.draw_nil (ax : Ax K) : ax.draw [] = ax := by simp [Ax.draw]
@[simp] theorem Ax.draw_draw (ax : Ax K) (a b : List (Shape K)) : (ax.draw a).draw b = ax.draw (a ++ b) := by simp [Ax.draw]
@[simp] theorem Ax.draw_shapes (ax : Ax K) (a : List (Shape K)) : (ax.draw a).shapes = ax.shapes ++ a := rfl
theorem Plot.add_eq (s : Shape K) (ax : Ax K) : Plot.add s ax = (ax.draw [s], .ok ()) := rfl

end
end PyPDP
