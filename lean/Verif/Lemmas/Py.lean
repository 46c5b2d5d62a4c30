/-
Simplification lemmas for the exception monad and basic facts about the numpy helpers of `Model/Py.lean`.
-/
import Verif.Model.Py

namespace PyPDP

@[simp] theorem Py.ok_bind {ε α β : Type _} (a : α) (f : α → Except ε β) :
    ((Except.ok a : Except ε α) >>= f) = f a := rfl
@[simp] theorem Py.error_bind {ε α β : Type _} (e : ε) (f : α → Except ε β) :
    ((Except.error e : Except ε α) >>= f) = Except.error e := rfl
@[simp] theorem Py.pure_eq {ε α : Type _} (a : α) : (pure a : Except ε α) = Except.ok a := rfl
@[simp] theorem Py.map_ok {ε α β : Type _} (a : α) (f : α → β) :
    (Except.ok a : Except ε α).map f = Except.ok (f a) := rfl
@[simp] theorem Py.map_error {ε α β : Type _} (e : ε) (f : α → β) :
    (Except.error e : Except ε α).map f = Except.error e := rfl
@[simp] theorem Py.fmap_ok {ε α β : Type _} (a : α) (f : α → β) :
    f <$> (Except.ok a : Except ε α) = Except.ok (f a) := rfl
@[simp] theorem Py.fmap_error {ε α β : Type _} (e : ε) (f : α → β) :
    f <$> (Except.error e : Except ε α) = Except.error e := rfl

theorem Py.bind_eq_ok {ε α β : Type _} {x : Except ε α} {f : α → Except ε β} {b : β} :
    (x >>= f) = Except.ok b ↔ ∃ a, x = Except.ok a ∧ f a = Except.ok b := by
  cases x <;> simp

theorem Py.map_eq_ok {ε α β : Type _} {x : Except ε α} {f : α → β} {b : β} :
    x.map f = Except.ok b ↔ ∃ a, x = Except.ok a ∧ f a = b := by
  cases x <;> simp

/-- `mapM` in the exception monad succeeds iff every element does, with the results in order. -/
theorem Py.mapM_eq_ok {ε α β : Type _} {f : α → Except ε β} {l : List α} {r : List β} :
    l.mapM f = Except.ok r ↔ List.Forall₂ (fun a b => f a = Except.ok b) l r := by
  induction l generalizing r with
  | nil => simp [eq_comm]
  | cons a as ih =>
    rw [List.mapM_cons]
    constructor
    · intro h
      obtain ⟨b, hb, h⟩ := Py.bind_eq_ok.1 h
      obtain ⟨bs, hbs, h⟩ := Py.bind_eq_ok.1 h
      cases h
      exact .cons hb (ih.1 hbs)
    · rintro (_ | ⟨hb, hbs⟩)
      rw [hb, Py.ok_bind, ih.2 hbs]; rfl

end PyPDP
