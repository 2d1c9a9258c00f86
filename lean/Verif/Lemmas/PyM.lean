import Verif.Model.Array

/-
Inversion of `PyM` computations.
-/

namespace Verif

theorem bind_ok_iff {α β : Type} {a : PyM α} {f : α → PyM β} {r : β} :
    (a >>= f) = .ok r ↔ ∃ x, a = .ok x ∧ f x = .ok r := by
  cases a with
  | error e => constructor
               · intro h; cases h
               · rintro ⟨x, h, _⟩; cases h
  | ok x => constructor
            · intro h; exact ⟨x, rfl, h⟩
            · rintro ⟨y, h, h2⟩; cases h; exact h2

theorem pure_ok_iff {α : Type} {a r : α} : (pure a : PyM α) = .ok r ↔ a = r := by
  constructor
  · intro h; cases h; rfl
  · rintro rfl; rfl

theorem bind_ok {α β : Type} (a : α) (f : α → PyM β) : ((Except.ok a : PyM α) >>= f) = f a := rfl

theorem bind_error {α β : Type} (e : PyErr) (f : α → PyM β) :
    ((Except.error e : PyM α) >>= f) = .error e := rfl

end Verif
