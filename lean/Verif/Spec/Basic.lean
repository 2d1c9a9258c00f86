import Mathlib.Data.Real.Basic

/-
Small specification vocabulary, independent of the model.
-/

namespace Verif.Spec

/-- Two functions undo each other, in both directions, for every input. -/
def InversePair {α β : Type} (f : α → β) (g : β → α) : Prop :=
  (∀ x, g (f x) = x) ∧ (∀ y, f (g y) = y)

/-- `x` differs from the nonzero reference value `ref` by a relative amount of at most `ε`. -/
def WithinRel (x ref ε : ℝ) : Prop := |x - ref| ≤ ε * |ref|

/-- The function multiplies by a constant that is within the relative tolerance `ε` of `k`. -/
def ScalesBy (f : ℝ → ℝ) (k ε : ℝ) : Prop := ∃ c, (∀ x, f x = c * x) ∧ WithinRel c k ε

/-- `m` lies between `a` and `b`, in whichever order these are given. -/
def Between (a m b : ℝ) : Prop := (a ≤ m ∧ m ≤ b) ∨ (b ≤ m ∧ m ≤ a)

end Verif.Spec
