import Verif.Model.Checked
import Verif.Lemmas.Tac

/-
Calculus for Verif.Model.Checked: when an expression has a result, and which.
-/

namespace Verif.Checked

/-- The expression has the result `x` if `P`, and no result otherwise. -/
def Exactly (a : Num) (P : Prop) (x : ℝ) : Prop := (P → a = some x) ∧ (¬ P → a = none)

namespace Exactly

theorem of {a : Num} {P Q : Prop} {x : ℝ} (h : Exactly a Q x) (e : Q ↔ P) : Exactly a P x :=
  ⟨fun p => h.1 (e.2 p), fun p => h.2 (fun q => p (e.1 q))⟩

theorem val {a : Num} {P : Prop} {x y : ℝ} (h : Exactly a P x) (e : P → x = y) : Exactly a P y :=
  ⟨fun p => e p ▸ h.1 p, h.2⟩

theorem suff {a : Num} {P : Prop} {x : ℝ} (h : Exactly a P x) (p : P) : a = some x := h.1 p

theorem leaf (x : ℝ) : Exactly (some x) True x := ⟨fun _ => rfl, fun h => absurd trivial h⟩

theorem nat (n : ℕ) [OfNat ℝ n] : Exactly (OfNat.ofNat n) True (OfNat.ofNat n : ℝ) := leaf _

theorem sci (m : ℕ) (s : Bool) (e : ℕ) : Exactly (OfScientific.ofScientific m s e) True (OfScientific.ofScientific m s e : ℝ) := leaf _

theorem bind {a : Num} {P Q : Prop} {x y : ℝ} {f : ℝ → Num} (h : Exactly a P x) (g : Exactly (f x) Q y) : Exactly (a.bind f) (P ∧ Q) y := by
  refine ⟨fun ⟨p, q⟩ => ?_, fun n => ?_⟩
  · rw [h.1 p]; exact g.1 q
  · by_cases p : P
    · rw [h.1 p]; exact g.2 (fun q => n ⟨p, q⟩)
    · rw [h.2 p]; rfl

theorem bind' {a : Num} {P Q : Prop} {x y : ℝ} {f : ℝ → Num} (h : Exactly a P x) (g : Exactly (f x) Q y) : Exactly (a >>= f) (P ∧ Q) y := bind h g

theorem lift2 {a b : Num} {P Q : Prop} {x y : ℝ} {f : ℝ → ℝ → Num} {R : Prop} {z : ℝ} (h : Exactly a P x) (g : Exactly b Q y)
    (k : Exactly (f x y) R z) : Exactly (do let x ← a; let y ← b; f x y) (P ∧ Q ∧ R) z := bind' h (bind' g k)

theorem add {a b : Num} {P Q : Prop} {x y : ℝ} (h : Exactly a P x) (g : Exactly b Q y) : Exactly (a + b) (P ∧ Q) (x + y) :=
  (lift2 h g (leaf (x + y))).of (by tauto)

theorem sub {a b : Num} {P Q : Prop} {x y : ℝ} (h : Exactly a P x) (g : Exactly b Q y) : Exactly (a - b) (P ∧ Q) (x - y) :=
  (lift2 h g (leaf (x - y))).of (by tauto)

theorem mul {a b : Num} {P Q : Prop} {x y : ℝ} (h : Exactly a P x) (g : Exactly b Q y) : Exactly (a * b) (P ∧ Q) (x * y) :=
  (lift2 h g (leaf (x * y))).of (by tauto)

theorem neg {a : Num} {P : Prop} {x : ℝ} (h : Exactly a P x) : Exactly (-a) P (-x) := (bind' h (leaf (-x))).of (by tauto)

theorem npow {a : Num} {P : Prop} {x : ℝ} (h : Exactly a P x) (n : ℕ) : Exactly (a ^ n) P (x ^ n) := (bind' h (leaf (x ^ n))).of (by tauto)

theorem cond {P : Prop} [Decidable P] {x : ℝ} : Exactly (if P then none else some x) (¬ P) x :=
  ⟨fun h => if_neg h, fun h => if_pos (not_not.1 h)⟩

theorem div {a b : Num} {P Q : Prop} {x y : ℝ} (h : Exactly a P x) (g : Exactly b Q y) : Exactly (a / b) (P ∧ Q ∧ y ≠ 0) (x / y) :=
  lift2 h g cond

theorem sqrt {a : Num} {P : Prop} {x : ℝ} (h : Exactly a P x) : Exactly (Checked.sqrt a) (P ∧ 0 ≤ x) (√x) :=
  (bind' h cond).of (by rw [not_lt])

theorem pow {a b : Num} {P Q : Prop} {x y : ℝ} (h : Exactly a P x) (g : Exactly b Q y) :
    Exactly (Checked.pow a b) (P ∧ Q ∧ ¬ (x < 0 ∨ (x = 0 ∧ y < 0))) (x ^ y) := lift2 h g cond

theorem tan {a : Num} {P : Prop} {x : ℝ} (h : Exactly a P x) : Exactly (Checked.tan a) (P ∧ Real.cos x ≠ 0) (Real.tan x) := bind' h cond

theorem cos {a : Num} {P : Prop} {x : ℝ} (h : Exactly a P x) : Exactly (Checked.cos a) P (Real.cos x) := (bind' h (leaf (Real.cos x))).of (by tauto)

theorem exp {a : Num} {P : Prop} {x : ℝ} (h : Exactly a P x) : Exactly (Checked.exp a) P (Real.exp x) := (bind' h (leaf (Real.exp x))).of (by tauto)

theorem abs {a : Num} {P : Prop} {x : ℝ} (h : Exactly a P x) : Exactly (Checked.abs a) P |x| := (bind' h (leaf (|x|))).of (by tauto)

theorem log1p {a : Num} {P : Prop} {x : ℝ} (h : Exactly a P x) : Exactly (Checked.log1p a) (P ∧ 0 < 1 + x) (Real.log (1 + x)) :=
  (bind' h cond).of (by rw [not_le])

end Exactly

/-- Walk through an expression. -/
macro "walk" : tactic => `(tactic| repeat' (first
  | exact Exactly.nat _ | exact Exactly.sci _ _ _ | exact Exactly.leaf _
  | apply Exactly.add | apply Exactly.sub | apply Exactly.mul | apply Exactly.div | apply Exactly.neg | apply Exactly.npow
  | apply Exactly.sqrt | apply Exactly.pow | apply Exactly.tan | apply Exactly.cos | apply Exactly.exp | apply Exactly.abs | apply Exactly.log1p
  | apply Exactly.bind'))

end Verif.Checked
