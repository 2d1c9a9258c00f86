import Verif.Model.EngineData
import Verif.Props.Propulsion2
import Mathlib.Analysis.Calculus.Deriv.MeanValue
import Mathlib.Analysis.Calculus.Deriv.Mul
import Mathlib.Analysis.Calculus.Deriv.Add
import Mathlib.Tactic.Linarith
import Mathlib.Tactic.NormNum
import Mathlib.Tactic.Positivity

/-
Sign of a polynomial with rational coefficients on an interval, by computation: Taylor shift to the left end, lower bound by
Horner's scheme, bisection.
-/

namespace Verif.Propulsion

open Verif

/-- Value of a polynomial with rational coefficients, constant term first. -/
def evalQ (cs : List ℚ) (x : ℚ) : ℚ := cs.foldr (fun c acc => c + x * acc) 0

/-- Sum of coefficient lists. -/
def addL : List ℚ → List ℚ → List ℚ
  | [], q => q
  | p, [] => p
  | c :: p, e :: q => (c + e) :: addL p q

/-- Coefficients of `t ↦ p (a + t)`. -/
def shiftL (a : ℚ) (cs : List ℚ) : List ℚ := cs.foldr (fun c acc => addL (c :: acc) (acc.map (a * ·))) []

/-- Lower bound on `[0, w]`. -/
def lowerL (w : ℚ) (cs : List ℚ) : ℚ := cs.foldr (fun c l => c + min 0 (w * l)) 0

/-- Positive on `[a, b]`, as far as `n` bisections show. -/
def posOn : ℕ → List ℚ → ℚ → ℚ → Bool
  | 0, cs, a, b => decide (0 < lowerL (b - a) (shiftL a cs))
  | n + 1, cs, a, b => decide (0 < lowerL (b - a) (shiftL a cs)) || (posOn n cs a ((a + b) / 2) && posOn n cs ((a + b) / 2) b)

/-- Coefficients of the derivative. -/
def derivL : List ℚ → List ℚ
  | [] => []
  | _ :: r => addL r (0 :: derivL r)

/-- Coefficients of a polynomial file. -/
def RawPoly.q (p : RawPoly) : List ℚ := p.coeffs.map (fun v : ℤ => (v : ℚ) / 10 ^ p.coeffScale)

noncomputable section

/-- The polynomial on the reals. -/
def evR (cs : List ℚ) (x : ℝ) : ℝ := evalPoly (cs.map (fun c : ℚ => (c : ℝ))) x

@[simp] theorem evR_nil (x : ℝ) : evR [] x = 0 := rfl

@[simp] theorem evR_cons (c : ℚ) (r : List ℚ) (x : ℝ) : evR (c :: r) x = c + x * evR r x := rfl

theorem evR_cast (cs : List ℚ) (x : ℚ) : evR cs (x : ℝ) = ((evalQ cs x : ℚ) : ℝ) := by
  induction cs with
  | nil => simp [evalQ]
  | cons c r ih =>
    rw [evR_cons, ih]
    show _ = ((c + x * evalQ r x : ℚ) : ℝ)
    push_cast
    rfl

theorem evR_addL (p q : List ℚ) (x : ℝ) : evR (addL p q) x = evR p x + evR q x := by
  induction p generalizing q with
  | nil => simp [addL]
  | cons c p ih =>
    cases q with
    | nil => simp [addL]
    | cons e q =>
      rw [addL, evR_cons, evR_cons, evR_cons, ih]
      push_cast
      ring

theorem evR_scale (a : ℚ) (p : List ℚ) (x : ℝ) : evR (p.map (a * ·)) x = a * evR p x := by
  induction p with
  | nil => simp
  | cons c p ih =>
    rw [List.map_cons, evR_cons, evR_cons, ih]
    push_cast
    ring

theorem evR_shift (a : ℚ) (cs : List ℚ) (t : ℝ) : evR (shiftL a cs) t = evR cs (a + t) := by
  induction cs with
  | nil => rfl
  | cons c r ih =>
    show evR (addL (c :: shiftL a r) ((shiftL a r).map (a * ·))) t = _
    rw [evR_addL, evR_scale, evR_cons, evR_cons, ih]
    ring

theorem lowerL_le (w : ℚ) (cs : List ℚ) (t : ℝ) (h0 : 0 ≤ t) (h1 : t ≤ w) : ((lowerL w cs : ℚ) : ℝ) ≤ evR cs t := by
  induction cs with
  | nil => simp [lowerL]
  | cons c r ih =>
    show ((c + min 0 (w * lowerL w r) : ℚ) : ℝ) ≤ _
    rw [evR_cons]
    push_cast
    have e : t * ((lowerL w r : ℚ) : ℝ) ≤ t * evR r t := mul_le_mul_of_nonneg_left ih h0
    have : min 0 ((w : ℝ) * ((lowerL w r : ℚ) : ℝ)) ≤ t * ((lowerL w r : ℚ) : ℝ) := by
      rcases le_total 0 ((lowerL w r : ℚ) : ℝ) with hl | hl
      · exact (min_le_left _ _).trans (mul_nonneg h0 hl)
      · exact (min_le_right _ _).trans (mul_le_mul_of_nonpos_right h1 hl)
    linarith

theorem lowerL_pos {cs : List ℚ} {a b : ℚ} (h : 0 < lowerL (b - a) (shiftL a cs)) {x : ℝ} (hx : (a : ℝ) ≤ x) (hx' : x ≤ b) : 0 < evR cs x := by
  have := lowerL_le (b - a) (shiftL a cs) (x - a) (by linarith) (by push_cast; linarith)
  rw [evR_shift, add_sub_cancel] at this
  have h' : (0 : ℝ) < ((lowerL (b - a) (shiftL a cs) : ℚ) : ℝ) := by exact_mod_cast h
  linarith

theorem posOn_sound {n : ℕ} {cs : List ℚ} {a b : ℚ} (h : posOn n cs a b = true) {x : ℝ} (hx : (a : ℝ) ≤ x) (hx' : x ≤ b) : 0 < evR cs x := by
  induction n generalizing a b with
  | zero => exact lowerL_pos (of_decide_eq_true h) hx hx'
  | succ n ih =>
    rw [posOn, Bool.or_eq_true, Bool.and_eq_true] at h
    rcases h with h | ⟨h1, h2⟩
    · exact lowerL_pos (of_decide_eq_true h) hx hx'
    · rcases le_total x ((a + b) / 2 : ℚ) with hm | hm
      · exact ih h1 hx hm
      · exact ih h2 hm hx'

theorem evR_deriv (cs : List ℚ) (x : ℝ) : HasDerivAt (evR cs) (evR (derivL cs) x) x := by
  induction cs with
  | nil => exact hasDerivAt_const x 0
  | cons c r ih =>
    have h := ((hasDerivAt_id x).mul ih).const_add (c : ℝ)
    refine h.congr_deriv ?_
    rw [derivL, evR_addL, evR_cons]
    simp

theorem evR_neg (cs : List ℚ) (x : ℝ) : evR (cs.map (fun c => -1 * c)) x = -evR cs x := by
  have := evR_scale (-1) cs x
  rw [this]
  push_cast
  ring

/-- Falling on `[a, b]`. -/
theorem falls {n : ℕ} {cs : List ℚ} {a b : ℚ} (h : posOn n ((derivL cs).map (fun c => -1 * c)) a b = true) :
    StrictAntiOn (evR cs) (Set.Icc (a : ℝ) b) := by
  refine strictAntiOn_of_deriv_neg (convex_Icc _ _) (fun x _ => (evR_deriv cs x).continuousAt.continuousWithinAt) ?_
  intro x hx
  rw [interior_Icc] at hx
  rw [(evR_deriv cs x).deriv]
  have := posOn_sound h hx.1.le hx.2.le
  rw [evR_neg] at this
  linarith

theorem file_coeffs (p : RawPoly) : p.file.1 = p.q.map (fun c : ℚ => (c : ℝ)) := by
  unfold RawPoly.file RawPoly.q
  rw [List.map_map]
  apply List.map_congr_left
  intro v _
  simp

end

end Verif.Propulsion
