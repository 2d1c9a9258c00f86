import Mathlib.Algebra.Order.Round
import Mathlib.Data.Int.Log
import Mathlib.Data.Real.Archimedean
import Mathlib.Algebra.Ring.Int.Parity
import Mathlib.Algebra.Order.Field.Power
import Mathlib.Tactic.Linarith
import Mathlib.Tactic.Positivity
import Mathlib.Tactic.NormNum
import Mathlib.Tactic.FieldSimp

/-
Floating point numbers. The other modules take the numbers of the code as exact reals; here every operation is followed by a
rounding, which is how Python and numpy floats (IEEE 754 binary64) behave as long as no result overflows or underflows.
-/

namespace Verif.Fl

/-- What is used of the arithmetic of Python floats (all expressions of the modules in ADRpy/, for instance unitconversions.py:19-182):
the result of an operation is the exact result rounded, with relative error at most `u`, and rounding keeps the order.
Simplified: no overflow and no underflow (results other than 0 are between 2⁻¹⁰²² and 2¹⁰²⁴ in size). -/
structure Rounding where
  rd : ℝ → ℝ
  u : ℝ
  u_nonneg : 0 ≤ u
  u_lt : u < 1 / 1000000
  err : ∀ x, |rd x - x| ≤ u * |x|
  mono : Monotone rd

noncomputable section

/-- Nearest integer, the even one of two equally near (the rounding of IEEE 754 arithmetic, used by all float operations of
ADRpy/, for instance unitconversions.py:19-182). -/
def roundEven (z : ℝ) : ℤ :=
  if z - ⌊z⌋ < 1 / 2 then ⌊z⌋
  else if 1 / 2 < z - ⌊z⌋ then ⌊z⌋ + 1
  else if Even ⌊z⌋ then ⌊z⌋ else ⌊z⌋ + 1

/-- Spacing of binary64 numbers of the size of `x`: 53 binary digits (float operations of ADRpy/, for instance
unitconversions.py:19-182; without the bounds of the exponent). -/
def ulp (x : ℝ) : ℝ := (2 : ℝ) ^ (Int.log 2 |x| - 52)

/-- Rounding to the nearest binary64 number (float operations of ADRpy/, for instance unitconversions.py:19-182;
without the bounds of the exponent). -/
def rd64 (x : ℝ) : ℝ := if x = 0 then 0 else roundEven (x / ulp x) * ulp x

end

end Verif.Fl
