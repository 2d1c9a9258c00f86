import Verif.Lemmas.Tac
import Mathlib.Analysis.SpecialFunctions.Log.Deriv

/-
Certified rational bounds for natural logarithms: `log x` is bracketed by partial sums of the series
`log ((1+y)/(1-y)) = 2 (y + y^3/3 + y^5/5 + ...)`, evaluated exactly over the rationals by the kernel.
-/

namespace Verif.LogB
open Finset

/-- `∑_{i<n} y^(2i+1)/(2i+1)` with the power carried along (`yp = y^(2i+1)`, `y2 = y^2`). -/
def artSum (y2 : ℚ) : ℕ → ℕ → ℚ → ℚ
  | 0, _, _ => 0
  | n + 1, i, yp => yp / (2 * i + 1) + artSum y2 n (i + 1) (yp * y2)

theorem artSum_eq (y : ℚ) (n : ℕ) : ∀ i, artSum (y ^ 2) n i (y ^ (2 * i + 1)) =
    ∑ j ∈ range n, y ^ (2 * (i + j) + 1) / (2 * (i + j : ℕ) + 1) := by
  induction n with
  | zero => intro i; simp [artSum]
  | succ n ih =>
    intro i
    rw [artSum, show y ^ (2 * i + 1) * y ^ 2 = y ^ (2 * (i + 1) + 1) by ring, ih, sum_range_succ']
    rw [add_comm]
    congr 1
    · apply sum_congr rfl
      intro j _
      rw [show i + 1 + j = i + (j + 1) by ring]

theorem artSum_cast (y : ℚ) (n : ℕ) : ((artSum (y ^ 2) n 0 y : ℚ) : ℝ) =
    ∑ j ∈ range n, (y:ℝ) ^ (2 * j + 1) / (2 * j + 1) := by
  have := artSum_eq y n 0
  simp only [mul_zero, zero_add, pow_one] at this
  rw [this]
  push_cast
  rfl

theorem log_frac_lower (y : ℚ) (n : ℕ) (h0 : 0 ≤ y) (h1 : y < 1) :
    ((2 * artSum (y ^ 2) n 0 y : ℚ) : ℝ) ≤ Real.log ((1 + y) / (1 - y)) := by
  have := Real.sum_range_le_log_div (x := (y:ℝ)) (by exact_mod_cast h0) (by exact_mod_cast h1) n
  push_cast
  rw [artSum_cast]; linarith

theorem log_frac_upper (y : ℚ) (n : ℕ) (h0 : 0 ≤ y) (h1 : y < 1) :
    Real.log ((1 + y) / (1 - y)) ≤
      ((2 * (artSum (y ^ 2) n 0 y + y ^ (2 * n + 1) / (1 - y ^ 2)) : ℚ) : ℝ) := by
  have := Real.log_div_le_sum_range_add (x := (y:ℝ)) (by exact_mod_cast h0) (by exact_mod_cast h1) n
  push_cast
  rw [artSum_cast]; linarith

/-- Rational lower bound of `log 2`. -/
def l2lo : ℚ := 69314718055994530941723212145 / 10 ^ 29
/-- Rational upper bound of `log 2`. -/
def l2hi : ℚ := 69314718055994530941723212146 / 10 ^ 29

theorem log2_lower : (l2lo : ℝ) ≤ Real.log 2 := by
  have h := log_frac_lower (1 / 3) 32 (by norm_num) (by norm_num)
  have e : ((1:ℝ) + ((1 / 3 : ℚ) : ℝ)) / (1 - ((1 / 3 : ℚ) : ℝ)) = 2 := by norm_num
  rw [e] at h
  refine le_trans ?_ h
  exact_mod_cast (by decide +kernel : l2lo ≤ 2 * artSum ((1 / 3) ^ 2) 32 0 (1 / 3))

theorem log2_upper : Real.log 2 ≤ (l2hi : ℝ) := by
  have h := log_frac_upper (1 / 3) 32 (by norm_num) (by norm_num)
  have e : ((1:ℝ) + ((1 / 3 : ℚ) : ℝ)) / (1 - ((1 / 3 : ℚ) : ℝ)) = 2 := by norm_num
  rw [e] at h
  refine le_trans h ?_
  exact_mod_cast (by decide +kernel :
    2 * (artSum ((1 / 3) ^ 2) 32 0 (1 / 3) + (1 / 3) ^ (2 * 32 + 1) / (1 - (1 / 3) ^ 2)) ≤ l2hi)

/-- Check that `a ≤ log (2^k * (1+y)/(1-y)) ≤ b`, `x` being that number. -/
def chk (k : ℤ) (n : ℕ) (x a b : ℚ) : Bool :=
  let m := x / 2 ^ k
  let y := (m - 1) / (m + 1)
  let s := artSum (y ^ 2) n 0 y
  let lo := 2 * s + k * (if 0 ≤ k then l2lo else l2hi)
  let hi := 2 * (s + y ^ (2 * n + 1) / (1 - y ^ 2)) + k * (if 0 ≤ k then l2hi else l2lo)
  decide (1 ≤ m) && decide (a ≤ lo) && decide (hi ≤ b)

theorem log_bounds {x a b : ℝ} (k : ℤ) (n : ℕ) (X A B : ℚ) (hx : x = X) (ha : a = A) (hb : b = B)
    (h : chk k n X A B = true) : a ≤ Real.log x ∧ Real.log x ≤ b := by
  subst hx ha hb
  simp only [chk, Bool.and_eq_true, decide_eq_true_eq] at h
  obtain ⟨⟨h1, h2⟩, h3⟩ := h
  set m : ℚ := X / 2 ^ k with hm
  set y : ℚ := (m - 1) / (m + 1) with hy
  have hmp : 0 < m + 1 := by linarith
  have y0 : 0 ≤ y := div_nonneg (by linarith) hmp.le
  have y1 : y < 1 := by rw [hy, div_lt_one hmp]; linarith
  have hfr : ((1:ℝ) + y) / (1 - y) = m := by
    have : (1 + y) / (1 - y) = m := by
      have e1 : 1 + y = 2 * m / (m + 1) := by rw [hy]; field_simp; ring
      have e2 : 1 - y = 2 / (m + 1) := by rw [hy]; field_simp; ring
      rw [e1, e2]; field_simp
    exact_mod_cast this
  have hl := log_frac_lower y n y0 y1
  have hu := log_frac_upper y n y0 y1
  rw [hfr] at hl hu
  have hX : (X:ℝ) = 2 ^ k * (m:ℝ) := by
    have : X = 2 ^ k * m := by rw [hm]; field_simp
    rw [this]; push_cast; rfl
  have hm0 : (m:ℝ) ≠ 0 := by
    have : (1:ℝ) ≤ m := by exact_mod_cast h1
    linarith
  have hlog : Real.log X = k * Real.log 2 + Real.log m := by
    rw [hX, Real.log_mul (by positivity) hm0, Real.log_zpow]
  have hlo := log2_lower
  have hhi := log2_upper
  rw [hlog]
  have h2' : (A:ℝ) ≤ ((2 * artSum (y ^ 2) n 0 y : ℚ) : ℝ) + k * ((if 0 ≤ k then l2lo else l2hi : ℚ) : ℝ) := by
    exact_mod_cast h2
  have h3' : ((2 * (artSum (y ^ 2) n 0 y + y ^ (2 * n + 1) / (1 - y ^ 2)) : ℚ) : ℝ)
      + k * ((if 0 ≤ k then l2hi else l2lo : ℚ) : ℝ) ≤ B := by
    exact_mod_cast h3
  by_cases hk : 0 ≤ k
  · have hkr : (0:ℝ) ≤ k := by exact_mod_cast hk
    rw [if_pos hk] at h2' h3'
    have := mul_le_mul_of_nonneg_left hlo hkr
    have := mul_le_mul_of_nonneg_left hhi hkr
    constructor <;> linarith
  · have hkr : (k:ℝ) ≤ 0 := by exact_mod_cast (not_le.mp hk).le
    rw [if_neg hk] at h2' h3'
    have := mul_le_mul_of_nonpos_left hlo hkr
    have := mul_le_mul_of_nonpos_left hhi hkr
    constructor <;> linarith

/-- Test: log 10 to 27 digits. -/
theorem log_ten : (2.302585092994045684017991454 : ℝ) ≤ Real.log 10 ∧
    Real.log 10 ≤ 2.302585092994045684017991455 :=
  log_bounds 3 20 10 2.302585092994045684017991454 2.302585092994045684017991455 (by norm_num) (by norm_num)
    (by norm_num) (by decide +kernel)

end Verif.LogB
