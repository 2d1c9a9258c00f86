import Verif.Model.ConstraintFloat
import Verif.Model.Aero

/-
The estimates of the span efficiency and the induced drag factor (ADRpy/constraintanalysis.py:512-585, 587-640) in floating point:
every literal and operation is rounded. Whole numbers, 0.5 and 1.0 are exact.
-/

namespace Verif.Fl

/-- The further functions of the C library behind `math.tan` and `math.cos` (constraintanalysis.py:518, 523) and `**` with a whole
number as exponent, where the base may be of either sign (constraintanalysis.py:518, 559, 565): within one unit in the last place. -/
structure Libm2 (F : Rounding) extends Libm F where
  ipow : ℝ → ℕ → ℝ
  ipow_err : ∀ x n, |ipow x n - x ^ n| ≤ 2 * F.u * |x ^ n|
  tan : ℝ → ℝ
  tan_err : ∀ x, |tan x - Real.tan x| ≤ 2 * F.u * |Real.tan x|
  cos : ℝ → ℝ
  cos_err : ∀ x, |cos x - Real.cos x| ≤ 2 * F.u * |Real.cos x|

noncomputable section

variable (F : Rounding) (M : Libm2 F)

/-- `math.radians` (constraintanalysis.py:461, 463, 465): multiplies by the float `pi / 180`. -/
def radians (x : ℝ) : ℝ := F.rd (x * F.rd (F.rd Real.pi / 180))

/-- `1 - 0.045 * (self.aspectratio ** 0.68)` (constraintanalysis.py:514, 523) -/
def lessSpan (ar : ℝ) : ℝ := F.rd (1 - F.rd (F.rd 0.045 * M.pow ar (F.rd 0.68)))

/-- constraintanalysis.py:512-514 -/
def oswaldspaneff1 (ar : ℝ) : ℝ := F.rd (F.rd (F.rd 1.78 * lessSpan F M ar) - F.rd 0.64)

/-- constraintanalysis.py:516-519 -/
def oswaldspaneff2 (ar sweep_mt_deg : ℝ) : ℝ :=
  let sqrtterm := F.rd (4 + F.rd (M.ipow ar 2 * F.rd (1 + M.ipow (M.tan (radians F sweep_mt_deg)) 2)))
  F.rd (2 / F.rd (F.rd (2 - ar) + F.rd √sqrtterm))

/-- constraintanalysis.py:521-523 -/
def oswaldspaneff3 (ar sweep_le_deg : ℝ) : ℝ :=
  F.rd (F.rd (F.rd (F.rd 4.61 * lessSpan F M ar) * M.pow (M.cos (radians F sweep_le_deg)) (F.rd 0.15)) - F.rd 3.1)

/-- constraintanalysis.py:557-560 -/
def hoernerfactor (taperratio sweep_25_deg : ℝ) : ℝ :=
  let dtaperratio := F.rd (-F.rd 0.357 + F.rd (F.rd 0.45 * M.exp (F.rd (-F.rd 0.0375 * sweep_25_deg))))
  let tapercorr := F.rd (taperratio - dtaperratio)
  F.rd (F.rd (F.rd (F.rd (F.rd (F.rd 0.0524 * M.ipow tapercorr 4) - F.rd (F.rd 0.15 * M.ipow tapercorr 3)) +
    F.rd (F.rd 0.1659 * M.ipow tapercorr 2)) - F.rd (F.rd 0.0706 * tapercorr)) + F.rd 0.0119)

/-- `ke_mach` (constraintanalysis.py:570-576) -/
def keMach (mach_inf : ℝ) : ℝ :=
  if mach_inf > F.rd 0.3 then
    F.rd (F.rd (-F.rd 0.001521 * M.pow (F.rd (F.rd (mach_inf / F.rd 0.3) - 1)) (F.rd 10.82)) + 1)
  else 1

/-- constraintanalysis.py:525-585, the Mach number given -/
def oswaldspaneff4 (ar taperratio sweep_25_deg mach_inf : ℝ) : ℝ :=
  let e_theo := F.rd (1 / F.rd (1 + F.rd (hoernerfactor F M taperratio sweep_25_deg * ar)))
  let ke_fuse := F.rd (1 - F.rd (2 * M.ipow (F.rd 0.114) 2))
  let e := F.rd (F.rd (F.rd (e_theo * ke_fuse) * F.rd 0.85) * keMach F M mach_inf)
  if e < F.rd 1e-3 then F.rd 1e-3 else e

/-- constraintanalysis.py:587-640, no estimates selected -/
def induceddragfact (ar sweep_mt_deg taperratio sweep_25_deg : ℝ) : ℝ :=
  let oswaldeff := F.rd (0.5 * F.rd (oswaldspaneff2 F M ar sweep_mt_deg + oswaldspaneff4 F M ar taperratio sweep_25_deg (F.rd 0.3)))
  F.rd (1 / F.rd (F.rd (F.rd Real.pi * ar) * oswaldeff))

end

end Verif.Fl
