import Verif.Model.ConstraintFloat
import Verif.Model.ISA

/-
The ISA part of class Atmosphere (ADRpy/atmospheres.py:372-589) in floating point: every literal and operation is rounded.
Each function is the body of the `np.nditer` loop for one element. The levels `_Level1` to `_Level4` are whole numbers, hence exact.
`R_JPKGPK` (atmospheres.py:52) is the literal 287.05287.
-/

namespace Verif.Fl
open Verif.Atmos

noncomputable section

variable (F : Rounding) (M : Libm F)

/-- `self._A1 + self._B1 * alt` (atmospheres.py:481, and likewise in the other layers and functions): two literals, a product, a sum -/
def affine (a b alt : ℝ) : ℝ := F.rd (F.rd a + F.rd (F.rd b * alt))

/-- `self._A2 + self._B2 * alt` with `_B2 = 0` (atmospheres.py:401, 484, 493): a product and a sum -/
def affine0 (a alt : ℝ) : ℝ := F.rd (F.rd a + F.rd (0 * alt))

/-- atmospheres.py:479-493: temperature before the offset -/
def isatemp0 (alt : ℝ) : ℝ :=
  if alt < Level1 then affine F A1 B1 alt
  else if alt < Level2 then affine0 F A2 alt
  else if alt < Level3 then affine F A3 B3 alt
  else if alt < Level4 then affine F A4 B4 alt
  else affine0 F A5 alt

/-- atmospheres.py:475-496 -/
def isatemp (offset_deg alt : ℝ) : ℝ := F.rd (isatemp0 F alt + offset_deg)

/-- atmospheres.py:499-518 -/
def isapress (alt : ℝ) : ℝ :=
  if alt < Level1 then M.pow (affine F C1 D1 alt) (F.rd E1)
  else if alt < Level2 then F.rd (F.rd F2 * M.exp (F.rd (F.rd G2 * alt)))
  else if alt < Level3 then M.pow (affine F C3 D3 alt) (F.rd E3)
  else if alt < Level4 then M.pow (affine F C4 D4 alt) (F.rd E4)
  else F.rd (F.rd F5 * M.exp (F.rd (F.rd G5 * alt)))

/-- atmospheres.py:547-561 -/
def isadens0 (alt : ℝ) : ℝ :=
  if alt < Level1 then M.pow (affine F I1 J1 alt) (F.rd L1)
  else if alt < Level2 then F.rd (F.rd M2 * M.exp (F.rd (F.rd N2 * alt)))
  else if alt < Level3 then M.pow (affine F I3 J3 alt) (F.rd L3)
  else if alt < Level4 then M.pow (affine F I4 J4 alt) (F.rd L4)
  else F.rd (F.rd M5 * M.exp (F.rd (F.rd N5 * alt)))

/-- atmospheres.py:543-566 -/
def isadens (offset_deg alt : ℝ) : ℝ :=
  F.rd (isadens0 F M alt / F.rd (1 + F.rd (offset_deg / F.rd (isatemp F offset_deg alt - offset_deg))))

/-- atmospheres.py:882-885 -/
def vsound (temp_k : ℝ) : ℝ := F.rd √(F.rd (F.rd (F.rd 1.4 * F.rd R_JPKGPK) * temp_k))

/-- atmospheres.py:521-540 -/
def isapressalt (p : ℝ) : ℝ :=
  if p > F.rd pLevel1 then F.rd (F.rd (M.pow p (F.rd (1 / F.rd E1)) - F.rd C1) / F.rd D1)
  else if p > F.rd pLevel2 then F.rd (F.rd (1 / F.rd G2) * M.log1p (F.rd (F.rd (p / F.rd F2) - 1)))
  else if p > F.rd pLevel3 then F.rd (F.rd (M.pow p (F.rd (1 / F.rd E3)) - F.rd C3) / F.rd D3)
  else if p > F.rd pLevel4 then F.rd (F.rd (M.pow p (F.rd (1 / F.rd E4)) - F.rd C4) / F.rd D4)
  else F.rd (F.rd (1 / F.rd G5) * M.log1p (F.rd (F.rd (p / F.rd F5) - 1)))

end

end Verif.Fl
