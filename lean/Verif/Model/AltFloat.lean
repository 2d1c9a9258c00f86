import Verif.Model.IsaFloat

/-
Density altitude (ADRpy/atmospheres.py:569-589) in floating point: every literal and operation is rounded.
-/

namespace Verif.Fl
open Verif.Atmos

noncomputable section

variable (F : Rounding) (M : Libm F)

/-- atmospheres.py:569-589, for an array with one density -/
def isadensalt (d : ℝ) : ℝ :=
  if d > F.rd dLevel1 then F.rd (F.rd (M.pow d (F.rd (1 / F.rd L1)) - F.rd I1) / F.rd J1)
  else if d > F.rd dLevel2 then F.rd (F.rd (1 / F.rd N2) * M.log1p (F.rd (F.rd (d / F.rd M2) - 1)))
  else if d > F.rd dLevel3 then F.rd (F.rd (M.pow d (F.rd (1 / F.rd L3)) - F.rd I3) / F.rd J3)
  else if d > F.rd dLevel4 then F.rd (F.rd (M.pow d (F.rd (1 / F.rd L4)) - F.rd I4) / F.rd J4)
  else F.rd (F.rd (1 / F.rd N5) * M.log1p (F.rd (F.rd (d / F.rd M5) - 1)))

end

end Verif.Fl
