import Verif.Model.AirspeedFloat
import Verif.Model.AtmosHelpers

/-
Wind components on a runway, geopotential heights, the gas law and the conversion of true to equivalent airspeed
(ADRpy/atmospheres.py:59-73, 207-272, 759-762) in floating point: every operation is rounded.
-/

namespace Verif.Fl
open Verif.Atmos

/-- `np.cos` and `np.sin` (atmospheres.py:265-266): within four units in the last place, the accuracy of numpy's vectorised versions. -/
structure NpTrig (F : Rounding) where
  cos : ℝ → ℝ
  cos_err : ∀ x, |cos x - Real.cos x| ≤ 8 * F.u * |Real.cos x|
  sin : ℝ → ℝ
  sin_err : ∀ x, |sin x - Real.sin x| ≤ 8 * F.u * |Real.sin x|

noncomputable section

variable (F : Rounding) (N : NpTrig F) (M : Libm2 F)

/-- `relative_heading_rad` (atmospheres.py:263) for one direction: `np.deg2rad` multiplies by the float `pi / 180` -/
def relheading (le_heading dir : ℝ) : ℝ := radians F (F.rd (dir - le_heading))

/-- atmospheres.py:259-265 for one direction and speed -/
def headwind (le_heading dir speed : ℝ) : ℝ := F.rd (|speed| * N.cos (relheading F le_heading dir))

/-- atmospheres.py:259-266 for one direction and speed -/
def crosswind (le_heading dir speed : ℝ) : ℝ := F.rd (|speed| * N.sin (relheading F le_heading dir))

/-- atmospheres.py:67-69 -/
def geom2geop45m (altitude_m : ℝ) : ℝ := F.rd (F.rd (R_EARTH_M * altitude_m) / F.rd (R_EARTH_M + altitude_m))

/-- atmospheres.py:71-73 -/
def geop2geom45m (altitude_m : ℝ) : ℝ := F.rd (F.rd (R_EARTH_M * altitude_m) / F.rd (R_EARTH_M - altitude_m))

/-- atmospheres.py:59-61 -/
def idealgasdens_kgm3 (p_pa temp_k : ℝ) : ℝ := F.rd (F.rd (p_pa / F.rd R_JPKGPK) / temp_k)

/-- atmospheres.py:63-65 -/
def idealgaspress_pa (rho_kgpm3 temp_k : ℝ) : ℝ := F.rd (F.rd (F.rd R_JPKGPK * rho_kgpm3) * temp_k)

/-- atmospheres.py:759-762 for one altitude, in the ISA -/
def isa_tas2eas (o tas alt : ℝ) : ℝ := F.rd (tas * F.rd √(F.rd (isadens F M.toLibm o alt / isadens F M.toLibm o 0)))

end

end Verif.Fl
