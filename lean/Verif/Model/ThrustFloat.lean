import Verif.Model.IsaFloat
import Verif.Model.AtmosHelpers
import Verif.Model.UnitsFloat

/-
The thrust and power factors (ADRpy/atmospheres.py:895-1027) in floating point: every literal and operation is rounded, `mach ** 2` and
the other powers are those of the C library. Whole numbers in the source are exact. `GAMMA_DRY_AIR` (atmospheres.py:57) is the literal
1.401.
-/

namespace Verif.Fl
open Verif.Atmos

noncomputable section

variable (F : Rounding) (M : Libm F)

/-- `GAMMA_DRY_AIR - 1` (atmospheres.py:57, 899, 911, 913) -/
def gammaLess : ℝ := F.rd (F.rd GAMMA_DRY_AIR - 1)

/-- `1 + (mach ** 2) * (GAMMA_DRY_AIR - 1)/2` (atmospheres.py:899, 913) -/
def stagnation (mach : ℝ) : ℝ := F.rd (1 + F.rd (F.rd (M.pow mach 2 * gammaLess F) / 2))

/-- atmospheres.py:895-900 -/
def tempratio (temp_c mach : ℝ) : ℝ := F.rd (F.rd (c2k F temp_c / c2k F 15) * stagnation F M mach)

/-- atmospheres.py:908-914 -/
def pressratio (pressure_pa mach : ℝ) : ℝ :=
  F.rd (F.rd (pressure_pa / 101325) * M.pow (stagnation F M mach) (F.rd (F.rd GAMMA_DRY_AIR / gammaLess F)))

/-- `1 - 0.49 * np.sqrt(mach)` and the like (atmospheres.py:930, 931, 1016, 1017) -/
def lessRoot (a mach : ℝ) : ℝ := F.rd (1 - F.rd (F.rd a * F.rd √mach))

/-- atmospheres.py:917-941 -/
def turbofanthrustfactor (temp_c pressure_pa mach throttleratio : ℝ) (ptype : String) : ℝ :=
  let theta0 := tempratio F M temp_c mach
  let delta0 := pressratio F M pressure_pa mach
  if ptype = "highbpr" then
    if theta0 ≤ throttleratio then F.rd (delta0 * lessRoot F 0.49 mach)
    else F.rd (delta0 * F.rd (lessRoot F 0.49 mach -
      F.rd (F.rd (3 * F.rd (theta0 - throttleratio)) / F.rd (F.rd 1.5 + mach))))
  else if ptype = "lowbpr" then
    if theta0 ≤ throttleratio then delta0
    else F.rd (delta0 * F.rd (1 - F.rd (F.rd (F.rd 3.5 * F.rd (theta0 - throttleratio)) / theta0)))
  else if theta0 ≤ throttleratio then F.rd (F.rd 0.6 * delta0)
  else F.rd (F.rd (F.rd 0.6 * delta0) * F.rd (1 - F.rd (F.rd (F.rd 3.8 * F.rd (theta0 - throttleratio)) / theta0)))

/-- atmospheres.py:944-960 -/
def turbopropthrustfactor_matt (temp_c pressure_pa mach throttleratio : ℝ) : ℝ :=
  let theta0 := tempratio F M temp_c mach
  let delta0 := pressratio F M pressure_pa mach
  let over := F.rd (mach - F.rd 0.1)
  let bracket := F.rd (1 - F.rd (F.rd 0.96 * M.pow over (F.rd 0.25)))
  if mach ≤ F.rd 0.1 then delta0
  else if theta0 ≤ throttleratio then F.rd (delta0 * bracket)
  else F.rd (delta0 * F.rd (bracket - F.rd (F.rd (3 * F.rd (theta0 - throttleratio)) / F.rd (F.rd 8.13 * over))))

/-- atmospheres.py:999-1019 -/
def turbojetthrustfactor (temp_c pressure_pa mach throttleratio : ℝ) (afterburner : Bool) : ℝ :=
  let theta0 := tempratio F M temp_c mach
  let delta0 := pressratio F M pressure_pa mach
  if afterburner then
    let bracket := F.rd (F.rd (1 - F.rd (F.rd 0.3 * F.rd (theta0 - 1))) - F.rd (F.rd 0.1 * F.rd √mach))
    if theta0 ≤ throttleratio then F.rd (delta0 * bracket)
    else F.rd (delta0 * F.rd (bracket - F.rd (F.rd (F.rd 1.5 * F.rd (theta0 - throttleratio)) / throttleratio)))
  else if theta0 ≤ throttleratio then F.rd (F.rd (delta0 * F.rd 0.8) * lessRoot F 0.16 mach)
  else F.rd (F.rd (delta0 * F.rd 0.8) * F.rd (lessRoot F 0.16 mach -
    F.rd (F.rd (24 * F.rd (theta0 - throttleratio)) / F.rd (F.rd (9 + mach) * theta0))))

/-- atmospheres.py:1022-1027 -/
def pistonpowerfactor (density_kgpm3 : ℝ) : ℝ :=
  F.rd (F.rd (F.rd 1.132 * F.rd (density_kgpm3 / F.rd 1.225)) - F.rd 0.132)

end

end Verif.Fl
