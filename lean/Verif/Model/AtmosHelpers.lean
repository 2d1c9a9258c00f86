import Verif.Model.Units
import Verif.Model.Array
import Mathlib.Analysis.SpecialFunctions.Trigonometric.Basic

/-
Model of the module-level functions of ADRpy/atmospheres.py and of Runway.windcomponents.
Floats are exact reals.
-/

namespace Verif.Atmos
open Verif.Units

noncomputable section

/-- atmospheres.py:52 -/
def R_JPKGPK : ℝ := 287.05287
/-- atmospheres.py:55 -/
def R_EARTH_M : ℝ := 6356766
/-- atmospheres.py:57 -/
def GAMMA_DRY_AIR : ℝ := 1.401

/-- atmospheres.py:59-61. A zero temperature raises ZeroDivisionError (or gives inf for arrays);
theorems assume a positive temperature. -/
def idealgasdens_kgm3 (p_pa temp_k : ℝ) : ℝ := p_pa / R_JPKGPK / temp_k

/-- atmospheres.py:63-65 -/
def idealgaspress_pa (rho_kgpm3 temp_k : ℝ) : ℝ := R_JPKGPK * rho_kgpm3 * temp_k

/-- atmospheres.py:67-69. Zero divisor at minus the Earth radius excluded by hypotheses. -/
def geom2geop45m (altitude_m : ℝ) : ℝ := R_EARTH_M * altitude_m / (R_EARTH_M + altitude_m)

/-- atmospheres.py:71-73. Zero divisor at the Earth radius excluded by hypotheses. -/
def geop2geom45m (altitude_m : ℝ) : ℝ := R_EARTH_M * altitude_m / (R_EARTH_M - altitude_m)

/-- atmospheres.py:888-892 -/
def reciprocalhdg (heading_deg : ℝ) : ℝ :=
  if heading_deg + 180 > 360 then heading_deg - 180 else heading_deg + 180

/-- `np.deg2rad` (used in atmospheres.py:263). -/
def deg2rad (x : ℝ) : ℝ := x * (Real.pi / 180)

/-- atmospheres.py:259-265, one element: head wind component for an absolute speed. -/
def headwind1 (le_heading dir speed : ℝ) : ℝ := |speed| * Real.cos (deg2rad (dir - le_heading))

/-- atmospheres.py:259-266, one element: cross wind component for an absolute speed. -/
def crosswind1 (le_heading dir speed : ℝ) : ℝ := |speed| * Real.sin (deg2rad (dir - le_heading))

/-- Result of `windcomponents`: two scalars or two arrays. (atmospheres.py:207-258) -/
inductive WindResult where
  | scalars (head cross : ℝ)
  | arrays (head cross : List ℝ)

/-- atmospheres.py:207-272 (`Runway.windcomponents`). Both arguments are recast to arrays and
combined with numpy broadcasting; when the direction is a number only element 0 of each component
is returned (an empty speed array then raises IndexError). -/
def windcomponents (le_heading : ℝ) (wind_dirs_deg wind_speeds : NumArg) : PyM WindResult :=
  let speeds := (recastArray wind_speeds)
  let directions := recastArray wind_dirs_deg
  match broadcast2 (fun s d => headwind1 le_heading d s) speeds directions,
        broadcast2 (fun s d => crosswind1 le_heading d s) speeds directions with
  | .ok hs, .ok cs =>
    match wind_dirs_deg with
    | .scalar _ =>
      match hs, cs with
      | h :: _, c :: _ => .ok (.scalars h c)
      | _, _ => .error .indexError
    | .array _ => .ok (.arrays hs cs)
  | .error e, _ => .error e
  | _, .error e => .error e

/-- atmospheres.py:895-900 -/
def tempratio (temp_c mach : ℝ) : ℝ :=
  (c2k temp_c / c2k 15) * (1 + (mach ^ 2) * (GAMMA_DRY_AIR - 1) / 2)

/-- atmospheres.py:903-905 (default `recfac=1.0` passed explicitly) -/
def tatbysat (mach recfac : ℝ) : ℝ := 1 + 0.5 * (GAMMA_DRY_AIR - 1) * recfac * (mach ^ 2)

/-- atmospheres.py:908-914 -/
def pressratio (pressure_pa mach : ℝ) : ℝ :=
  (pressure_pa / 101325) *
    (1 + (mach ^ 2) * (GAMMA_DRY_AIR - 1) / 2) ^ (GAMMA_DRY_AIR / (GAMMA_DRY_AIR - 1))

/-- atmospheres.py:917-941. `np.sqrt` of a negative Mach number would be nan: theorems assume
`0 ≤ mach`. -/
def turbofanthrustfactor (temp_c pressure_pa mach throttleratio : ℝ) (ptype : String) : ℝ :=
  let theta0 := tempratio temp_c mach
  let delta0 := pressratio pressure_pa mach
  if ptype = "highbpr" then
    if theta0 ≤ throttleratio then delta0 * (1 - 0.49 * √mach)
    else delta0 * (1 - 0.49 * √mach - 3 * (theta0 - throttleratio) / (1.5 + mach))
  else if ptype = "lowbpr" then
    if theta0 ≤ throttleratio then delta0
    else delta0 * (1 - 3.5 * (theta0 - throttleratio) / theta0)
  else if theta0 ≤ throttleratio then 0.6 * delta0
  else 0.6 * delta0 * (1 - 3.8 * (theta0 - throttleratio) / theta0)

/-- atmospheres.py:944-960 -/
def turbopropthrustfactor_matt (temp_c pressure_pa mach throttleratio : ℝ) : ℝ :=
  let theta0 := tempratio temp_c mach
  let delta0 := pressratio pressure_pa mach
  if mach ≤ 0.1 then delta0
  else if theta0 ≤ throttleratio then delta0 * (1 - 0.96 * (mach - 0.1) ^ (0.25 : ℝ))
  else delta0 * (1 - 0.96 * (mach - 0.1) ^ (0.25 : ℝ) -
    3 * (theta0 - throttleratio) / (8.13 * (mach - 0.1)))

/-- atmospheres.py:999-1019. `np.sqrt` of a negative Mach number would be nan: theorems assume
`0 ≤ mach`. -/
def turbojetthrustfactor (temp_c pressure_pa mach throttleratio : ℝ) (afterburner : Bool) : ℝ :=
  let theta0 := tempratio temp_c mach
  let delta0 := pressratio pressure_pa mach
  if afterburner then
    if theta0 ≤ throttleratio then delta0 * (1 - 0.3 * (theta0 - 1) - 0.1 * √mach)
    else delta0 * (1 - 0.3 * (theta0 - 1) - 0.1 * √mach -
      1.5 * (theta0 - throttleratio) / throttleratio)
  else if theta0 ≤ throttleratio then delta0 * 0.8 * (1 - 0.16 * √mach)
  else delta0 * 0.8 * (1 - 0.16 * √mach - 24 * (theta0 - throttleratio) / ((9 + mach) * theta0))

/-- atmospheres.py:1022-1027 -/
def pistonpowerfactor (density_kgpm3 : ℝ) : ℝ := 1.132 * (density_kgpm3 / 1.225) - 0.132

/-- atmospheres.py:882-885 for one temperature (`math.sqrt` of a negative number raises
ValueError; theorems assume a nonnegative temperature). -/
def vsound (temp_k : ℝ) : ℝ := √(1.4 * R_JPKGPK * temp_k)

end

end Verif.Atmos
