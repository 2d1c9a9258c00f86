import Verif.Model.IsaFloat
import Verif.Model.ThrustFloat
import Verif.Model.ConstraintFloat

/-
The requirements of a piston engined aircraft in the ISA with an offset (ADRpy/constraintanalysis.py), mapped to sea level, in floating
point and end to end for one wing loading: the densities come out of the atmosphere's own formulas, and so does the thrust correction.
The induced drag factor (constraintanalysis.py:889-1018) remains an argument `k`; it depends on external data (the Oswald estimates).
-/

namespace Verif.Fl

noncomputable section

variable (F : Rounding) (M : Libm F) (off : ℝ)

/-- constraintanalysis.py:1065-1069, 1081-1083: thrust correction of a piston engine in the ISA (atmospheres.py:1022-1027) -/
def pistonCorr (alt : ℝ) : ℝ := pistonpowerfactor F (isadens F M off alt)

/-- constraintanalysis.py:1285-1311 -/
def pistonCruise (alt ktas cd k w frac fact : ℝ) : ℝ :=
  cruiseTw F M ktas (isadens F M off alt) cd k w frac (pistonCorr F M off alt) fact

/-- constraintanalysis.py:1222-1255 -/
def pistonClimb (alt kias fpm cd k w frac : ℝ) : ℝ :=
  climbTw F M kias fpm (isadens F M off alt) (isadens F M off 0) cd k w frac (pistonCorr F M off alt)

/-- constraintanalysis.py:1343-1375 -/
def pistonCeiling (alt kias cd k w frac : ℝ) : ℝ :=
  ceilingTw F M kias (isadens F M off alt) (isadens F M off 0) cd k w frac (pistonCorr F M off alt)

/-- constraintanalysis.py:1417-1422: lift-off speed from a runway at an elevation -/
def pistonLof (elev clmaxto w : ℝ) : ℝ := liftoffPoint F (isadens F M off elev) clmaxto w

/-- constraintanalysis.py:1493-1505 with `map2static() = 1.0` (2381-2388, no bypass ratio above 1) -/
def pistonTakeoff (elev groundrun clmaxto cdto clto mu_r w : ℝ) : ℝ :=
  F.rd (F.rd (1 * takeoffPoint F M groundrun cdto clto mu_r (pistonLof F M off elev clmaxto w)) / pistonCorr F M off elev)

/-- constraintanalysis.py:1524-1541, 1629-1643 -/
def pistonTurn (alt ktas cd nturn k w turnfrac climbfrac : ℝ) : ℝ :=
  let q := dynamicpressure_pa F M (isadens F M off alt) (kts2mps F ktas)
  let wsturn := F.rd (w * turnfrac)
  F.rd (F.rd (turnPoint F M q cd nturn k wsturn (F.rd (wsturn * climbfrac)) / pistonCorr F M off alt) * turnfrac)

/-- constraintanalysis.py:1760-1765 and the like for one wing loading: power in hp divided by the power correction, which is 1 for a
propulsion string (1062) -/
def stringHp (tow_kg eta tw speed : ℝ) : ℝ := F.rd (powerPoint F tow_kg eta tw speed / 1)

/-- constraintanalysis.py:1797-1803 with the requirement of 1285-1311, not mapped to sea level (1757) -/
def cruiseHp (alt ktas cd k w frac fact tow_kg eta : ℝ) : ℝ :=
  let q := dynamicpressure_pa F M (isadens F M off alt) (kts2mps F ktas)
  let tw := F.rd (F.rd (cruisePoint F q cd k (F.rd (w * frac)) * frac) * F.rd (1 / fact))
  stringHp F tow_kg eta tw (kts2mps F ktas)

/-- constraintanalysis.py:1786-1794 with the requirement of 1222-1255, not mapped to sea level -/
def climbHp (alt kias fpm cd k w frac tow_kg eta : ℝ) : ℝ :=
  let d := isadens F M off alt
  let d0 := isadens F M off 0
  let v := atm_eas2tas F d d0 (kts2mps F kias)
  let roc := atm_eas2tas F d d0 (fpm2mps F fpm)
  let tw := F.rd (climbPoint F M roc v (dynamicpressure_pa F M d v) cd k (F.rd (w * frac)) * frac)
  stringHp F tow_kg eta tw (kts2mps F (atm_eas2tas F d d0 kias))

/-- constraintanalysis.py:1806-1814 with the requirement of 1343-1375, not mapped to sea level -/
def ceilingHp (alt kias cd k w frac tow_kg eta : ℝ) : ℝ :=
  let d := isadens F M off alt
  let d0 := isadens F M off 0
  let v := atm_eas2tas F d d0 (kts2mps F kias)
  let roc := atm_eas2tas F d d0 (fpm2mps F 100)
  let tw := F.rd (ceilingPoint F roc v (dynamicpressure_pa F M d v) cd k (F.rd (w * frac)) * frac)
  stringHp F tow_kg eta tw (kts2mps F (atm_eas2tas F d d0 kias))

/-- constraintanalysis.py:1759-1765 with the requirement of 1493-1498, not mapped to sea level, `map2static() = 1.0` -/
def takeoffHp (elev groundrun clmaxto cdto clto mu_r w tow_kg eta : ℝ) : ℝ :=
  let lof := pistonLof F M off elev clmaxto w
  stringHp F tow_kg eta (F.rd (1 * takeoffPoint F M groundrun cdto clto mu_r lof)) lof

/-- constraintanalysis.py:1768, 1777-1783 with the requirement of 1524-1541, 1629-1643, not mapped to sea level -/
def turnHp (alt ktas cd nturn k w turnfrac climbfrac tow_kg eta : ℝ) : ℝ :=
  let q := dynamicpressure_pa F M (isadens F M off alt) (kts2mps F ktas)
  let wsturn := F.rd (w * turnfrac)
  stringHp F tow_kg eta (F.rd (turnPoint F M q cd nturn k wsturn (F.rd (wsturn * climbfrac)) * turnfrac)) (kts2mps F ktas)

/-- constraintanalysis.py:1816-1819 and 1713-1716 for one wing loading: the largest of the five powers or thrust to weight ratios
(comparisons are exact; NaN is left to the theorems) -/
def combinedHp (tko trn clm crs sec : ℝ) : ℝ := max (max (max (max tko trn) clm) crs) sec

end

end Verif.Fl
