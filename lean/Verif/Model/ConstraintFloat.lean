import Verif.Model.UnitsFloat
import Verif.Model.Constraint
import Mathlib.Analysis.SpecialFunctions.Log.Basic

/-
The formulas of the constraint analysis (ADRpy/constraintanalysis.py) for one wing loading, and the airspeed conversions, in floating
point: every operation is followed by a rounding. Whole numbers and 0.5 are exact in floating point; `np.sqrt` and `math.sqrt`
are rounded exactly (IEEE 754).
-/

namespace Verif.Fl

/-- The functions of the C library behind Python's `**` (for instance unitconversions.py:170, constraintanalysis.py:1424), `math.exp`
(atmospheres.py:508, 517) and `math.log1p` (atmospheres.py:530, 539): not exactly rounded, but within one unit in the last place. -/
structure Libm (F : Rounding) where
  pow : ℝ → ℝ → ℝ
  pow_err : ∀ x y, 0 < x → |pow x y - x ^ y| ≤ 2 * F.u * x ^ y
  exp : ℝ → ℝ
  exp_err : ∀ x, |exp x - Real.exp x| ≤ 2 * F.u * Real.exp x
  log1p : ℝ → ℝ
  log1p_err : ∀ x, -1 < x → |log1p x - Real.log (1 + x)| ≤ 2 * F.u * |Real.log (1 + x)|

noncomputable section

variable (F : Rounding) (M : Libm F)

/-- unitconversions.py:168-170 -/
def tas2eas (tas localairdensity_kgm3 : ℝ) : ℝ := F.rd (tas * M.pow (F.rd (localairdensity_kgm3 / F.rd 1.225)) 0.5)

/-- unitconversions.py:172-174 -/
def eas2tas (eas localairdensity_kgm3 : ℝ) : ℝ := F.rd (eas / M.pow (F.rd (localairdensity_kgm3 / F.rd 1.225)) 0.5)

/-- atmospheres.py:728 for one density and one airspeed -/
def dynamicpressure_pa (d v : ℝ) : ℝ := F.rd (F.rd (0.5 * d) * M.pow v 2)

/-- atmospheres.py:756-757 for the densities at altitude and at sea level -/
def atm_eas2tas (d d0 eas : ℝ) : ℝ := F.rd (eas / F.rd √(F.rd (d / d0)))

/-- constraintanalysis.py:1303 for one wing loading -/
def cruisePoint (q cd k w : ℝ) : ℝ :=
  F.rd (F.rd (F.rd (F.rd (1 / w) * q) * cd) + F.rd (F.rd (k / q) * w))

/-- constraintanalysis.py:1285-1311 for one wing loading, given the density at the cruise altitude, the induced drag factor and the thrust
correction -/
def cruiseTw (ktas d cd k w frac tcorr fact : ℝ) : ℝ :=
  let q := dynamicpressure_pa F M d (kts2mps F ktas)
  F.rd (F.rd (F.rd (cruisePoint F q cd k (F.rd (w * frac)) / tcorr) * frac) * F.rd (1 / fact))

/-- constraintanalysis.py:1368-1369 for one wing loading -/
def ceilingPoint (roc v q cd k w : ℝ) : ℝ :=
  F.rd (F.rd (F.rd (roc / v) + F.rd (F.rd (F.rd (1 / w) * q) * cd)) + F.rd (F.rd (k / q) * w))

/-- constraintanalysis.py:1343-1375 for one wing loading, given the densities at the ceiling and at sea level -/
def ceilingTw (kias d d0 cd k w frac tcorr : ℝ) : ℝ :=
  let v := atm_eas2tas F d d0 (kts2mps F kias)
  let q := dynamicpressure_pa F M d v
  let roc := atm_eas2tas F d d0 (fpm2mps F 100)
  F.rd (F.rd (ceilingPoint F roc v q cd k (F.rd (w * frac)) / tcorr) * frac)

/-- constraintanalysis.py:1242-1249 for one wing loading -/
def climbPoint (roc v q cd k w : ℝ) : ℝ :=
  F.rd (F.rd (F.rd (F.rd (1 * roc) / v) + F.rd (F.rd (F.rd (1 / w) * q) * cd)) +
    F.rd (F.rd (F.rd (k / q) * w) * F.rd (1 - M.pow (F.rd (roc / v)) 2)))

/-- constraintanalysis.py:1222-1255 for one wing loading, given the densities at the climb altitude and at sea level -/
def climbTw (kias fpm d d0 cd k w frac tcorr : ℝ) : ℝ :=
  let v := atm_eas2tas F d d0 (kts2mps F kias)
  let roc := atm_eas2tas F d d0 (fpm2mps F fpm)
  let q := dynamicpressure_pa F M d v
  F.rd (F.rd (climbPoint F M roc v q cd k (F.rd (w * frac)) / tcorr) * frac)

/-- constraintanalysis.py:1420-1422 for one wing loading -/
def liftoffPoint (d clmaxto w : ℝ) : ℝ := F.rd (F.rd 1.1 * F.rd √(F.rd (F.rd (2 * w) / F.rd (d * clmaxto))))

/-- constraintanalysis.py:1424-1425 for one lift-off speed -/
def takeoffPoint (groundrun cdto clto mu_r lof : ℝ) : ℝ :=
  F.rd (F.rd (F.rd (M.pow lof 2 / F.rd (F.rd (2 * gAcc F) * groundrun)) + F.rd (F.rd (0.5 * cdto) / clto)) + F.rd (0.5 * mu_r))

/-- constraintanalysis.py:1539 for one wing loading -/
def turnPoint (q cd nturn k w wsclimb : ℝ) : ℝ :=
  F.rd (q * F.rd (F.rd (cd / w) + F.rd (F.rd (k * M.pow (F.rd (nturn / q)) 2) * wsclimb)))

/-- constraintanalysis.py:1533-1536, 1630-1632 for one wing loading: lift coefficient in the turn -/
def turnCl (ktas d nturn w turnfrac climbfrac : ℝ) : ℝ :=
  F.rd (F.rd (F.rd (F.rd (w * turnfrac) * climbfrac) * nturn) / dynamicpressure_pa F M d (kts2mps F ktas))

/-- constraintanalysis.py:2450-2521 -/
def tw2pw (thrusttoweight speed etap : ℝ) : ℝ := F.rd (F.rd (thrusttoweight * speed) / etap)

/-- constraintanalysis.py:1760-1762 for one wing loading: power in hp -/
def powerPoint (tow_kg eta tw speed : ℝ) : ℝ := F.rd (wn2hpkg F (tw2pw F tw speed eta) * tow_kg)

/-- constraintanalysis.py:2446-2447 -/
def wig (h_over_b : ℝ) : ℝ :=
  F.rd (M.pow (F.rd (16 * h_over_b)) 2 / F.rd (1 + M.pow (F.rd (16 * h_over_b)) 2))

end

end Verif.Fl
