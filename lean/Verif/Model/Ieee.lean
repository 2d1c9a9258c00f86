import Verif.Model.ConstraintFloat
import Verif.Model.CsFloat

/-
The formulas of the constraint analysis and of CS-23 in IEEE 754 binary64 with its bounds of the exponent: a result that is too large is
infinite and one that is too small loses digits. `none` stands for infinity (what the code computes from an infinity is not modelled: once
there is one, the result counts as lost).
-/

namespace Verif.Ieee
open Verif.Fl (rd64 roundEven)
open Verif.Airworthiness (Cat)

noncomputable section

/-- The result of one operation of Python floats (ADRpy/, for instance unitconversions.py:19-182): the nearest binary64 number; infinity when
that has an exponent above 1023; a multiple of 2⁻¹⁰⁷⁴ when the exact result is below 2⁻¹⁰²². -/
def ieee (x : ℝ) : Option ℝ :=
  if (2 : ℝ) ^ (1024 : ℤ) ≤ |rd64 x| then none
  else if |x| < (2 : ℝ) ^ (-1022 : ℤ) then some (roundEven (x / (2 : ℝ) ^ (-1074 : ℤ)) * (2 : ℝ) ^ (-1074 : ℤ))
  else some (rd64 x)

/-- The `pow` of the C library behind Python's `**` (constraintanalysis.py:1247, 1424, 1539; atmospheres.py:728; airworthiness.py:183, 359):
within one unit in the last place where the result is well inside the range of the exponent; anything elsewhere. -/
structure CLib where
  pow : ℝ → ℝ → Option ℝ
  pow_ok : ∀ x y : ℝ, 0 < x → (2 : ℝ) ^ (-1000 : ℤ) ≤ x ^ y → x ^ y ≤ (2 : ℝ) ^ (1000 : ℤ) →
    ∃ z, pow x y = some z ∧ |z - x ^ y| ≤ 2 * (2 : ℝ) ^ (-53 : ℤ) * x ^ y

variable (L : CLib)

/-- unitconversions.py:95-97 -/
def kts2mps (speed_kts : ℝ) : Option ℝ := do ieee (speed_kts * (← ieee 0.5144444))

/-- unitconversions.py:91-93 -/
def mps2kts (speed_mps : ℝ) : Option ℝ := do ieee (speed_mps * (← ieee 1.9438445))

/-- unitconversions.py:23-25 -/
def feet2m (length_feet : ℝ) : Option ℝ := do ieee (length_feet * (← ieee 0.3048))

/-- unitconversions.py:119-122 -/
def fpm2mps (speed_fpm : ℝ) : Option ℝ := do ieee ((← feet2m speed_fpm) / 60)

/-- unitconversions.py:136-138 -/
def n2lbf (force_n : ℝ) : Option ℝ := do ieee (force_n * (← ieee 0.224809))

/-- unitconversions.py:140-150 -/
def wn2hpkg (powertoweight_wn : ℝ) : Option ℝ := do
  let a ← ieee (powertoweight_wn * (← ieee 9.80665))
  let b ← ieee (a / 1000)
  ieee (b * (← ieee 1.34102))

/-- atmospheres.py:728 for one density and one airspeed -/
def dynamicpressure_pa (d v : ℝ) : Option ℝ := do
  let a ← ieee (0.5 * d)
  let b ← L.pow v 2
  ieee (a * b)

/-- atmospheres.py:756-757 for the densities at altitude and at sea level -/
def atm_eas2tas (d d0 eas : ℝ) : Option ℝ := do
  let a ← ieee (d / d0)
  let b ← ieee √a
  ieee (eas / b)

/-- constraintanalysis.py:1303 for one wing loading -/
def cruisePoint (q cd k w : ℝ) : Option ℝ := do
  let a ← ieee (1 / w)
  let b ← ieee (a * q)
  let c ← ieee (b * cd)
  let e ← ieee (k / q)
  let f ← ieee (e * w)
  ieee (c + f)

/-- constraintanalysis.py:1285-1311 for one wing loading -/
def cruiseTw (ktas d cd k w frac tcorr fact : ℝ) : Option ℝ := do
  let v ← kts2mps ktas
  let q ← dynamicpressure_pa L d v
  let wc ← ieee (w * frac)
  let a ← cruisePoint q cd k wc
  let b ← ieee (a / tcorr)
  let c ← ieee (b * frac)
  let e ← ieee (1 / fact)
  ieee (c * e)

/-- constraintanalysis.py:1368-1369 for one wing loading -/
def ceilingPoint (roc v q cd k w : ℝ) : Option ℝ := do
  let r ← ieee (roc / v)
  let a ← ieee (1 / w)
  let b ← ieee (a * q)
  let c ← ieee (b * cd)
  let s ← ieee (r + c)
  let e ← ieee (k / q)
  let f ← ieee (e * w)
  ieee (s + f)

/-- constraintanalysis.py:1343-1375 for one wing loading -/
def ceilingTw (kias d d0 cd k w frac tcorr : ℝ) : Option ℝ := do
  let v ← atm_eas2tas d d0 (← kts2mps kias)
  let q ← dynamicpressure_pa L d v
  let roc ← atm_eas2tas d d0 (← fpm2mps 100)
  let wc ← ieee (w * frac)
  let a ← ceilingPoint roc v q cd k wc
  let b ← ieee (a / tcorr)
  ieee (b * frac)

/-- constraintanalysis.py:1242-1249 for one wing loading -/
def climbPoint (roc v q cd k w : ℝ) : Option ℝ := do
  let p ← ieee (1 * roc)
  let r ← ieee (p / v)
  let a ← ieee (1 / w)
  let b ← ieee (a * q)
  let c ← ieee (b * cd)
  let s ← ieee (r + c)
  let e ← ieee (k / q)
  let f ← ieee (e * w)
  let t ← ieee (roc / v)
  let t2 ← L.pow t 2
  let m ← ieee (1 - t2)
  let g ← ieee (f * m)
  ieee (s + g)

/-- constraintanalysis.py:1222-1255 for one wing loading -/
def climbTw (kias fpm d d0 cd k w frac tcorr : ℝ) : Option ℝ := do
  let v ← atm_eas2tas d d0 (← kts2mps kias)
  let roc ← atm_eas2tas d d0 (← fpm2mps fpm)
  let q ← dynamicpressure_pa L d v
  let wc ← ieee (w * frac)
  let a ← climbPoint L roc v q cd k wc
  let b ← ieee (a / tcorr)
  ieee (b * frac)

/-- constraintanalysis.py:1420-1422 for one wing loading -/
def liftoffPoint (d clmaxto w : ℝ) : Option ℝ := do
  let c ← ieee 1.1
  let a ← ieee (2 * w)
  let b ← ieee (d * clmaxto)
  let e ← ieee (a / b)
  let f ← ieee √e
  ieee (c * f)

/-- constraintanalysis.py:1424-1425 for one lift-off speed -/
def takeoffPoint (groundrun cdto clto mu_r lof : ℝ) : Option ℝ := do
  let p ← L.pow lof 2
  let g ← ieee 9.80665
  let a ← ieee (2 * g)
  let b ← ieee (a * groundrun)
  let c ← ieee (p / b)
  let e ← ieee (0.5 * cdto)
  let f ← ieee (e / clto)
  let s ← ieee (c + f)
  let m ← ieee (0.5 * mu_r)
  ieee (s + m)

/-- constraintanalysis.py:1539 for one wing loading -/
def turnPoint (q cd nturn k w wsclimb : ℝ) : Option ℝ := do
  let a ← ieee (cd / w)
  let n ← ieee (nturn / q)
  let p ← L.pow n 2
  let b ← ieee (k * p)
  let c ← ieee (b * wsclimb)
  let s ← ieee (a + c)
  ieee (q * s)

/-- constraintanalysis.py:1760-1762, 2450-2521 for one wing loading: power in hp -/
def powerPoint (tow_kg eta tw speed : ℝ) : Option ℝ := do
  let a ← ieee (tw * speed)
  let b ← ieee (a / eta)
  let c ← wn2hpkg b
  ieee (c * tow_kg)

/-- airworthiness.py:165-166, given the sea level density -/
def vs_keas (loadfactor weight_n wingarea_m2 rho0 cl : ℝ) : Option ℝ := do
  let a ← ieee (loadfactor * weight_n)
  let b ← ieee (0.5 * rho0)
  let c ← ieee (b * wingarea_m2)
  let e ← ieee (c * cl)
  let f ← ieee (a / e)
  let g ← ieee √f
  mps2kts g

/-- airworthiness.py:395, 404-406 -/
def nposNorm (weight_n : ℝ) : Option ℝ := do
  let m ← ieee 3.8
  let c ← ieee 2.1
  let w ← n2lbf weight_n
  let a ← ieee (w + 10000)
  let b ← ieee (24000 / a)
  let e ← ieee (c + b)
  pure (min m e)

/-- airworthiness.py:180 -/
def smc (s ar : ℝ) : Option ℝ := do
  let a ← ieee (s / ar)
  ieee √a

/-- airworthiness.py:182-183 -/
def mac (s ar t : ℝ) : Option ℝ := do
  let p ← ieee (1 + t)
  let a ← ieee (2 / p)
  let c ← smc s ar
  let c_root ← ieee (a * c)
  let k ← ieee (2 / 3)
  let b ← ieee (k * c_root)
  let q ← L.pow t 2
  let e ← ieee (p + q)
  let f ← ieee (b * e)
  ieee (f / p)

/-- airworthiness.py:477 -/
def mu_g (trueloading_pa rho smc liftslope : ℝ) : Option ℝ := do
  let a ← ieee (2 * trueloading_pa)
  let b ← ieee (rho * smc)
  let c ← ieee (b * liftslope)
  let g ← ieee 9.80665
  let e ← ieee (c * g)
  ieee (a / e)

/-- airworthiness.py:480 -/
def k_gust (mu : ℝ) : Option ℝ := do
  let a ← ieee 0.88
  let b ← ieee (a * mu)
  let c ← ieee 5.3
  let e ← ieee (c + mu)
  ieee (b / e)

/-- airworthiness.py:495 -/
def gustIncrement (k_g rho0 gustspeed airspeed liftslope trueloading wfract : ℝ) : Option ℝ := do
  let a ← ieee (k_g * rho0)
  let b ← ieee (a * gustspeed)
  let c ← ieee (b * airspeed)
  let e ← ieee (c * liftslope)
  let f ← ieee (2 * trueloading)
  let g ← ieee (e / f)
  ieee (g / wfract)

/-- airworthiness.py:467, 472, 477-497 for one gust: the positive load factor -/
def gustLoad (weight_n wingarea_m2 ar wfract rho rho0 slope gust keas : ℝ) : Option ℝ := do
  let a ← ieee (weight_n / wingarea_m2)
  let trueloading ← ieee (a * wfract)
  let c ← smc wingarea_m2 ar
  let mu ← mu_g trueloading rho c slope
  let k ← k_gust mu
  let v ← kts2mps keas
  let q ← gustIncrement k rho0 gust v slope trueloading wfract
  ieee (1 + q)

end

end Verif.Ieee
