import Verif.Model.ConstraintFloat
import Verif.Model.Airworthiness

/-
The formulas of CS-23 (ADRpy/airworthiness.py) in floating point: every operation is followed by a rounding. Whole numbers and 0.5 are
exact in floating point; `np.sqrt` and `math.sqrt` are rounded exactly (IEEE 754).
-/

namespace Verif.Fl

open Verif.Airworthiness (Cat)

noncomputable section

variable (F : Rounding) (M : Libm F)

/-- airworthiness.py:395, 404-406: the positive limit load of the normal category -/
def nposNorm (weight_n : ℝ) : ℝ :=
  min (F.rd 3.8) (F.rd (F.rd 2.1 + F.rd (24000 / F.rd (n2lbf F weight_n + 10000))))

/-- airworthiness.py:406-409 -/
def npos_min (weight_n : ℝ) : Cat → ℝ
  | .norm => nposNorm F weight_n
  | .util => F.rd 4.4
  | .comm => nposNorm F weight_n
  | .aero => 6

/-- airworthiness.py:414-417 -/
def nneg_max (weight_n : ℝ) : Cat → ℝ
  | .aero => F.rd (-0.5 * nposNorm F weight_n)
  | _ => F.rd (-F.rd 0.4 * nposNorm F weight_n)

/-- airworthiness.py:165-166, given the sea level density -/
def vs_keas (loadfactor weight_n wingarea_m2 rho0 cl : ℝ) : ℝ :=
  mps2kts F (F.rd √(F.rd (F.rd (loadfactor * weight_n) / F.rd (F.rd (F.rd (0.5 * rho0) * wingarea_m2) * cl))))

/-- airworthiness.py:335 (and 362), given the stall speed and the load factor -/
def speedAtLoad (vs n : ℝ) : ℝ := F.rd (vs * F.rd √n)

/-- airworthiness.py:180 -/
def smc (s ar : ℝ) : ℝ := F.rd √(F.rd (s / ar))

/-- airworthiness.py:182-183 -/
def mac (s ar t : ℝ) : ℝ :=
  let c_root := F.rd (F.rd (2 / F.rd (1 + t)) * F.rd √(F.rd (s / ar)))
  F.rd (F.rd (F.rd (F.rd (2 / 3) * c_root) * F.rd (F.rd (1 + t) + M.pow t 2)) / F.rd (1 + t))

/-- `np.interp(x, [a, b], [ya, yb])` (airworthiness.py:238-240, 295-296, 316-318): the slope times the distance from `a`, plus the value
there (numpy's compiled code). -/
def interp2 (x a b ya yb : ℝ) : ℝ :=
  if x ≤ a then ya else if b ≤ x then yb else F.rd (F.rd (F.rd (F.rd (yb - ya) / F.rd (b - a)) * F.rd (x - a)) + ya)

/-- airworthiness.py:238-240: the gust of `y1` feet per second up to 20000 ft and of `y2` from 50000 ft on -/
def gust_mps (y1 y2 altitude_m : ℝ) : ℝ :=
  interp2 F altitude_m (feet2m F 20000) (feet2m F 50000) (feet2m F y1) (feet2m F y2)

/-- airworthiness.py:477 -/
def mu_g (trueloading_pa rho smc liftslope : ℝ) : ℝ :=
  F.rd (F.rd (2 * trueloading_pa) / F.rd (F.rd (F.rd (rho * smc) * liftslope) * gAcc F))

/-- airworthiness.py:480 -/
def k_gust (mu : ℝ) : ℝ := F.rd (F.rd (F.rd 0.88 * mu) / F.rd (F.rd 5.3 + mu))

/-- airworthiness.py:495 -/
def gustIncrement (k_g rho0 gustspeed airspeed liftslope trueloading wfract : ℝ) : ℝ :=
  F.rd (F.rd (F.rd (F.rd (F.rd (F.rd (k_g * rho0) * gustspeed) * airspeed) * liftslope) / F.rd (2 * trueloading)) / wfract)

/-- airworthiness.py:467, 472, 477-499 for one gust, given the densities, the lift slope and the gust speed: the positive and the negative
load factor -/
def gustLoads (weight_n wingarea_m2 ar wfract rho rho0 slope gust keas : ℝ) : ℝ × ℝ :=
  let trueloading := F.rd (F.rd (weight_n / wingarea_m2) * wfract)
  let k := k_gust F (mu_g F trueloading rho (smc F wingarea_m2 ar) slope)
  let q := gustIncrement F k rho0 gust (kts2mps F keas) slope trueloading wfract
  (F.rd (1 + q), F.rd (1 - q))

/-- airworthiness.py:295-301 -/
def vcmin_keas (wl : ℝ) : Cat → ℝ
  | .aero => F.rd (interp2 F wl 20 100 36 (F.rd 28.6) * F.rd √wl)
  | _ => F.rd (interp2 F wl 20 100 33 (F.rd 28.6) * F.rd √wl)

/-- airworthiness.py:316-323 -/
def vdmin_keas (vc wl : ℝ) (cat : Cat) : ℝ :=
  match cat with
  | .util => max (F.rd (1.25 * vc)) (F.rd (interp2 F wl 20 100 1.5 (F.rd 1.35) * vcmin_keas F wl .util))
  | .aero => max (F.rd (1.25 * vc)) (F.rd (interp2 F wl 20 100 (F.rd 1.55) (F.rd 1.35) * vcmin_keas F wl .aero))
  | .norm => max (F.rd (1.25 * vc)) (F.rd (interp2 F wl 20 100 (F.rd 1.4) (F.rd 1.35) * vcmin_keas F wl .norm))
  | .comm => max (F.rd (1.25 * vc)) (F.rd (interp2 F wl 20 100 (F.rd 1.4) (F.rd 1.35) * vcmin_keas F wl .comm))

/-- airworthiness.py:356-359. The power of the negative `b` is that of `-b` (the C library's `pow` with the exponent 2). -/
def vbmin1_keas (liftslope clmaxclean k_g gust trueloading rho0 wfract : ℝ) : ℝ :=
  let b := F.rd (F.rd (-F.rd (liftslope / clmaxclean) * k_g) * gust)
  let c := F.rd (F.rd (F.rd (-2 * trueloading) / F.rd (rho0 * clmaxclean)) * wfract)
  mps2kts F (F.rd (F.rd (-b + M.pow (F.rd (M.pow (-b) 2 - F.rd (4 * c))) 0.5) / 2))

end

end Verif.Fl
