import Verif.Model.Concept
import Verif.Model.NpInterp
import Mathlib.Analysis.SpecialFunctions.Trigonometric.Inverse
import Mathlib.Analysis.SpecialFunctions.Pow.Real
import Mathlib.Data.Nat.Digits.Defs

/-
Model of the aerodynamic estimates of class AircraftConcept (ADRpy/constraintanalysis.py:510-1033).
Flags `False` in arithmetic count as 0 (`pyNum`). Negative square roots (ValueError), zero divisors
(ZeroDivisionError) and fractional powers of negative numbers (complex) are not modelled; the theorems
exclude them by hypotheses.
-/

namespace Verif.Aircraft
open Verif Verif.Units

noncomputable section

/-- constraintanalysis.py:459 (`math.radians`) -/
def Concept.sweep_le_rad (c : Concept) : ℝ := Atmos.deg2rad (pyNum c.sweep_le_deg)
/-- constraintanalysis.py:461 -/
def Concept.sweep_25_rad (c : Concept) : ℝ := Atmos.deg2rad (pyNum c.sweep_25_deg)
/-- constraintanalysis.py:463 -/
def Concept.sweep_mt_rad (c : Concept) : ℝ := Atmos.deg2rad (pyNum c.sweep_mt_deg)

/-! ### Oswald efficiency -/

/-- constraintanalysis.py:512-514 -/
def oswaldspaneff1 (c : Concept) : ℝ := 1.78 * (1 - 0.045 * (pyNum c.aspectratio ^ (0.68 : ℝ))) - 0.64

/-- constraintanalysis.py:516-519 -/
def oswaldspaneff2 (c : Concept) : ℝ :=
  let sqrtterm := 4 + pyNum c.aspectratio ^ 2 * (1 + (Real.tan c.sweep_mt_rad) ^ 2)
  2 / (2 - pyNum c.aspectratio + √sqrtterm)

/-- constraintanalysis.py:521-523 -/
def oswaldspaneff3 (c : Concept) : ℝ :=
  4.61 * (1 - 0.045 * (pyNum c.aspectratio ^ (0.68 : ℝ))) * ((Real.cos c.sweep_le_rad) ^ (0.15 : ℝ)) - 3.1

/-- constraintanalysis.py:557-560: Hoerner's factor for a taper ratio and quarter-chord sweep -/
def hoernerfactor (taperratio sweep_25_deg : ℝ) : ℝ :=
  let dtaperratio := -0.357 + 0.45 * Real.exp (-0.0375 * sweep_25_deg)
  let tapercorr := taperratio - dtaperratio
  (0.0524 * tapercorr ^ 4) - (0.15 * tapercorr ^ 3) + (0.1659 * tapercorr ^ 2) - (0.0706 * tapercorr) + 0.0119

/-- constraintanalysis.py:573-576 -/
def keMach (mach_inf : ℝ) : ℝ :=
  if mach_inf > 0.3 then -0.001521 * (((mach_inf / 0.3) - 1) ^ (10.82 : ℝ)) + 1 else 1

/-- constraintanalysis.py:525-585 (an unspecified Mach number is 0.3) -/
def oswaldspaneff4 (c : Concept) (mach_inf : Option ℝ) : ℝ :=
  let mach_inf := mach_inf.getD 0.3
  let e_theo := 1 / (1 + hoernerfactor (pyNum c.roottaperratio) (pyNum c.sweep_25_deg) * pyNum c.aspectratio)
  let ke_fuse := 1 - 2 * ((0.114 : ℝ) ^ 2)
  let ke_d0 := 0.85
  let e := e_theo * ke_fuse * ke_d0 * keMach mach_inf
  if e < 1e-3 then 1e-3 else e

/-- constraintanalysis.py:615-631: the estimates selected by an integer; `none` when the selector is
not an integer. `str` of a negative integer starts with a minus sign, on which `int` raises
ValueError. (`Nat.digits 10 0` is empty where `str(0)` is "0": no difference to the tests.) -/
def oswaldlist (c : Concept) (whichoswald : Option ℤ) (mach_inf : Option ℝ) : PyM (List ℝ) :=
  match whichoswald with
  | none => .ok []
  | some sel =>
    if sel < 0 then .error .valueError
    else
      let ds := Nat.digits 10 sel.toNat
      .ok ((if 1 ∈ ds then [oswaldspaneff1 c] else []) ++ (if 2 ∈ ds then [oswaldspaneff2 c] else []) ++
        (if 3 ∈ ds then [oswaldspaneff3 c] else []) ++
        (if 4 ∈ ds then [oswaldspaneff4 c (some (mach_inf.getD 0.3))] else []))

/-- constraintanalysis.py:587-640 -/
def induceddragfact (c : Concept) (whichoswald : Option ℤ) (mach_inf : Option ℝ) : PyM ℝ := do
  let l ← oswaldlist c whichoswald mach_inf
  let oswaldeff := if l.length > 0 then l.sum / l.length
    else 0.5 * (oswaldspaneff2 c + oswaldspaneff4 c (some 0.3))
  pure (1 / (Real.pi * pyNum c.aspectratio * oswaldeff))

/-! ### Lift slope -/

/-- constraintanalysis.py:642-673 -/
def findchordsweep_rad (c : Concept) (xc : Option ℝ) : PyM ℝ :=
  match xc with
  | none => .error .valueError
  | some xc =>
    if 0 ≤ xc ∧ xc ≤ 1 then
      let sweep_roc := (c.sweep_le_rad - c.sweep_25_rad) / (-0.25)
      .ok (c.sweep_le_rad + sweep_roc * xc)
    else .error .valueError

/-- constraintanalysis.py:728-732 -/
def aSub0 (c : Concept) (m : ℝ) : ℝ :=
  let piar := Real.pi * pyNum c.aspectratio
  let beta_00 := √(1 - m ^ 2)
  let sqrt_term := 1 + (piar / pyNum c.a_0i / Real.cos c.sweep_25_rad) ^ 2 * beta_00 ^ 2
  piar / (1 + √sqrt_term)

/-- constraintanalysis.py:734-736 -/
def aSub3 (c : Concept) (m : ℝ) : ℝ :=
  let piar := Real.pi * pyNum c.aspectratio
  pyNum c.a_0i / (√(1 - m ^ 2) + (pyNum c.a_0i / piar / oswaldspaneff2 c))

/-- constraintanalysis.py:738-740 -/
def aSub4 (c : Concept) (m : ℝ) : ℝ :=
  let piar := Real.pi * pyNum c.aspectratio
  let beta_00 := √(1 - m ^ 2)
  pyNum c.a_0i / (√(beta_00 ^ 2 + (pyNum c.a_0i / piar) ^ 2) + (pyNum c.a_0i / piar))

/-- constraintanalysis.py:727, 742-745 -/
def aSub5 (c : Concept) (m : ℝ) : ℝ :=
  let piar := Real.pi * pyNum c.aspectratio
  let beta_le := √(1 - (m * Real.cos c.sweep_le_rad) ^ 2)
  let a_0_le := pyNum c.a_0i * Real.cos c.sweep_le_rad
  a_0_le / (√(beta_le ^ 2 + (a_0_le / piar) ^ 2) + (a_0_le / piar))

/-- constraintanalysis.py:747-752 -/
def aSub6 (c : Concept) (m sweep_50_rad : ℝ) : ℝ :=
  let piar := Real.pi * pyNum c.aspectratio
  let beta_00 := √(1 - m ^ 2)
  let kappa := pyNum c.a_0i / (2 * Real.pi)
  (2 * piar) / (2 + √((pyNum c.aspectratio * beta_00 / kappa) ^ 2 *
    (1 + (Real.tan sweep_50_rad / beta_00) ^ 2) + 4))

/-- constraintanalysis.py:754-764 -/
def aSub7 (c : Concept) (m sweep_50_rad : ℝ) : ℝ :=
  let piar := Real.pi * pyNum c.aspectratio
  let beta_00 := √(1 - m ^ 2)
  let a_0c := pyNum c.a_0i / beta_00
  let a_0_50 := a_0c * Real.cos sweep_50_rad
  let sweep_eff := sweep_50_rad / (1 + (a_0_50 / piar) ^ 2) ^ (0.25 : ℝ)
  let a_0eff := a_0c * Real.cos sweep_eff
  let powerterm := 1 / (4 * (1 + (|sweep_eff| / (0.5 * Real.pi))))
  let n_s := 1 - (1 / (2 * (1 + (a_0eff / piar) ^ 2) ^ powerterm))
  (2 * a_0eff * n_s) / (1 - (Real.pi * n_s) * (1 / Real.tan (Real.pi * n_s)) + ((4 * a_0eff * n_s ^ 2) / piar))

/-- constraintanalysis.py:766-769 -/
def aSub8 (c : Concept) (m : ℝ) : ℝ :=
  let a_0c := pyNum c.a_0i / √(1 - m ^ 2)
  (a_0c * pyNum c.aspectratio) /
    (√(4 + pyNum c.aspectratio ^ 2 + (a_0c / Real.pi) ^ 2) + a_0c / Real.pi)

/-- constraintanalysis.py:722-771 -/
def a_subsonic (c : Concept) (m : ℝ) : PyM ℝ := do
  let s50 ← findchordsweep_rad c (some 0.5)
  let s50' ← findchordsweep_rad c (some 0.5)
  let l := [aSub0 c m, aSub3 c m, aSub4 c m, aSub5 c m, aSub6 c m s50, aSub7 c m s50', aSub8 c m]
  pure (l.sum / l.length)

/-- constraintanalysis.py:779-791: the delta wing estimate (only for a swept leading edge) -/
def aSup2 (c : Concept) (m : ℝ) : ℝ :=
  let beta_00 := √(m ^ 2 - 1)
  let sweep_shock_rad := if m < 1 then 0 else Real.arccos (1 / m)
  let mm := Real.tan sweep_shock_rad / Real.tan c.sweep_le_rad
  if 0 ≤ mm ∧ mm ≤ 1 then
    let lambda_polynomial := mm * (0.38 + (2.26 * mm) - (0.86 * mm ^ 2))
    (2 * Real.pi ^ 2 * (1 / Real.tan c.sweep_le_rad)) / (Real.pi + lambda_polynomial)
  else 4 / beta_00

/-- constraintanalysis.py:794-796 -/
def aSup3 (m : ℝ) : ℝ := 4 / √(m ^ 2 - 1)

/-- constraintanalysis.py:798-800 -/
def aSup4 (c : Concept) (m : ℝ) : ℝ :=
  4 / √(m ^ 2 - 1) * (1 - (1 / 2 / pyNum c.aspectratio / √(m ^ 2 - 1)))

/-- constraintanalysis.py:773-802 -/
def a_supersonic (c : Concept) (m : ℝ) : ℝ :=
  let l := (if c.sweep_le_rad ≠ 0 then [aSup2 c m] else []) ++ [aSup3 m, aSup4 c m]
  l.sum / l.length

/-- `np.linspace(0, 1.5, 200)` (constraintanalysis.py:826) -/
def xfitdata : List ℝ := (List.range 200).map (fun i : ℕ => 1.5 * (i : ℝ) / 199)

/-- constraintanalysis.py:823-831: aspect ratio and Mach number of the fitted curve -/
def arfit (x : ℝ) : ℝ := x / ((0.05 : ℝ) ^ ((1 : ℝ) / 3))
/-- constraintanalysis.py:819-831 -/
def machfit (x : ℝ) : ℝ :=
  ((3.2784414 * x ^ 2 + -9.73119668 * x + 6.0546588) * ((0.05 : ℝ) ^ ((2 : ℝ) / 3)) + 1) ^ (0.5 : ℝ)

/-- constraintanalysis.py:816-839: Mach number of the lift slope peak -/
def slopepeak_mach (aspectratio : ℝ) : ℝ :=
  match xfitdata.find? (fun x => decide (arfit x ≥ aspectratio)) with
  | some x => machfit x
  | none => ((xfitdata.map machfit).min?).getD 0

/-- Numerics taken from scipy, arbitrary here: `interp1d(xs, ys, kind='cubic')(x)` (used in
constraintanalysis.py:864-865) and `turbopropthrustfactor(dens_ratio, mach)`, a
`RectBivariateSpline` (atmospheres.py:963-992). -/
structure Ext where
  cubic : List ℝ → List ℝ → ℝ → ℝ
  turboprop : ℝ → ℝ → ℝ

/-- constraintanalysis.py:842-865: the transonic interpolant -/
def a_transonic (X : Ext) (c : Concept) (m : ℝ) : PyM ℝ := do
  let mach_apk := slopepeak_mach (pyNum c.aspectratio)
  let cla_son := (Real.pi / 2) * pyNum c.aspectratio
  let delta := 3e-2
  let y0 ← a_subsonic c 0.6
  let y1 ← a_subsonic c (0.6 + delta)
  pure (X.cubic [0.6, 0.6 + delta, mach_apk - 2 * delta, mach_apk + 2 * delta, 1.4 - delta, 1.4]
    [y0, y1, 0.95 * cla_son, 0.95 * cla_son, a_supersonic c (1.4 - delta), a_supersonic c 1.4] m)

/-- constraintanalysis.py:868-870 -/
def weight_sub (m : ℝ) : ℝ := if m < 1 then npInterp2 m 0.6 0.8 1 0 else 0
/-- constraintanalysis.py:871-873 -/
def weight_sup (m : ℝ) : ℝ := if m < 1 then 0 else npInterp2 m 1.3 1.4 0 1

/-- constraintanalysis.py:804-881 as a function of the three estimates at the Mach number -/
def liftslopeblend (m sub sup trans : ℝ) : ℝ :=
  if m < 0.6 then sub
  else if m > 1.4 then sup
  else
    (if 0.6 < m ∧ m < 1.4 then (1 - weight_sub m - weight_sup m) * trans else 0) +
    (if m < 0.8 then weight_sub m * sub else if m > 1.3 then weight_sup m * sup else 0)

/-- constraintanalysis.py:675-887. (The estimates are pure, so evaluating all three before the case
distinction makes no difference.) -/
def liftslope_prad (X : Ext) (c : Concept) (mach_inf : Option ℝ) : PyM ℝ := do
  let m := mach_inf.getD 0.3
  let sub ← a_subsonic c m
  let trans ← a_transonic X c m
  pure (liftslopeblend m sub (a_supersonic c m) trans)

/-! ### Induced drag with leading-edge suction -/

/-- constraintanalysis.py:949 -/
def machstar_le (c : Concept) : ℝ := 1 / Real.cos c.sweep_le_rad

/-- constraintanalysis.py:967-982: the parabola through `(x1, y1)` with slope `m1` there and through
`(x2, y2)`, evaluated at `m`. `np.linalg.solve` is modelled by the unique solution of the system
(theorem `k100parabola_solves` in Props/Aero). -/
def k100parabola (x1 y1 m1 x2 y2 m : ℝ) : ℝ :=
  let a := (y2 - y1 - m1 * (x2 - x1)) / (x2 - x1) ^ 2
  let b := m1 - 2 * a * x1
  let d := y1 - a * x1 ^ 2 - b * x1
  a * m ^ 2 + b * m + d

/-- constraintanalysis.py:959-986: the full-suction factor from the aspect ratio, the sonic leading
edge Mach number, the zero-suction factors at this and at the flight Mach number. -/
def k100 (aspectr mstar k0star k_0 m : ℝ) : ℝ :=
  if m < 1 then 1 / (Real.pi * aspectr)
  else if m < mstar then k100parabola 1 (1 / (Real.pi * aspectr)) 0 mstar k0star m
  else k_0

/-- constraintanalysis.py:991-996 -/
def y_suction (cl_delta cl_crs a c r : ℝ) : ℝ :=
  let k := (-0.5 * cl_crs ^ 2) - (0.25 * cl_crs) - 0.22
  let b := 1 + r * k
  a * (cl_delta - b) * Real.exp (-c * (cl_delta - 0.1)) * -Real.tan (0.1 * (cl_delta - k))

/-- constraintanalysis.py:1004-1016: the factor at one wing loading from the four factors -/
def kBlend (k_oswald k_0 k_100 mstar m cl_diff cl_cruise : ℝ) : ℝ :=
  let y_03 := y_suction cl_diff 0.3 22.5 1.95 0
  let y_08 := y_suction cl_diff 0.8 5.77 1 (-1.29)
  let weight := npInterp2 cl_cruise 0.3 0.8 1 0
  let suctionfactor := weight * y_03 + (1 - weight) * y_08
  let k_suction := suctionfactor * k_100 + (1 - suctionfactor) * k_0
  let weight := (npInterp2 m 0 mstar 1 0) ^ (0.2 : ℝ)
  k_oswald * weight + k_suction * (1 - weight)

/-- constraintanalysis.py:947-986, 1014: the factors that do not depend on the wing loading:
(k_oswald, k_0, k_100). -/
def kFactors (X : Ext) (c : Concept) (m : ℝ) : PyM (ℝ × ℝ × ℝ) := do
  let k_oswald ← induceddragfact c (some 24) (some (min m 0.6))
  let ls ← liftslope_prad X c (some m)
  let ls_star ← liftslope_prad X c (some (machstar_le c))
  pure (k_oswald, 1 / ls, k100 (pyNum c.aspectratio) (machstar_le c) (1 / ls_star) (1 / ls) m)

/-- constraintanalysis.py:937-945: the cruise lift coefficients, one number or one per wing loading -/
def clCruise (c : Concept) (ws : List ℝ) : PyM (List ℝ) :=
  match c.cruisespeed_ktas, c.cruisealt_m with
  | some v, some h => do
    let q ← Atmos.dynamicpressure_pa c.designatm (kts2mps v) h
    pure (ws.map (fun w => w * pyNum c.cruise_weight_fraction / q))
  | _, _ => .ok [0.6]

/-- constraintanalysis.py:927-935 -/
def lesmWingloading (c : Concept) : Option (List ℝ) → PyM (List ℝ)
  | some ws => .ok ws
  | none =>
    match c.weight_n, c.wingarea_m2 with
    | some w, some s => .ok [w / s]
    | _, _ => .error .valueError

/-- constraintanalysis.py:889-1018. Mach numbers are single numbers here (all callers pass
one-element arrays). -/
def induceddragfact_lesm (X : Ext) (c : Concept) (ws : Option (List ℝ)) (cl_real : Option (List ℝ))
    (mach_inf : Option ℝ) : PyM (List ℝ) := do
  let m := mach_inf.getD 0.3
  let ws ← lesmWingloading c ws
  let cl_cruise ← clCruise c ws
  let (k_oswald, k_0, k_100) ← kFactors X c m
  let cl_diff ← match cl_real with
    | none => pure [0]
    | some cl => broadcast2 (fun x y => x - y) cl cl_cruise
  broadcast2 (fun d cc => kBlend k_oswald k_0 k_100 (machstar_le c) m d cc) cl_diff cl_cruise

/-- constraintanalysis.py:1020-1033 -/
def bestclimbspeedprop (c : Concept) (wingloading : NumArg) (altitude_m : ℝ) : PyM NumArg := do
  let ws := recastArray wingloading
  let k ← induceddragfact c none none
  let dragfactor := √(k / (3 * pyNum c.cdminclean))
  let d ← Atmos.dens1 c.designatm altitude_m
  let densfactor := 2 / d
  pure (Atmos.revert (ws.map (fun w => √(densfactor * w * dragfactor))))

end

end Verif.Aircraft
