import Verif.Model.Constraint
import Verif.Model.Airworthiness

/-
The formulas of the code once more, in an arithmetic that keeps track of undefined operations. The other files of the model use the real
numbers of Mathlib, where `x / 0 = 0`, `√x = 0` for `x < 0`, and so on. Here such an operation has no result (`none`), and an operation with
an operand that has no result has none either. This stands for what the code does there: `math` functions and Python numbers raise
(ZeroDivisionError, ValueError), numpy numbers become inf or nan. Props/Checked relates the two.
-/

namespace Verif.Checked
open Verif

noncomputable section

/-- A finite number, or none. (the numbers in ADRpy/constraintanalysis.py:1144-1660, ADRpy/atmospheres.py:464-620, 895-1027) -/
abbrev Num := Option ℝ

/-- A literal of the code. (e.g. constraintanalysis.py:1247-1249) -/
scoped instance (n : ℕ) [OfNat ℝ n] : OfNat Num n := ⟨some (OfNat.ofNat n)⟩
/-- A literal of the code. (e.g. constraintanalysis.py:514) -/
scoped instance : OfScientific Num := ⟨fun m s e => some (OfScientific.ofScientific m s e)⟩
/-- `x + y` (e.g. constraintanalysis.py:1247) -/
scoped instance : Add Num := ⟨fun a b => do let x ← a; let y ← b; some (x + y)⟩
/-- `x - y` (e.g. constraintanalysis.py:514) -/
scoped instance : Sub Num := ⟨fun a b => do let x ← a; let y ← b; some (x - y)⟩
/-- `x * y` (e.g. constraintanalysis.py:1247) -/
scoped instance : Mul Num := ⟨fun a b => do let x ← a; let y ← b; some (x * y)⟩
/-- `-x` (e.g. constraintanalysis.py:557) -/
scoped instance : Neg Num := ⟨fun a => do let x ← a; some (-x)⟩
open Classical in
/-- `x / y` (e.g. constraintanalysis.py:1247): undefined for `y = 0` -/
scoped instance : Div Num := ⟨fun a b => do let x ← a; let y ← b; if y = 0 then none else some (x / y)⟩
/-- `x ** n` with an integer literal (e.g. constraintanalysis.py:1249) -/
scoped instance : Pow Num ℕ := ⟨fun a n => do let x ← a; some (x ^ n)⟩

open Classical in
/-- `math.sqrt`, `np.sqrt`, `** 0.5` (e.g. constraintanalysis.py:726): undefined below 0 -/
def sqrt (a : Num) : Num := do let x ← a; if x < 0 then none else some (√x)
open Classical in
/-- `x ** p` with a number that is not an integer (e.g. constraintanalysis.py:514): undefined for `x < 0`, and for `x = 0` with `p < 0` -/
def pow (a p : Num) : Num := do
  let x ← a
  let y ← p
  if x < 0 ∨ (x = 0 ∧ y < 0) then none else some (x ^ y)
open Classical in
/-- `math.tan` (e.g. constraintanalysis.py:518); its poles are not floating point numbers, but they are real numbers -/
def tan (a : Num) : Num := do let x ← a; if Real.cos x = 0 then none else some (Real.tan x)
/-- `math.cos` (e.g. constraintanalysis.py:727) -/
def cos (a : Num) : Num := do let x ← a; some (Real.cos x)
/-- `math.exp` (e.g. constraintanalysis.py:557) -/
def exp (a : Num) : Num := do let x ← a; some (Real.exp x)
/-- `abs` (e.g. constraintanalysis.py:759) -/
def abs (a : Num) : Num := do let x ← a; some |x|
open Classical in
/-- `math.log1p(x)` (atmospheres.py:530, 539, 578, 587): undefined for `1 + x ≤ 0` -/
def log1p (a : Num) : Num := do let x ← a; if 1 + x ≤ 0 then none else some (Real.log (1 + x))

/-! ### Requirements -/

/-- constraintanalysis.py:1247-1249 -/
def climb (roc v q cd k w : Num) : Num := 1 * roc / v + (1 / w) * q * cd + (k / q) * w * (1 - (roc / v) ^ 2)

/-- constraintanalysis.py:1303 -/
def cruise (q cd k w : Num) : Num := (1 / w) * q * cd + (k / q) * w

/-- constraintanalysis.py:1368-1369 -/
def ceiling (roc v q cd k w : Num) : Num := roc / v + (1 / w) * q * cd + (k / q) * w

/-- constraintanalysis.py:1420-1422 -/
def liftoff (density clmaxto w : Num) : Num := 1.1 * sqrt ((2 * w) / (density * clmaxto))

/-- constraintanalysis.py:1424-1425 -/
def takeoff (groundrun cdto clto mu_r lof : Num) : Num :=
  (lof ^ 2) / (2 * 9.80665 * groundrun) + 0.5 * cdto / clto + 0.5 * mu_r

/-- constraintanalysis.py:1539 -/
def turn (q cd nturn k w wsclimb : Num) : Num := q * (cd / w + k * ((nturn / q) ^ 2) * wsclimb)

/-- constraintanalysis.py:2381-2388, for a bypass ratio above 1 -/
def tostatic (bpr : Num) : Num := (4 / 3) * (4 + bpr) / (5 + bpr)

/-- constraintanalysis.py:2450-2521 -/
def power (tw v eta : Num) : Num := tw * v / eta

/-- constraintanalysis.py:2351, the speed in metres per second -/
def stall (w rho cl : Num) : Num := sqrt (2 * w / (rho * cl))

/-- constraintanalysis.py:2446-2447 -/
def ground (h_over_b : Num) : Num := ((16 * h_over_b) ^ 2) / (1 + (16 * h_over_b) ^ 2)

/-- constraintanalysis.py:1020-1033, for one wing loading -/
def bestclimb (k cd rho w : Num) : Num := sqrt ((2 / rho) * w * sqrt (k / (3 * cd)))

open Classical in
/-- constraintanalysis.py:1251-1252 and the like: division by the thrust correction -/
def mapped (map2sl : Bool) (tw tcorr : Num) : Num := if map2sl then tw / tcorr else tw

/-- constraintanalysis.py:1236-1255 for one wing loading, given the induced drag factor -/
def reqClimb (map2sl : Bool) (roc v q cd k ws wf tcorr : Num) : Num := mapped map2sl (climb roc v q cd k (ws * wf)) tcorr * wf

/-- constraintanalysis.py:1296-1311 for one wing loading, given the induced drag factor -/
def reqCruise (map2sl : Bool) (q cd k ws wf tcorr tf : Num) : Num := mapped map2sl (cruise q cd k (ws * wf)) tcorr * wf * (1 / tf)

/-- constraintanalysis.py:1354-1375 for one wing loading, given the induced drag factor -/
def reqCeiling (map2sl : Bool) (roc v q cd k ws wf tcorr : Num) : Num := mapped map2sl (ceiling roc v q cd k (ws * wf)) tcorr * wf

/-- constraintanalysis.py:1533-1539, 1642-1654 for one wing loading, given the induced drag factor -/
def reqTurn (map2sl : Bool) (q cd n k ws wf wfclimb tcorr : Num) : Num :=
  mapped map2sl (turn q cd n k (ws * wf) (ws * wf * wfclimb)) tcorr * wf

/-! ### Wing -/

/-- constraintanalysis.py:512-514 -/
def oswald1 (ar : Num) : Num := 1.78 * (1 - 0.045 * pow ar 0.68) - 0.64

/-- constraintanalysis.py:516-519 -/
def oswald2 (ar sweep_mt : Num) : Num := 2 / (2 - ar + sqrt (4 + ar ^ 2 * (1 + (tan sweep_mt) ^ 2)))

/-- constraintanalysis.py:521-523 -/
def oswald3 (ar sweep_le : Num) : Num := 4.61 * (1 - 0.045 * pow ar 0.68) * pow (cos sweep_le) 0.15 - 3.1

/-- constraintanalysis.py:638 -/
def induced (ar e : Num) : Num := 1 / (some Real.pi * ar * e)

/-- constraintanalysis.py:722-732 -/
def sub0 (ar a_0i sweep_25 m : Num) : Num := do
  let beta_00 ← sqrt (1 - m ^ 2)
  (some Real.pi * ar) / (1 + sqrt (1 + ((some Real.pi * ar) / a_0i / cos sweep_25) ^ 2 * some beta_00 ^ 2))

/-- constraintanalysis.py:734-736 -/
def sub3 (ar a_0i oswald m : Num) : Num := a_0i / (sqrt (1 - m ^ 2) + (a_0i / (some Real.pi * ar) / oswald))

/-- constraintanalysis.py:738-740 -/
def sub4 (ar a_0i m : Num) : Num :=
  a_0i / (sqrt (sqrt (1 - m ^ 2) ^ 2 + (a_0i / (some Real.pi * ar)) ^ 2) + (a_0i / (some Real.pi * ar)))

/-- constraintanalysis.py:727, 742-745 -/
def sub5 (ar a_0i sweep_le m : Num) : Num := do
  let beta_le ← sqrt (1 - (m * cos sweep_le) ^ 2)
  let a_0_le ← a_0i * cos sweep_le
  some a_0_le / (sqrt (some beta_le ^ 2 + (some a_0_le / (some Real.pi * ar)) ^ 2) + (some a_0_le / (some Real.pi * ar)))

/-- constraintanalysis.py:747-752 -/
def sub6 (ar a_0i sweep_50 m : Num) : Num := do
  let beta_00 ← sqrt (1 - m ^ 2)
  let kappa ← a_0i / (2 * some Real.pi)
  (2 * (some Real.pi * ar)) / (2 + sqrt ((ar * some beta_00 / some kappa) ^ 2 * (1 + (tan sweep_50 / some beta_00) ^ 2) + 4))

/-- constraintanalysis.py:754-764 -/
def sub7 (ar a_0i sweep_50 m : Num) : Num := do
  let piar ← some Real.pi * ar
  let a_0c ← a_0i / sqrt (1 - m ^ 2)
  let a_0_50 ← some a_0c * cos sweep_50
  let sweep_eff ← sweep_50 / pow (1 + (some a_0_50 / some piar) ^ 2) 0.25
  let a_0eff ← some a_0c * cos (some sweep_eff)
  let powerterm ← 1 / (4 * (1 + (abs (some sweep_eff) / (0.5 * some Real.pi))))
  let n_s ← 1 - (1 / (2 * pow (1 + (some a_0eff / some piar) ^ 2) (some powerterm)))
  (2 * some a_0eff * some n_s) / (1 - (some Real.pi * some n_s) * (1 / tan (some Real.pi * some n_s)) +
    ((4 * some a_0eff * some n_s ^ 2) / some piar))

/-- constraintanalysis.py:766-769 -/
def sub8 (ar a_0i m : Num) : Num := do
  let a_0c ← a_0i / sqrt (1 - m ^ 2)
  (some a_0c * ar) / (sqrt (4 + ar ^ 2 + (some a_0c / some Real.pi) ^ 2) + some a_0c / some Real.pi)

/-- constraintanalysis.py:794-796 -/
def sup3 (m : Num) : Num := 4 / sqrt (m ^ 2 - 1)

/-- constraintanalysis.py:798-800 -/
def sup4 (ar m : Num) : Num := 4 / sqrt (m ^ 2 - 1) * (1 - (1 / 2 / ar / sqrt (m ^ 2 - 1)))

/-- constraintanalysis.py:561 -/
def oswald4theo (hoerner ar : Num) : Num := 1 / (1 + hoerner * ar)

/-- constraintanalysis.py:991-996 -/
def suction (cl_delta cl_crs a c r : Num) : Num := do
  let k ← (-(0.5 * cl_crs ^ 2)) - (0.25 * cl_crs) - 0.22
  let b ← 1 + r * some k
  a * (cl_delta - some b) * exp (-c * (cl_delta - 0.1)) * -tan (0.1 * (cl_delta - some k))

/-! ### Atmosphere and engines -/

/-- atmospheres.py:895-900 -/
def tempratio (temp_c mach : Num) : Num := ((temp_c + 273.15) / (15 + 273.15)) * (1 + (mach ^ 2) * (1.401 - 1) / 2)

/-- atmospheres.py:908-914 -/
def pressratio (pressure mach : Num) : Num :=
  (pressure / 101325) * pow (1 + (mach ^ 2) * (1.401 - 1) / 2) (1.401 / (1.401 - 1))

open Classical in
/-- atmospheres.py:917-941 -/
def turbofan (temp_c pressure mach tr : Num) (ptype : String) : Num := do
  let theta0 ← tempratio temp_c mach
  let delta0 ← pressratio pressure mach
  let t ← tr
  if ptype = "highbpr" then
    if theta0 ≤ t then some delta0 * (1 - 0.49 * sqrt mach)
    else some delta0 * (1 - 0.49 * sqrt mach - 3 * (some theta0 - some t) / (1.5 + mach))
  else if ptype = "lowbpr" then
    if theta0 ≤ t then some delta0
    else some delta0 * (1 - 3.5 * (some theta0 - some t) / some theta0)
  else if theta0 ≤ t then 0.6 * some delta0
  else 0.6 * some delta0 * (1 - 3.8 * (some theta0 - some t) / some theta0)

open Classical in
/-- atmospheres.py:944-960 -/
def turboprop_matt (temp_c pressure mach tr : Num) : Num := do
  let theta0 ← tempratio temp_c mach
  let delta0 ← pressratio pressure mach
  let m ← mach
  let t ← tr
  if m ≤ 0.1 then some delta0
  else if theta0 ≤ t then some delta0 * (1 - 0.96 * pow (some m - 0.1) 0.25)
  else some delta0 * (1 - 0.96 * pow (some m - 0.1) 0.25 - 3 * (some theta0 - some t) / (8.13 * (some m - 0.1)))

open Classical in
/-- atmospheres.py:999-1019 -/
def turbojet (temp_c pressure mach tr : Num) (afterburner : Bool) : Num := do
  let theta0 ← tempratio temp_c mach
  let delta0 ← pressratio pressure mach
  let t ← tr
  if afterburner then
    if theta0 ≤ t then some delta0 * (1 - 0.3 * (some theta0 - 1) - 0.1 * sqrt mach)
    else some delta0 * (1 - 0.3 * (some theta0 - 1) - 0.1 * sqrt mach - 1.5 * (some theta0 - some t) / some t)
  else if theta0 ≤ t then some delta0 * 0.8 * (1 - 0.16 * sqrt mach)
  else some delta0 * 0.8 * (1 - 0.16 * sqrt mach - 24 * (some theta0 - some t) / ((9 + mach) * some theta0))

/-- atmospheres.py:656-672, 882-885 -/
def mach (v temp_k : Num) : Num := v / sqrt (1.4 * 287.05287 * temp_k)

/-- atmospheres.py:756-757 -/
def eas2tas (eas d d0 : Num) : Num := eas / sqrt (d / d0)

/-- atmospheres.py:59-61 -/
def gasdens (p temp : Num) : Num := p / 287.05287 / temp

open Classical in
/-- atmospheres.py:499-518 -/
def isapress (alt : ℝ) : Num :=
  if alt < Atmos.Level1 then pow (some Atmos.C1 + some Atmos.D1 * some alt) (some Atmos.E1)
  else if alt < Atmos.Level2 then some Atmos.F2 * exp (some Atmos.G2 * some alt)
  else if alt < Atmos.Level3 then pow (some Atmos.C3 + some Atmos.D3 * some alt) (some Atmos.E3)
  else if alt < Atmos.Level4 then pow (some Atmos.C4 + some Atmos.D4 * some alt) (some Atmos.E4)
  else some Atmos.F5 * exp (some Atmos.G5 * some alt)

open Classical in
/-- atmospheres.py:547-561 -/
def isadens0 (alt : ℝ) : Num :=
  if alt < Atmos.Level1 then pow (some Atmos.I1 + some Atmos.J1 * some alt) (some Atmos.L1)
  else if alt < Atmos.Level2 then some Atmos.M2 * exp (some Atmos.N2 * some alt)
  else if alt < Atmos.Level3 then pow (some Atmos.I3 + some Atmos.J3 * some alt) (some Atmos.L3)
  else if alt < Atmos.Level4 then pow (some Atmos.I4 + some Atmos.J4 * some alt) (some Atmos.L4)
  else some Atmos.M5 * exp (some Atmos.N5 * some alt)

/-- atmospheres.py:543-566 -/
def isadens (offset_deg alt : ℝ) : Num :=
  isadens0 alt / (1 + some offset_deg / (some (Atmos.isatemp offset_deg alt) - some offset_deg))

open Classical in
/-- atmospheres.py:521-540 -/
def isapressalt (p : ℝ) : Num :=
  if p > Atmos.pLevel1 then (pow (some p) (1 / some Atmos.E1) - some Atmos.C1) / some Atmos.D1
  else if p > Atmos.pLevel2 then (1 / some Atmos.G2) * log1p (some p / some Atmos.F2 - 1)
  else if p > Atmos.pLevel3 then (pow (some p) (1 / some Atmos.E3) - some Atmos.C3) / some Atmos.D3
  else if p > Atmos.pLevel4 then (pow (some p) (1 / some Atmos.E4) - some Atmos.C4) / some Atmos.D4
  else (1 / some Atmos.G5) * log1p (some p / some Atmos.F5 - 1)

open Classical in
/-- atmospheres.py:569-589, for an array with one density -/
def isadensalt (d : ℝ) : Num :=
  if d > Atmos.dLevel1 then (pow (some d) (1 / some Atmos.L1) - some Atmos.I1) / some Atmos.J1
  else if d > Atmos.dLevel2 then (1 / some Atmos.N2) * log1p (some d / some Atmos.M2 - 1)
  else if d > Atmos.dLevel3 then (pow (some d) (1 / some Atmos.L3) - some Atmos.I3) / some Atmos.J3
  else if d > Atmos.dLevel4 then (pow (some d) (1 / some Atmos.L4) - some Atmos.I4) / some Atmos.J4
  else (1 / some Atmos.N5) * log1p (some d / some Atmos.M5 - 1)

/-- atmospheres.py:1022-1027 -/
def piston (density : Num) : Num := 1.132 * (density / 1.225) - 0.132

/-! ### Certification speeds -/

/-- airworthiness.py:166, in metres per second -/
def stallspeed (n w rho s cl : Num) : Num := sqrt ((n * w) / (0.5 * rho * s * cl))

/-- airworthiness.py:180-183: the standard mean chord and the mean aerodynamic chord -/
def chords (s ar t : Num) : Num × Num :=
  (sqrt (s / ar), (2 / 3) * (2 / (1 + t) * sqrt (s / ar)) * (1 + t + t ^ 2) / (1 + t))

/-- airworthiness.py:404 -/
def limitload (mtow_lbf : Num) : Num := 2.1 + 24000 / (mtow_lbf + 10000)

/-- airworthiness.py:477-480 -/
def alleviation (wl rho smc a : Num) : Num := do
  let mu ← (2 * wl) / (rho * smc * a * 9.80665)
  0.88 * some mu / (5.3 + some mu)

/-- airworthiness.py:495 -/
def gustload (kg rho0 u v a wl wfract : Num) : Num := kg * rho0 * u * v * a / (2 * wl) / wfract

/-- airworthiness.py:356-359, in metres per second -/
def gustspeed (a cl kg u wl rho0 wfract : Num) : Num := do
  let b ← -(a / cl) * kg * u
  let c ← -2 * wl / (rho0 * cl) * wfract
  (-some b + sqrt (some b ^ 2 - 4 * 1 * some c)) / (2 * 1)

end

end Verif.Checked
