import Verif.Model.Aero

/-
Model of the constraint analysis of class AircraftConcept
(ADRpy/constraintanalysis.py:1035-1833 and 2303-2521).
-/

namespace Verif.Aircraft
open Verif Verif.Units

noncomputable section

/-! ### Number-or-array arithmetic -/

/-- A number or an array whose entries may be NaN (`none`). (constraintanalysis.py:1657-1665) -/
inductive NanArg where
  | scalar (x : Option ℝ)
  | array (xs : List (Option ℝ))

/-- Element-wise function of a number or array (numpy ufunc).
(for instance constraintanalysis.py:1222-1235) -/
def mapArg (f : ℝ → ℝ) : NumArg → NumArg
  | .scalar x => .scalar (f x)
  | .array xs => .array (xs.map f)

/-- Element-wise function of a number or array with NaN entries: NaN stays NaN.
(constraintanalysis.py:1770-1778) -/
def mapNan (f : ℝ → ℝ) : NanArg → NanArg
  | .scalar x => .scalar (x.map f)
  | .array xs => .array (xs.map (Option.map f))

/-- Numpy binary operation on numbers or arrays: two numbers give a number, otherwise the operands
are broadcast. (for instance constraintanalysis.py:1303) -/
def op2 (f : ℝ → ℝ → ℝ) : NumArg → NumArg → PyM NumArg
  | .scalar x, .scalar y => .ok (.scalar (f x y))
  | a, b => do let r ← broadcast2 f (recastArray a) (recastArray b); pure (.array r)

/-- Broadcasting as in `broadcast2` with NaN entries on the left.
(constraintanalysis.py:1770-1778) -/
def broadcastNan (f : ℝ → ℝ → ℝ) (xs : List (Option ℝ)) (ys : List ℝ) : PyM (List (Option ℝ)) :=
  if xs.length = ys.length then .ok (List.zipWith (fun x y => x.map (f · y)) xs ys)
  else match xs, ys with
    | [x], ys => .ok (ys.map (fun y => x.map (f · y)))
    | xs, [y] => .ok (xs.map (fun x => x.map (f · y)))
    | _, _ => .error .valueError

/-- The entries of a number or array with NaN entries. (constraintanalysis.py:1714, 1817) -/
def NanArg.toList : NanArg → List (Option ℝ)
  | .scalar x => [x]
  | .array xs => xs

/-- `op2` with NaN entries on the left. (constraintanalysis.py:1770-1778) -/
def op2nan (f : ℝ → ℝ → ℝ) : NanArg → NumArg → PyM NanArg
  | .scalar x, .scalar y => .ok (.scalar (x.map (f · y)))
  | a, b => do let r ← broadcastNan f a.toList (recastArray b); pure (.array r)

/-- A number or array without NaN entries. (constraintanalysis.py:1714, 1817) -/
def toNan : NumArg → NanArg
  | .scalar x => .scalar (some x)
  | .array xs => .array (xs.map some)

/-- constraintanalysis.py:1257-1260 and the like (`if len(x) == 1: return x[0]`) with NaN entries. -/
def revertNan : List (Option ℝ) → NanArg
  | [x] => .scalar x
  | xs => .array xs

/-- Largest of two numbers, NaN when one is NaN (`np.amax`). (constraintanalysis.py:1714, 1817) -/
def nanMax : Option ℝ → Option ℝ → Option ℝ
  | some x, some y => some (max x y)
  | _, _ => none

/-- One step of `np.amax([...], 0)`: rows of different shapes do not form an array (ValueError).
(constraintanalysis.py:1714, 1817) -/
def amax2 : NanArg → NanArg → PyM NanArg
  | .scalar x, .scalar y => .ok (.scalar (nanMax x y))
  | .array xs, .array ys =>
    if xs.length = ys.length then .ok (.array (List.zipWith nanMax xs ys)) else .error .valueError
  | _, _ => .error .valueError

/-- `np.amax([a, b, c, d, e], 0)` (constraintanalysis.py:1714, 1716, 1817, 1819). -/
def amax (a : NanArg) (l : List NanArg) : PyM NanArg := l.foldlM amax2 a

/-! ### Sea-level correction -/

/-- constraintanalysis.py:1044-1058 -/
def bprPropulsion (bpr : ℝ) : PyM PropAttr :=
  if bpr ≥ 0 then .ok (.str "jet")
  else if bpr = -1 then .ok (.str "piston")
  else if bpr = -2 then .ok (.str "turboprop")
  else if bpr = -3 then .ok (.str "electric")
  else if -3 ≤ bpr ∧ bpr < 0 then .ok .pyFalse
  else .error .valueError

/-- constraintanalysis.py:1091-1099 -/
def jetFactor (c : Concept) (temp_c pressure_pa mach : ℝ) : PyM ℝ :=
  let bpr := pyNum c.bpr
  if bpr = 0 then .ok (Atmos.turbojetthrustfactor temp_c pressure_pa mach (pyNum c.throttle_r) false)
  else if 0 < bpr ∧ bpr < 5 then
    .ok (Atmos.turbofanthrustfactor temp_c pressure_pa mach (pyNum c.throttle_r) "lowbpr")
  else if 5 ≤ bpr then
    .ok (Atmos.turbofanthrustfactor temp_c pressure_pa mach (pyNum c.throttle_r) "highbpr")
  else .error .valueError

/-- constraintanalysis.py:1070-1104: the thrust correction at one Mach number for a propulsion
string -/
def strCorr (X : Ext) (c : Concept) (s : String) (temp_c pressure_pa density mach : ℝ) : PyM ℝ :=
  if s = "turboprop" then .ok (X.turboprop (density / 1.2249998682209657) mach)
  else if s = "piston" then .ok (Atmos.pistonpowerfactor density)
  else if s = "electric" then .ok 1
  else if s = "jet" then jetFactor c temp_c pressure_pa mach
  else .ok 1

/-- constraintanalysis.py:1066 for one altitude -/
def temp1c (a : Atmos.Atm) (alt : ℝ) : PyM ℝ := do
  match ← Atmos.airtemp_c a (.scalar alt) with
  | .scalar t => pure t
  | .array _ => .error .typeError

/-- constraintanalysis.py:1107-1130: corrections of an engine object at the Mach numbers `ms` -/
def engineCorr (e : Engine) (ms : List ℝ) (alt : ℝ) : NumArg × NumArg :=
  let ones := NumArg.array (ms.map (fun _ => 1))
  match e with
  | .turboprop powercorr => (ones, .array (ms.map (fun m => powercorr m alt)))
  | .piston bestrpm powercorr => (ones, .array [powercorr bestrpm alt])
  | .electric => (.scalar 1, .scalar 1)
  | .jet thrustcorr => (.array (ms.map (fun m => thrustcorr m alt)), ones)
  | .other => (ones, ones)

/-- constraintanalysis.py:1065-1130 for the resolved propulsion and Mach numbers `ms`:
(thrust correction, power correction) -/
def corrOf (X : Ext) (c : Concept) (pr : PropAttr) (ms : List ℝ) (alt : ℝ) : PyM (NumArg × NumArg) :=
  match pr with
  | .str s => do
    let t ← temp1c c.designatm alt
    let p ← Atmos.press1 c.designatm alt
    let d ← Atmos.dens1 c.designatm alt
    let ts ← ms.mapM (strCorr X c s t p d)
    pure (.array ts, .array (ms.map (fun _ => 1)))
  | .pair e => .ok (engineCorr e ms alt)
  | .pyFalse => .ok (.array (ms.map (fun _ => 1)), .array (ms.map (fun _ => 1)))

/-- constraintanalysis.py:1038-1058 -/
def resolvePropulsion (c : Concept) : PyM PropAttr :=
  match c.propulsion with
  | .pyFalse => bprPropulsion (pyNum c.bpr)
  | p => .ok p

/-- constraintanalysis.py:1035-1142; all callers pass `self.designatm`. -/
def slcorr (X : Ext) (c : Concept) (v : NumArg) (alt : ℝ) : PyM (NumArg × NumArg) := do
  let pr ← resolvePropulsion c
  let ms ← Atmos.mach c.designatm v (.scalar alt)
  corrOf X c pr ms alt

/-- constraintanalysis.py:1251-1252 and the like: division by the thrust correction -/
def mapSl (map2sl : Bool) (tw : List ℝ) (tcorr : NumArg) : PyM (List ℝ) :=
  if map2sl then broadcast2 (fun x y => x / y) tw (recastArray tcorr) else .ok tw

/-- A brief entry that must have been given (constraintanalysis.py:1215-1217 and the like). -/
def need : Option ℝ → PyM ℝ
  | some x => .ok x
  | none => .error .valueError

/-! ### Requirements -/

/-- constraintanalysis.py:1247-1249 for one wing loading -/
def climbPoint (roc v q cd k w : ℝ) : ℝ :=
  1 * roc / v + (1 / w) * q * cd + (k / q) * w * (1 - (roc / v) ^ 2)

/-- constraintanalysis.py:1144-1260 -/
def twrequired_clm (X : Ext) (c : Concept) (wingloading : NumArg) (map2sl : Bool) : PyM NumArg := do
  let climbspeed_kias ← need c.climbspeed_kias
  let climbrate_fpm ← need c.climbrate_fpm
  let ws := recastArray wingloading
  let alt := pyNum c.climbalt_m
  let v ← Atmos.eas2tas c.designatm (kts2mps climbspeed_kias) alt
  let roc ← Atmos.eas2tas c.designatm (fpm2mps climbrate_fpm) alt
  let (tcorr, _) ← slcorr X c (.scalar v) alt
  let wsclimb := ws.map (fun w => w * pyNum c.climb_weight_fraction)
  let q ← Atmos.dynamicpressure_pa c.designatm v alt
  let cl := wsclimb.map (fun w => w / q)
  let m ← Atmos.mach1 c.designatm v alt
  let k ← induceddragfact_lesm X c (some ws) (some cl) (some m)
  let tw ← broadcast2 (fun k w => climbPoint roc v q (pyNum c.cdminclean) k w) k wsclimb
  let tw ← mapSl map2sl tw tcorr
  let tw := tw.map (fun t => t * pyNum c.climb_weight_fraction)
  pure (Atmos.revert tw)

/-- constraintanalysis.py:1303 for one wing loading -/
def cruisePoint (q cd k w : ℝ) : ℝ := (1 / w) * q * cd + (k / q) * w

/-- constraintanalysis.py:1262-1316 -/
def twrequired_crs (X : Ext) (c : Concept) (wingloading : NumArg) (map2sl : Bool) : PyM NumArg := do
  let cruisespeed_ktas ← need c.cruisespeed_ktas
  let v := kts2mps cruisespeed_ktas
  let alt ← need c.cruisealt_m
  let (tcorr, _) ← slcorr X c (.scalar v) alt
  let ws := recastArray wingloading
  let wscruise := ws.map (fun w => w * pyNum c.cruise_weight_fraction)
  let q ← Atmos.dynamicpressure_pa c.designatm v alt
  let cl := wscruise.map (fun w => w / q)
  let m ← Atmos.mach1 c.designatm v alt
  let k ← induceddragfact_lesm X c (some ws) (some cl) (some m)
  let tw ← broadcast2 (fun k w => cruisePoint q (pyNum c.cdminclean) k w) k wscruise
  let tw ← mapSl map2sl tw tcorr
  let tw := tw.map (fun t => t * pyNum c.cruise_weight_fraction)
  let tw := tw.map (fun t => t * (1 / pyNum c.cruisethrustfact))
  pure (Atmos.revert tw)

/-- constraintanalysis.py:1368-1369 for one wing loading -/
def ceilingPoint (roc v q cd k w : ℝ) : ℝ := roc / v + (1 / w) * q * cd + (k / q) * w

/-- constraintanalysis.py:1318-1380 -/
def twrequired_sec (X : Ext) (c : Concept) (wingloading : NumArg) (map2sl : Bool) : PyM NumArg := do
  let alt ← need c.servceil_m
  let secclimbspd_kias ← need c.secclimbspd_kias
  let v ← Atmos.eas2tas c.designatm (kts2mps secclimbspd_kias) alt
  let (tcorr, _) ← slcorr X c (.scalar v) alt
  let ws := recastArray wingloading
  let wssec := ws.map (fun w => w * pyNum c.sec_weight_fraction)
  let q ← Atmos.dynamicpressure_pa c.designatm v alt
  let cl := wssec.map (fun w => w / q)
  let m ← Atmos.mach1 c.designatm v alt
  let k ← induceddragfact_lesm X c (some ws) (some cl) (some m)
  let roc ← Atmos.eas2tas c.designatm (fpm2mps 100) alt
  let tw ← broadcast2 (fun k w => ceilingPoint roc v q (pyNum c.cdminclean) k w) k wssec
  let tw ← mapSl map2sl tw tcorr
  let tw := tw.map (fun t => t * pyNum c.sec_weight_fraction)
  pure (Atmos.revert tw)

/-- constraintanalysis.py:1420-1422: lift-off speed at one wing loading -/
def liftoffPoint (density clmaxto w : ℝ) : ℝ := 1.1 * √((2 * w) / (density * clmaxto))

/-- constraintanalysis.py:1424-1425 for one lift-off speed -/
def takeoffPoint (groundrun cdto clto mu_r lof : ℝ) : ℝ :=
  (lof ^ 2) / (2 * gAcc * groundrun) + 0.5 * cdto / clto + 0.5 * mu_r

/-- constraintanalysis.py:1382-1427 (wing loadings as an array) -/
def thrusttoweight_takeoff (c : Concept) (ws : List ℝ) : PyM (List ℝ × List ℝ) := do
  let d ← Atmos.dens1 c.designatm (pyNum c.rwyelevation_m)
  let lof := ws.map (liftoffPoint d (pyNum c.clmaxto))
  pure (lof.map (takeoffPoint (pyNum c.groundrun_m) (pyNum c.cdto) (pyNum c.clto) (pyNum c.mu_r)), lof)

/-- constraintanalysis.py:2381-2388 -/
def map2static (c : Concept) : ℝ :=
  if pyNum c.bpr > 1 then (4 / 3) * (4 + pyNum c.bpr) / (5 + pyNum c.bpr) else 1

/-- constraintanalysis.py:1503-1505: one element of the sea-level mapping loop. The corrections are
one-element arrays or numbers here; assigning anything longer to an array element is a ValueError. -/
def takeoffSl (X : Ext) (c : Concept) (tw lof : ℝ) : PyM ℝ := do
  let (tcorr, _) ← slcorr X c (.scalar lof) (pyNum c.rwyelevation_m)
  match recastArray tcorr with
  | [t] => pure (tw / t)
  | _ => .error .valueError

/-- constraintanalysis.py:1502-1505 -/
def takeoffSlAll (X : Ext) (c : Concept) : List ℝ → List ℝ → PyM (List ℝ)
  | tw :: tws, lof :: lofs => do
    let t ← takeoffSl X c tw lof
    let ts ← takeoffSlAll X c tws lofs
    pure (t :: ts)
  | _, _ => pure []

/-- constraintanalysis.py:1429-1512: (requirement, lift-off speed, average speed) -/
def twrequired_to (X : Ext) (c : Concept) (wingloading : NumArg) (map2sl : Bool) :
    PyM (NumArg × NumArg × NumArg) := do
  let _ ← need c.groundrun_m
  let ws := recastArray wingloading
  let (tw, lof) ← thrusttoweight_takeoff c ws
  let tw := tw.map (fun t => map2static c * t)
  let tw ← if map2sl then takeoffSlAll X c tw lof else pure tw
  let av := lof.map (fun v => v / √2)
  pure (Atmos.revert tw, Atmos.revert lof, Atmos.revert av)

/-- constraintanalysis.py:1514-1522. A bank angle of 0 divides by zero in the code (ZeroDivisionError), which is not modelled. -/
def bank2turnradius (c : Concept) (bankangle_deg : ℝ) : ℝ :=
  (kts2mps (pyNum c.turnspeed_ktas)) ^ 2 / (gAcc * Real.tan (Atmos.deg2rad bankangle_deg))

/-- constraintanalysis.py:1539 for one wing loading: `w` is the argument, `wsclimb` the product with
the climb weight fraction (1533) -/
def turnPoint (q cd nturn k w wsclimb : ℝ) : ℝ := q * (cd / w + k * ((nturn / q) ^ 2) * wsclimb)

/-- constraintanalysis.py:1524-1541 (wing loadings as an array): (requirement, lift coefficient) -/
def thrusttoweight_sustainedturn (X : Ext) (c : Concept) (ws : List ℝ) : PyM (List ℝ × List ℝ) := do
  let v := kts2mps (pyNum c.turnspeed_ktas)
  let alt := pyNum c.turnalt_m
  let m ← Atmos.mach1 c.designatm v alt
  let wsclimb := ws.map (fun w => w * pyNum c.climb_weight_fraction)
  let q ← Atmos.dynamicpressure_pa c.designatm v alt
  let cl := wsclimb.map (fun w => w * pyNum c.stloadfactor / q)
  let k ← induceddragfact_lesm X c (some ws) (some cl) (some m)
  let tw ← broadcast2 (fun k w => turnPoint q (pyNum c.cdminclean) (pyNum c.stloadfactor) k w
    (w * pyNum c.climb_weight_fraction)) k ws
  pure (tw, cl)

/-- constraintanalysis.py:1657-1660: NaN where the lift coefficient is above the clean maximum (the
flag False compares as 0) -/
def feasible (clmax : ℝ) (tw cl : List ℝ) : List (Option ℝ) :=
  List.zipWith (fun t x => if x > clmax then none else some t) tw cl

/-- constraintanalysis.py:1543-1665: (requirement, lift coefficient, feasible requirement) -/
def twrequired_trn (X : Ext) (c : Concept) (wingloading : NumArg) (map2sl : Bool) :
    PyM (NumArg × NumArg × NanArg) := do
  let turnspeed_ktas ← need c.turnspeed_ktas
  let _ ← need c.stloadfactor
  let ws := recastArray wingloading
  let wsturn := ws.map (fun w => w * pyNum c.turn_weight_fraction)
  let (tw, cl) ← thrusttoweight_sustainedturn X c wsturn
  let v := kts2mps turnspeed_ktas
  let (tcorr, _) ← slcorr X c (.scalar v) (pyNum c.turnalt_m)
  let tw ← mapSl map2sl tw tcorr
  let tw := tw.map (fun t => t * pyNum c.turn_weight_fraction)
  let fe := feasible (pyNum c.clmaxclean) tw cl
  pure (Atmos.revert tw, Atmos.revert cl, revertNan fe)

/-- The dictionary of constraintanalysis.py:1718-1728 and 1821-1831. -/
structure Req where
  takeoff : NumArg
  liftoffspeed : NumArg
  avspeed : NumArg
  turn : NumArg
  turnfeasible : NanArg
  turncl : NumArg
  climb : NumArg
  cruise : NumArg
  servceil : NumArg
  combined : NanArg

/-- constraintanalysis.py:1667-1730 -/
def twrequired (X : Ext) (c : Concept) (wingloading : NumArg) (feasibleonly map2sl : Bool) : PyM Req := do
  let w := NumArg.array (recastArray wingloading)
  let (tw_to, lof, av) ← twrequired_to X c w map2sl
  let (tw_trn, cl, fe) ← twrequired_trn X c w map2sl
  let tw_clm ← twrequired_clm X c w map2sl
  let tw_crs ← twrequired_crs X c w map2sl
  let tw_sec ← twrequired_sec X c w map2sl
  let comb ← amax (toNan tw_to) [if feasibleonly then fe else toNan tw_trn, toNan tw_clm, toNan tw_crs,
    toNan tw_sec]
  pure { takeoff := tw_to, liftoffspeed := lof, avspeed := av, turn := tw_trn, turnfeasible := fe,
         turncl := cl, climb := tw_clm, cruise := tw_crs, servceil := tw_sec, combined := comb }

/-- constraintanalysis.py:2450-2521 -/
def tw2pw (thrusttoweight speed etap : ℝ) : ℝ := thrusttoweight * speed / etap

/-- constraintanalysis.py:1760-1762 and the like: power in hp from the thrust requirement, the speed
and the efficiency -/
def powerOf (tow_kg eta : ℝ) (tw speed : NumArg) : PyM NumArg := do
  let pw ← op2 (fun t v => tw2pw t v eta) tw speed
  pure (mapArg (fun x => wn2hpkg x * tow_kg) pw)

/-- constraintanalysis.py:1770, 1774-1775: the same with NaN entries -/
def powerOfNan (tow_kg eta : ℝ) (tw : NanArg) (speed : NumArg) : PyM NanArg := do
  let pw ← op2nan (fun t v => tw2pw t v eta) tw speed
  pure (mapNan (fun x => wn2hpkg x * tow_kg) pw)

/-- constraintanalysis.py:1763-1765 and the like: division by the power correction -/
def powerSl (X : Ext) (c : Concept) (map2sl : Bool) (v : NumArg) (alt : ℝ) (p : NumArg) : PyM NumArg :=
  if map2sl then do
    let (_, pcorr) ← slcorr X c v alt
    op2 (fun x y => x / y) p pcorr
  else .ok p

/-- constraintanalysis.py:1780-1783 -/
def powerSlTurn (X : Ext) (c : Concept) (map2sl : Bool) (v : NumArg) (alt : ℝ) (p : NumArg) (fe : NanArg) :
    PyM (NumArg × NanArg) :=
  if map2sl then do
    let (_, pcorr) ← slcorr X c v alt
    let fe ← op2nan (fun x y => x / y) fe pcorr
    let p ← op2 (fun x y => x / y) p pcorr
    pure (p, fe)
  else .ok (p, fe)

/-- constraintanalysis.py:1732-1833 (the warnings about defaults and all-infeasible turns are left
out) -/
def powerrequired (X : Ext) (c : Concept) (wingloading : NumArg) (tow_kg : ℝ) (feasibleonly map2sl : Bool) :
    PyM Req := do
  let r ← twrequired X c wingloading feasibleonly false
  let p_to ← powerOf tow_kg (pyNum c.etaprop_to) r.takeoff r.liftoffspeed
  let p_to ← powerSl X c map2sl r.liftoffspeed (pyNum c.rwyelevation_m) p_to
  let v_trn := NumArg.scalar (kts2mps (pyNum c.turnspeed_ktas))
  let fe ← powerOfNan tow_kg (pyNum c.etaprop_turn) r.turnfeasible v_trn
  let p_trn ← powerOf tow_kg (pyNum c.etaprop_turn) r.turn v_trn
  let (p_trn, fe) ← powerSlTurn X c map2sl v_trn (pyNum c.turnalt_m) p_trn fe
  let climbspeed_ktas ← Atmos.eas2tas c.designatm (pyNum c.climbspeed_kias) (pyNum c.climbalt_m)
  let v_clm := NumArg.scalar (kts2mps climbspeed_ktas)
  let p_clm ← powerOf tow_kg (pyNum c.etaprop_climb) r.climb v_clm
  let p_clm ← powerSl X c map2sl v_clm (pyNum c.climbalt_m) p_clm
  let v_crs := NumArg.scalar (kts2mps (pyNum c.cruisespeed_ktas))
  let p_crs ← powerOf tow_kg (pyNum c.etaprop_cruise) r.cruise v_crs
  let p_crs ← powerSl X c map2sl v_crs (pyNum c.cruisealt_m) p_crs
  let secclimbspeed_ktas ← Atmos.eas2tas c.designatm (pyNum c.secclimbspd_kias) (pyNum c.servceil_m)
  let v_sec := NumArg.scalar (kts2mps secclimbspeed_ktas)
  let p_sec ← powerOf tow_kg (pyNum c.etaprop_sec) r.servceil v_sec
  let p_sec ← powerSl X c map2sl v_sec (pyNum c.servceil_m) p_sec
  let comb ← amax (toNan p_to) [if feasibleonly then fe else toNan p_trn, toNan p_clm, toNan p_crs,
    toNan p_sec]
  pure { takeoff := p_to, liftoffspeed := r.liftoffspeed, avspeed := r.avspeed, turn := p_trn,
         turnfeasible := fe, turncl := r.turncl, climb := p_clm, cruise := p_crs, servceil := p_sec,
         combined := comb }

/-! ### Stall, ground effect -/

/-- The `clmax` argument of `vstall_kias`: a number or the string 'take-off'.
(constraintanalysis.py:2303-2353) -/
inductive ClArg where
  | num (x : ℝ)
  | takeoff

/-- constraintanalysis.py:2303-2353. `math.sqrt` converts a one-element array to a number, raises
TypeError for any other length and ValueError for a negative number. -/
def vstall_kias (c : Concept) (wingloading : NumArg) (clmax : ClArg) : PyM ℝ := do
  let ws := recastArray wingloading
  let rho0 ← Atmos.dens1 (.isa 0) 0
  let cl := match clmax with
    | .num x => x
    | .takeoff => pyNum c.clmaxto
  match ws with
  | [w] =>
    let x := 2 * w / (rho0 * cl)
    if x < 0 then .error .valueError else pure (mps2kts (√x))
  | _ => .error .typeError

/-- constraintanalysis.py:2355-2373 -/
def wsmaxcleanstall_pa (c : Concept) : PyM ℝ := do
  let cl ← need c.clmaxclean
  let vs ← need c.vstallclean_kcas
  let q ← Atmos.dynamicpressure_pa c.designatm (kts2mps vs) 0
  pure (q * cl)

/-- constraintanalysis.py:2375-2379 -/
def smincleanstall_m2 (c : Concept) (weight_kg : ℝ) : PyM ℝ := do
  let wsmax ← wsmaxcleanstall_pa c
  pure (kg2n weight_kg / wsmax)

/-- constraintanalysis.py:2446-2447 -/
def wig (h_over_b : ℝ) : ℝ := ((16 * h_over_b) ^ 2) / (1 + (16 * h_over_b) ^ 2)

/-- constraintanalysis.py:2390-2443 -/
def wigfactor (c : Concept) : ℝ := wig (pyNum c.wingheightratio)

end

end Verif.Aircraft
