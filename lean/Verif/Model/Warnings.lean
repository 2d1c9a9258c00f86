import Verif.Model.Constraint

/-
The warnings issued (`warnings.warn`) on the way to the thrust and power requirements (ADRpy/constraintanalysis.py), which the other
model files leave out. A computation is a list of warnings and a result; a warning before an exception is kept. Repetitions, which
Python's default filter suppresses, are kept as well.
-/

namespace Verif.Aircraft
open Verif Verif.Units

noncomputable section

/-- The warnings, by the line that issues them (constraintanalysis.py; `negativeSpeed` atmospheres.py:663; from `figureSize` on
airworthiness.py:583, 596, 628, 643, 658; from `noData` on, with the quantity named in the message, propulsion.py:217-248 and the like, 322,
712, 1895, 1899; from `unsupportedY` on constraintanalysis.py:1952, 1960, 1966). -/
inductive Warning where
  | machMissing
  | outOfBounds
  | clMissing
  | cruiseMissing
  | noPropulsion
  | deprecatedBpr
  | unknownType
  | etaDefaults (n : ℕ)
  | allInfeasible
  | negativeSpeed
  | figureSize
  | diveAssumed
  | cruiseAboveLevel
  | manoeuvreAboveCruise
  | invertedStall
  | noData (what : String)
  | machHigh
  | machLow
  | unknownChoice
  | ansatzAssumed
  | unsupportedY
  | unsupportedLim
  | unsupportedX
deriving DecidableEq

/-- Warnings issued and the result (stands for Python's `warnings.warn`, constraintanalysis.py:549 and the like). -/
def W (α : Type) := List Warning × PyM α

instance : Monad W where
  pure a := ([], .ok a)
  bind x f := match x with
    | (ws, .ok a) => (ws ++ (f a).1, (f a).2)
    | (ws, .error e) => (ws, .error e)

/-- `warnings.warn` (constraintanalysis.py:549 and the like) -/
def warn (w : Warning) : W Unit := ([w], .ok ())

/-- A warning under a condition (constraintanalysis.py:547-549 and the like) -/
def warnIf (p : Prop) [Decidable p] (w : Warning) : W Unit := if p then warn w else pure ()

/-- A computation without warnings (stands for the calls in constraintanalysis.py that issue none). -/
def quiet {α : Type} (x : PyM α) : W α := ([], x)

/-- atmospheres.py:656-672: `airspeed_mps.any() < 0` compares a boolean with 0, as in `Atmos.mach` -/
def machW (a : Atmos.Atm) (airspeed alt : NumArg) : W (List ℝ) := do
  let v := recastArray airspeed
  let anyTrue : ℤ := if v.any (fun x => decide (x ≠ 0)) then 1 else 0
  warnIf (anyTrue < 0) .negativeSpeed
  quiet (Atmos.mach a airspeed alt)

/-- The element of an array of one (constraintanalysis.py:1503-1505; atmospheres.py:656-672): an exception for other lengths -/
def single (e : PyErr) : List ℝ → PyM ℝ
  | [m] => .ok m
  | _ => .error e

/-- atmospheres.py:656-672 for one airspeed and altitude -/
def mach1W (a : Atmos.Atm) (v alt : ℝ) : W ℝ := do
  let l ← machW a (.scalar v) (.scalar alt)
  quiet (single .typeError l)

/-- A Mach number that may be left out: 0.3, with a warning (constraintanalysis.py:547-550, 627-630, 704-707, 918-921) -/
def givenMach : Option ℝ → W ℝ
  | none => do warn .machMissing; pure 0.3
  | some m => pure m

/-- constraintanalysis.py:552-578: the estimate before it is bounded -/
def oswaldRaw (c : Concept) (m : ℝ) : ℝ :=
  let e_theo := 1 / (1 + hoernerfactor (pyNum c.roottaperratio) (pyNum c.sweep_25_deg) * pyNum c.aspectratio)
  let ke_fuse := 1 - 2 * ((0.114 : ℝ) ^ 2)
  let ke_d0 := 0.85
  e_theo * ke_fuse * ke_d0 * keMach m

/-- constraintanalysis.py:580-585: not below a thousandth, with a warning -/
def boundedW (e : ℝ) : W ℝ :=
  if e < 1e-3 then do
    warn .outOfBounds
    pure 1e-3
  else pure e

/-- constraintanalysis.py:525-585 -/
def oswaldspaneff4W (c : Concept) (mach_inf : Option ℝ) : W ℝ := do
  let m ← givenMach mach_inf
  boundedW (oswaldRaw c m)

/-- constraintanalysis.py:613-631 -/
def oswaldlistW (c : Concept) (whichoswald : Option ℤ) (mach_inf : Option ℝ) : W (List ℝ) :=
  match whichoswald with
  | none => pure []
  | some sel =>
    if sel < 0 then quiet (.error .valueError)
    else
      let ds := Nat.digits 10 sel.toNat
      let l := (if 1 ∈ ds then [oswaldspaneff1 c] else []) ++ (if 2 ∈ ds then [oswaldspaneff2 c] else []) ++
        (if 3 ∈ ds then [oswaldspaneff3 c] else [])
      if 4 ∈ ds then do
        let m ← givenMach mach_inf
        let e ← oswaldspaneff4W c (some m)
        pure (l ++ [e])
      else pure l

/-- constraintanalysis.py:587-640 -/
def induceddragfactW (c : Concept) (whichoswald : Option ℤ) (mach_inf : Option ℝ) : W ℝ := do
  let l ← oswaldlistW c whichoswald mach_inf
  if l.length > 0 then pure (1 / (Real.pi * pyNum c.aspectratio * (l.sum / l.length)))
  else do
    let e ← oswaldspaneff4W c (some 0.3)
    pure (1 / (Real.pi * pyNum c.aspectratio * (0.5 * (oswaldspaneff2 c + e))))

/-- constraintanalysis.py:675-887 -/
def liftslope_pradW (X : Ext) (c : Concept) (mach_inf : Option ℝ) : W ℝ := do
  let m ← givenMach mach_inf
  quiet (liftslope_prad X c (some m))

/-- constraintanalysis.py:947-986, 1014 (the lift slope at the sonic leading edge is evaluated in one branch only; it issues no warning) -/
def kFactorsW (X : Ext) (c : Concept) (m : ℝ) : W (ℝ × ℝ × ℝ) := do
  let k_oswald ← induceddragfactW c (some 24) (some (min m 0.6))
  let ls ← liftslope_pradW X c (some m)
  let ls_star ← liftslope_pradW X c (some (machstar_le c))
  pure (k_oswald, 1 / ls, k100 (pyNum c.aspectratio) (machstar_le c) (1 / ls_star) (1 / ls) m)

/-- constraintanalysis.py:937-945 -/
def clCruiseW (c : Concept) (ws : List ℝ) : W (List ℝ) := do
  warnIf (c.cruisespeed_ktas = none ∨ c.cruisealt_m = none) .cruiseMissing
  quiet (clCruise c ws)

/-- constraintanalysis.py:998-1001 -/
def clDiffW (cl_real : Option (List ℝ)) (cl_cruise : List ℝ) : W (List ℝ) :=
  match cl_real with
  | none => pure [0]
  | some cl => quiet (broadcast2 (fun x y => x - y) cl cl_cruise)

/-- constraintanalysis.py:889-1018 -/
def induceddragfact_lesmW (X : Ext) (c : Concept) (ws : Option (List ℝ)) (cl_real : Option (List ℝ))
    (mach_inf : Option ℝ) : W (List ℝ) := do
  let m ← givenMach mach_inf
  warnIf (cl_real = none) .clMissing
  let ws ← quiet (lesmWingloading c ws)
  let cl_cruise ← clCruiseW c ws
  let (k_oswald, k_0, k_100) ← kFactorsW X c m
  let cl_diff ← clDiffW cl_real cl_cruise
  quiet (broadcast2 (fun d cc => kBlend k_oswald k_0 k_100 (machstar_le c) m d cc) cl_diff cl_cruise)

/-- constraintanalysis.py:1044-1058 -/
def bprPropulsionW (bpr : ℝ) : W PropAttr :=
  if bpr ≥ 0 then pure (.str "jet")
  else if bpr = -1 then pure (.str "piston")
  else if bpr = -2 then pure (.str "turboprop")
  else if bpr = -3 then pure (.str "electric")
  else if -3 ≤ bpr ∧ bpr < 0 then do
    warn .deprecatedBpr
    pure .pyFalse
  else quiet (.error .valueError)

/-- constraintanalysis.py:1038-1058 -/
def resolvePropulsionW (c : Concept) : W PropAttr :=
  match c.propulsion with
  | .pyFalse => do
    warn .noPropulsion
    bprPropulsionW (pyNum c.bpr)
  | p => pure p

/-- constraintanalysis.py:1072-1104 at one Mach number -/
def strCorrW (X : Ext) (c : Concept) (s : String) (temp_c pressure_pa density mach : ℝ) : W ℝ :=
  if s = "turboprop" then pure (X.turboprop (density / 1.2249998682209657) mach)
  else if s = "piston" then pure (Atmos.pistonpowerfactor density)
  else if s = "electric" then pure 1
  else if s = "jet" then quiet (jetFactor c temp_c pressure_pa mach)
  else do
    warn .unknownType
    pure 1

/-- constraintanalysis.py:1072-1104 over the Mach numbers -/
def strCorrAllW (X : Ext) (c : Concept) (s : String) (t p d : ℝ) : List ℝ → W (List ℝ)
  | [] => pure []
  | m :: ms => do
    let x ← strCorrW X c s t p d m
    let xs ← strCorrAllW X c s t p d ms
    pure (x :: xs)

/-- constraintanalysis.py:1061-1140. The tests `'tcorr' not in locals()` (1133-1140) never hold, both names being set in 1061-1062, so
their warnings are not modelled. -/
def corrOfW (X : Ext) (c : Concept) (pr : PropAttr) (ms : List ℝ) (alt : ℝ) : W (NumArg × NumArg) :=
  match pr with
  | .str s => do
    let t ← quiet (temp1c c.designatm alt)
    let p ← quiet (Atmos.press1 c.designatm alt)
    let d ← quiet (Atmos.dens1 c.designatm alt)
    let ts ← strCorrAllW X c s t p d ms
    pure (.array ts, .array (ms.map (fun _ => 1)))
  | .pair e => pure (engineCorr e ms alt)
  | .pyFalse => pure (.array (ms.map (fun _ => 1)), .array (ms.map (fun _ => 1)))

/-- constraintanalysis.py:1035-1142 -/
def slcorrW (X : Ext) (c : Concept) (v : NumArg) (alt : ℝ) : W (NumArg × NumArg) := do
  let pr ← resolvePropulsionW c
  let ms ← machW c.designatm v (.scalar alt)
  corrOfW X c pr ms alt

/-- constraintanalysis.py:1144-1260 -/
def twrequired_clmW (X : Ext) (c : Concept) (wingloading : NumArg) (map2sl : Bool) : W NumArg := do
  let climbspeed_kias ← quiet (need c.climbspeed_kias)
  let climbrate_fpm ← quiet (need c.climbrate_fpm)
  let ws := recastArray wingloading
  let alt := pyNum c.climbalt_m
  let v ← quiet (Atmos.eas2tas c.designatm (kts2mps climbspeed_kias) alt)
  let roc ← quiet (Atmos.eas2tas c.designatm (fpm2mps climbrate_fpm) alt)
  let (tcorr, _) ← slcorrW X c (.scalar v) alt
  let wsclimb := ws.map (fun w => w * pyNum c.climb_weight_fraction)
  let q ← quiet (Atmos.dynamicpressure_pa c.designatm v alt)
  let cl := wsclimb.map (fun w => w / q)
  let m ← mach1W c.designatm v alt
  let k ← induceddragfact_lesmW X c (some ws) (some cl) (some m)
  let tw ← quiet (broadcast2 (fun k w => climbPoint roc v q (pyNum c.cdminclean) k w) k wsclimb)
  let tw ← quiet (mapSl map2sl tw tcorr)
  let tw := tw.map (fun t => t * pyNum c.climb_weight_fraction)
  pure (Atmos.revert tw)

/-- constraintanalysis.py:1262-1316 -/
def twrequired_crsW (X : Ext) (c : Concept) (wingloading : NumArg) (map2sl : Bool) : W NumArg := do
  let cruisespeed_ktas ← quiet (need c.cruisespeed_ktas)
  let v := kts2mps cruisespeed_ktas
  let alt ← quiet (need c.cruisealt_m)
  let (tcorr, _) ← slcorrW X c (.scalar v) alt
  let ws := recastArray wingloading
  let wscruise := ws.map (fun w => w * pyNum c.cruise_weight_fraction)
  let q ← quiet (Atmos.dynamicpressure_pa c.designatm v alt)
  let cl := wscruise.map (fun w => w / q)
  let m ← mach1W c.designatm v alt
  let k ← induceddragfact_lesmW X c (some ws) (some cl) (some m)
  let tw ← quiet (broadcast2 (fun k w => cruisePoint q (pyNum c.cdminclean) k w) k wscruise)
  let tw ← quiet (mapSl map2sl tw tcorr)
  let tw := tw.map (fun t => t * pyNum c.cruise_weight_fraction)
  let tw := tw.map (fun t => t * (1 / pyNum c.cruisethrustfact))
  pure (Atmos.revert tw)

/-- constraintanalysis.py:1318-1380 -/
def twrequired_secW (X : Ext) (c : Concept) (wingloading : NumArg) (map2sl : Bool) : W NumArg := do
  let alt ← quiet (need c.servceil_m)
  let secclimbspd_kias ← quiet (need c.secclimbspd_kias)
  let v ← quiet (Atmos.eas2tas c.designatm (kts2mps secclimbspd_kias) alt)
  let (tcorr, _) ← slcorrW X c (.scalar v) alt
  let ws := recastArray wingloading
  let wssec := ws.map (fun w => w * pyNum c.sec_weight_fraction)
  let q ← quiet (Atmos.dynamicpressure_pa c.designatm v alt)
  let cl := wssec.map (fun w => w / q)
  let m ← mach1W c.designatm v alt
  let k ← induceddragfact_lesmW X c (some ws) (some cl) (some m)
  let roc ← quiet (Atmos.eas2tas c.designatm (fpm2mps 100) alt)
  let tw ← quiet (broadcast2 (fun k w => ceilingPoint roc v q (pyNum c.cdminclean) k w) k wssec)
  let tw ← quiet (mapSl map2sl tw tcorr)
  let tw := tw.map (fun t => t * pyNum c.sec_weight_fraction)
  pure (Atmos.revert tw)

/-- constraintanalysis.py:1503-1505, one element -/
def takeoffSlW (X : Ext) (c : Concept) (tw lof : ℝ) : W ℝ := do
  let (tcorr, _) ← slcorrW X c (.scalar lof) (pyNum c.rwyelevation_m)
  let t ← quiet (single .valueError (recastArray tcorr))
  pure (tw / t)

/-- constraintanalysis.py:1502-1505 -/
def takeoffSlAllW (X : Ext) (c : Concept) : List ℝ → List ℝ → W (List ℝ)
  | tw :: tws, lof :: lofs => do
    let t ← takeoffSlW X c tw lof
    let ts ← takeoffSlAllW X c tws lofs
    pure (t :: ts)
  | _, _ => pure []

/-- constraintanalysis.py:1502 -/
def takeoffMapW (X : Ext) (c : Concept) (map2sl : Bool) (tw lof : List ℝ) : W (List ℝ) :=
  if map2sl then takeoffSlAllW X c tw lof else pure tw

/-- constraintanalysis.py:1429-1512 -/
def twrequired_toW (X : Ext) (c : Concept) (wingloading : NumArg) (map2sl : Bool) : W (NumArg × NumArg × NumArg) := do
  let _ ← quiet (need c.groundrun_m)
  let ws := recastArray wingloading
  let (tw, lof) ← quiet (thrusttoweight_takeoff c ws)
  let tw := tw.map (fun t => map2static c * t)
  let tw ← takeoffMapW X c map2sl tw lof
  let av := lof.map (fun v => v / √2)
  pure (Atmos.revert tw, Atmos.revert lof, Atmos.revert av)

/-- constraintanalysis.py:1524-1541 -/
def thrusttoweight_sustainedturnW (X : Ext) (c : Concept) (ws : List ℝ) : W (List ℝ × List ℝ) := do
  let v := kts2mps (pyNum c.turnspeed_ktas)
  let alt := pyNum c.turnalt_m
  let m ← mach1W c.designatm v alt
  let wsclimb := ws.map (fun w => w * pyNum c.climb_weight_fraction)
  let q ← quiet (Atmos.dynamicpressure_pa c.designatm v alt)
  let cl := wsclimb.map (fun w => w * pyNum c.stloadfactor / q)
  let k ← induceddragfact_lesmW X c (some ws) (some cl) (some m)
  let tw ← quiet (broadcast2 (fun k w => turnPoint q (pyNum c.cdminclean) (pyNum c.stloadfactor) k w
    (w * pyNum c.climb_weight_fraction)) k ws)
  pure (tw, cl)

/-- constraintanalysis.py:1543-1665 -/
def twrequired_trnW (X : Ext) (c : Concept) (wingloading : NumArg) (map2sl : Bool) : W (NumArg × NumArg × NanArg) := do
  let turnspeed_ktas ← quiet (need c.turnspeed_ktas)
  let _ ← quiet (need c.stloadfactor)
  let ws := recastArray wingloading
  let wsturn := ws.map (fun w => w * pyNum c.turn_weight_fraction)
  let (tw, cl) ← thrusttoweight_sustainedturnW X c wsturn
  let v := kts2mps turnspeed_ktas
  let (tcorr, _) ← slcorrW X c (.scalar v) (pyNum c.turnalt_m)
  let tw ← quiet (mapSl map2sl tw tcorr)
  let tw := tw.map (fun t => t * pyNum c.turn_weight_fraction)
  let fe := feasible (pyNum c.clmaxclean) tw cl
  pure (Atmos.revert tw, Atmos.revert cl, revertNan fe)

/-- constraintanalysis.py:1667-1730 -/
def twrequiredW (X : Ext) (c : Concept) (wingloading : NumArg) (feasibleonly map2sl : Bool) : W Req := do
  let w := NumArg.array (recastArray wingloading)
  let (tw_to, lof, av) ← twrequired_toW X c w map2sl
  let (tw_trn, cl, fe) ← twrequired_trnW X c w map2sl
  let tw_clm ← twrequired_clmW X c w map2sl
  let tw_crs ← twrequired_crsW X c w map2sl
  let tw_sec ← twrequired_secW X c w map2sl
  let comb ← quiet (amax (toNan tw_to) [if feasibleonly then fe else toNan tw_trn, toNan tw_clm, toNan tw_crs,
    toNan tw_sec])
  pure { takeoff := tw_to, liftoffspeed := lof, avspeed := av, turn := tw_trn, turnfeasible := fe,
         turncl := cl, climb := tw_clm, cruise := tw_crs, servceil := tw_sec, combined := comb }

/-- constraintanalysis.py:1763-1765 and the like -/
def powerSlW (X : Ext) (c : Concept) (map2sl : Bool) (v : NumArg) (alt : ℝ) (p : NumArg) : W NumArg :=
  if map2sl then do
    let (_, pcorr) ← slcorrW X c v alt
    quiet (op2 (fun x y => x / y) p pcorr)
  else pure p

/-- constraintanalysis.py:1780-1783 -/
def powerSlTurnW (X : Ext) (c : Concept) (map2sl : Bool) (v : NumArg) (alt : ℝ) (p : NumArg) (fe : NanArg) :
    W (NumArg × NanArg) :=
  if map2sl then do
    let (_, pcorr) ← slcorrW X c v alt
    let fe ← quiet (op2nan (fun x y => x / y) fe pcorr)
    let p ← quiet (op2 (fun x y => x / y) p pcorr)
    pure (p, fe)
  else pure (p, fe)

/-- `np.all(np.isnan(x))` (constraintanalysis.py:1771) -/
def allNan : NanArg → Bool
  | .scalar x => x.isNone
  | .array xs => xs.all (fun x => x.isNone)

/-- constraintanalysis.py:1732-1833 -/
def powerrequiredW (X : Ext) (c : Concept) (wingloading : NumArg) (tow_kg : ℝ) (feasibleonly map2sl : Bool) : W Req := do
  warnIf (c.etadefaultflag > 0) (.etaDefaults c.etadefaultflag)
  let r ← twrequiredW X c wingloading feasibleonly false
  let p_to ← quiet (powerOf tow_kg (pyNum c.etaprop_to) r.takeoff r.liftoffspeed)
  let p_to ← powerSlW X c map2sl r.liftoffspeed (pyNum c.rwyelevation_m) p_to
  let v_trn := NumArg.scalar (kts2mps (pyNum c.turnspeed_ktas))
  let fe ← quiet (powerOfNan tow_kg (pyNum c.etaprop_turn) r.turnfeasible v_trn)
  warnIf (allNan fe = true) .allInfeasible
  let p_trn ← quiet (powerOf tow_kg (pyNum c.etaprop_turn) r.turn v_trn)
  let (p_trn, fe) ← powerSlTurnW X c map2sl v_trn (pyNum c.turnalt_m) p_trn fe
  let climbspeed_ktas ← quiet (Atmos.eas2tas c.designatm (pyNum c.climbspeed_kias) (pyNum c.climbalt_m))
  let v_clm := NumArg.scalar (kts2mps climbspeed_ktas)
  let p_clm ← quiet (powerOf tow_kg (pyNum c.etaprop_climb) r.climb v_clm)
  let p_clm ← powerSlW X c map2sl v_clm (pyNum c.climbalt_m) p_clm
  let v_crs := NumArg.scalar (kts2mps (pyNum c.cruisespeed_ktas))
  let p_crs ← quiet (powerOf tow_kg (pyNum c.etaprop_cruise) r.cruise v_crs)
  let p_crs ← powerSlW X c map2sl v_crs (pyNum c.cruisealt_m) p_crs
  let secclimbspeed_ktas ← quiet (Atmos.eas2tas c.designatm (pyNum c.secclimbspd_kias) (pyNum c.servceil_m))
  let v_sec := NumArg.scalar (kts2mps secclimbspeed_ktas)
  let p_sec ← quiet (powerOf tow_kg (pyNum c.etaprop_sec) r.servceil v_sec)
  let p_sec ← powerSlW X c map2sl v_sec (pyNum c.servceil_m) p_sec
  let comb ← quiet (amax (toNan p_to) [if feasibleonly then fe else toNan p_trn, toNan p_clm, toNan p_crs,
    toNan p_sec])
  pure { takeoff := p_to, liftoffspeed := r.liftoffspeed, avspeed := r.avspeed, turn := p_trn,
         turnfeasible := fe, turncl := r.turncl, climb := p_clm, cruise := p_crs, servceil := p_sec,
         combined := comb }

end

end Verif.Aircraft
