import Verif.Model.DeckCorr

/-
Model of the requirements of an aircraft concept whose propulsion argument is an engine deck: `twrequired` and `powerrequired`
(ADRpy/constraintanalysis.py:1144-1833) with `deckCorr` in the place of `engineCorr`, so that corrections may be NaN. The functions
of `Model/Constraint.lean` are for corrections that are numbers.
-/

namespace Verif.Aircraft
open Verif Verif.Units Verif.Propulsion

noncomputable section

/-- constraintanalysis.py:1060-1142 for a concept whose propulsion is the deck `e`; the propulsion attribute of `c` is not looked at. The two
messages of lines 1132-1140 are never issued (both names are bound in 1061-1062). -/
def deckSlcorr (G : Grid) (e : DeckObj) (c : Concept) (v : NumArg) (alt : ℝ) : PyM (NanArg × NanArg) := do
  let ms ← Atmos.mach c.designatm v (.scalar alt)
  deckCorr G e ms alt

/-- constraintanalysis.py:1251-1252 and the like: division by a thrust correction that may be NaN -/
def mapSlD (map2sl : Bool) (tw : List ℝ) (tcorr : NanArg) : PyM (List (Option ℝ)) :=
  if map2sl then bcast ndiv (tw.map some) tcorr.toList else .ok (tw.map some)

/-- Multiplication of an array with NaN entries by a number. (constraintanalysis.py:1255, 1308, 1311, 1374, 1653) -/
def timesNan (x : ℝ) (l : List (Option ℝ)) : List (Option ℝ) := l.map (Option.map (fun t => t * x))

/-- constraintanalysis.py:1144-1260 -/
def twrequired_clmD (G : Grid) (e : DeckObj) (X : Ext) (c : Concept) (wingloading : NumArg) (map2sl : Bool) : PyM NanArg := do
  let climbspeed_kias ← need c.climbspeed_kias
  let climbrate_fpm ← need c.climbrate_fpm
  let ws := recastArray wingloading
  let alt := pyNum c.climbalt_m
  let v ← Atmos.eas2tas c.designatm (kts2mps climbspeed_kias) alt
  let roc ← Atmos.eas2tas c.designatm (fpm2mps climbrate_fpm) alt
  let (tcorr, _) ← deckSlcorr G e c (.scalar v) alt
  let wsclimb := ws.map (fun w => w * pyNum c.climb_weight_fraction)
  let q ← Atmos.dynamicpressure_pa c.designatm v alt
  let cl := wsclimb.map (fun w => w / q)
  let m ← Atmos.mach1 c.designatm v alt
  let k ← induceddragfact_lesm X c (some ws) (some cl) (some m)
  let tw ← broadcast2 (fun k w => climbPoint roc v q (pyNum c.cdminclean) k w) k wsclimb
  let tw ← mapSlD map2sl tw tcorr
  let tw := timesNan (pyNum c.climb_weight_fraction) tw
  pure (revertNan tw)

/-- constraintanalysis.py:1262-1316 -/
def twrequired_crsD (G : Grid) (e : DeckObj) (X : Ext) (c : Concept) (wingloading : NumArg) (map2sl : Bool) : PyM NanArg := do
  let cruisespeed_ktas ← need c.cruisespeed_ktas
  let v := kts2mps cruisespeed_ktas
  let alt ← need c.cruisealt_m
  let (tcorr, _) ← deckSlcorr G e c (.scalar v) alt
  let ws := recastArray wingloading
  let wscruise := ws.map (fun w => w * pyNum c.cruise_weight_fraction)
  let q ← Atmos.dynamicpressure_pa c.designatm v alt
  let cl := wscruise.map (fun w => w / q)
  let m ← Atmos.mach1 c.designatm v alt
  let k ← induceddragfact_lesm X c (some ws) (some cl) (some m)
  let tw ← broadcast2 (fun k w => cruisePoint q (pyNum c.cdminclean) k w) k wscruise
  let tw ← mapSlD map2sl tw tcorr
  let tw := timesNan (pyNum c.cruise_weight_fraction) tw
  let tw := timesNan (1 / pyNum c.cruisethrustfact) tw
  pure (revertNan tw)

/-- constraintanalysis.py:1318-1380 -/
def twrequired_secD (G : Grid) (e : DeckObj) (X : Ext) (c : Concept) (wingloading : NumArg) (map2sl : Bool) : PyM NanArg := do
  let alt ← need c.servceil_m
  let secclimbspd_kias ← need c.secclimbspd_kias
  let v ← Atmos.eas2tas c.designatm (kts2mps secclimbspd_kias) alt
  let (tcorr, _) ← deckSlcorr G e c (.scalar v) alt
  let ws := recastArray wingloading
  let wssec := ws.map (fun w => w * pyNum c.sec_weight_fraction)
  let q ← Atmos.dynamicpressure_pa c.designatm v alt
  let cl := wssec.map (fun w => w / q)
  let m ← Atmos.mach1 c.designatm v alt
  let k ← induceddragfact_lesm X c (some ws) (some cl) (some m)
  let roc ← Atmos.eas2tas c.designatm (fpm2mps 100) alt
  let tw ← broadcast2 (fun k w => ceilingPoint roc v q (pyNum c.cdminclean) k w) k wssec
  let tw ← mapSlD map2sl tw tcorr
  let tw := timesNan (pyNum c.sec_weight_fraction) tw
  pure (revertNan tw)

/-- constraintanalysis.py:1503-1505: one element of the sea-level mapping loop -/
def takeoffSlD (G : Grid) (e : DeckObj) (c : Concept) (tw lof : ℝ) : PyM (Option ℝ) := do
  let (tcorr, _) ← deckSlcorr G e c (.scalar lof) (pyNum c.rwyelevation_m)
  match tcorr.toList with
  | [t] => pure (ndiv (some tw) t)
  | _ => .error .valueError

/-- constraintanalysis.py:1502-1505 -/
def takeoffSlAllD (G : Grid) (e : DeckObj) (c : Concept) : List ℝ → List ℝ → PyM (List (Option ℝ))
  | tw :: tws, lof :: lofs => do
    let t ← takeoffSlD G e c tw lof
    let ts ← takeoffSlAllD G e c tws lofs
    pure (t :: ts)
  | _, _ => pure []

/-- constraintanalysis.py:1429-1512: (requirement, lift-off speed, average speed) -/
def twrequired_toD (G : Grid) (e : DeckObj) (c : Concept) (wingloading : NumArg) (map2sl : Bool) :
    PyM (NanArg × NumArg × NumArg) := do
  let _ ← need c.groundrun_m
  let ws := recastArray wingloading
  let (tw, lof) ← thrusttoweight_takeoff c ws
  let tw := tw.map (fun t => map2static c * t)
  let tw ← if map2sl then takeoffSlAllD G e c tw lof else pure (tw.map some)
  let av := lof.map (fun v => v / √2)
  pure (revertNan tw, Atmos.revert lof, Atmos.revert av)

/-- constraintanalysis.py:1657-1660: `feasible` with NaN entries in the requirement -/
def feasibleNan (clmax : ℝ) (tw : List (Option ℝ)) (cl : List ℝ) : List (Option ℝ) :=
  List.zipWith (fun t x => if x > clmax then none else t) tw cl

/-- constraintanalysis.py:1543-1665: (requirement, lift coefficient, feasible requirement) -/
def twrequired_trnD (G : Grid) (e : DeckObj) (X : Ext) (c : Concept) (wingloading : NumArg) (map2sl : Bool) :
    PyM (NanArg × NumArg × NanArg) := do
  let turnspeed_ktas ← need c.turnspeed_ktas
  let _ ← need c.stloadfactor
  let ws := recastArray wingloading
  let wsturn := ws.map (fun w => w * pyNum c.turn_weight_fraction)
  let (tw, cl) ← thrusttoweight_sustainedturn X c wsturn
  let v := kts2mps turnspeed_ktas
  let (tcorr, _) ← deckSlcorr G e c (.scalar v) (pyNum c.turnalt_m)
  let tw ← mapSlD map2sl tw tcorr
  let tw := timesNan (pyNum c.turn_weight_fraction) tw
  let fe := feasibleNan (pyNum c.clmaxclean) tw cl
  pure (revertNan tw, Atmos.revert cl, revertNan fe)

/-- The dictionary of constraintanalysis.py:1718-1728 and 1821-1831 when requirements may be NaN. -/
structure ReqN where
  takeoff : NanArg
  liftoffspeed : NumArg
  avspeed : NumArg
  turn : NanArg
  turnfeasible : NanArg
  turncl : NumArg
  climb : NanArg
  cruise : NanArg
  servceil : NanArg
  combined : NanArg

/-- constraintanalysis.py:1667-1730 -/
def twrequiredD (G : Grid) (e : DeckObj) (X : Ext) (c : Concept) (wingloading : NumArg) (feasibleonly map2sl : Bool) : PyM ReqN := do
  let w := NumArg.array (recastArray wingloading)
  let (tw_to, lof, av) ← twrequired_toD G e c w map2sl
  let (tw_trn, cl, fe) ← twrequired_trnD G e X c w map2sl
  let tw_clm ← twrequired_clmD G e X c w map2sl
  let tw_crs ← twrequired_crsD G e X c w map2sl
  let tw_sec ← twrequired_secD G e X c w map2sl
  let comb ← amax tw_to [if feasibleonly then fe else tw_trn, tw_clm, tw_crs, tw_sec]
  pure { takeoff := tw_to, liftoffspeed := lof, avspeed := av, turn := tw_trn, turnfeasible := fe,
         turncl := cl, climb := tw_clm, cruise := tw_crs, servceil := tw_sec, combined := comb }

/-- numpy binary operation on numbers or arrays that may both have NaN entries. (constraintanalysis.py:1765, 1782-1783) -/
def opNan (f : Option ℝ → Option ℝ → Option ℝ) : NanArg → NanArg → PyM NanArg
  | .scalar x, .scalar y => .ok (.scalar (f x y))
  | a, b => do let r ← bcast f a.toList b.toList; pure (.array r)

/-- constraintanalysis.py:1763-1765 and the like: division by a power correction that may be NaN -/
def powerSlD (G : Grid) (e : DeckObj) (c : Concept) (map2sl : Bool) (v : NumArg) (alt : ℝ) (p : NanArg) : PyM NanArg :=
  if map2sl then do
    let (_, pcorr) ← deckSlcorr G e c v alt
    opNan ndiv p pcorr
  else .ok p

/-- constraintanalysis.py:1780-1783 -/
def powerSlTurnD (G : Grid) (e : DeckObj) (c : Concept) (map2sl : Bool) (v : NumArg) (alt : ℝ) (p fe : NanArg) :
    PyM (NanArg × NanArg) :=
  if map2sl then do
    let (_, pcorr) ← deckSlcorr G e c v alt
    let fe ← opNan ndiv fe pcorr
    let p ← opNan ndiv p pcorr
    pure (p, fe)
  else .ok (p, fe)

/-- constraintanalysis.py:1732-1833 (without the warnings) -/
def powerrequiredD (G : Grid) (e : DeckObj) (X : Ext) (c : Concept) (wingloading : NumArg) (tow_kg : ℝ) (feasibleonly map2sl : Bool) :
    PyM ReqN := do
  let r ← twrequiredD G e X c wingloading feasibleonly false
  let p_to ← powerOfNan tow_kg (pyNum c.etaprop_to) r.takeoff r.liftoffspeed
  let p_to ← powerSlD G e c map2sl r.liftoffspeed (pyNum c.rwyelevation_m) p_to
  let v_trn := NumArg.scalar (kts2mps (pyNum c.turnspeed_ktas))
  let fe ← powerOfNan tow_kg (pyNum c.etaprop_turn) r.turnfeasible v_trn
  let p_trn ← powerOfNan tow_kg (pyNum c.etaprop_turn) r.turn v_trn
  let (p_trn, fe) ← powerSlTurnD G e c map2sl v_trn (pyNum c.turnalt_m) p_trn fe
  let climbspeed_ktas ← Atmos.eas2tas c.designatm (pyNum c.climbspeed_kias) (pyNum c.climbalt_m)
  let v_clm := NumArg.scalar (kts2mps climbspeed_ktas)
  let p_clm ← powerOfNan tow_kg (pyNum c.etaprop_climb) r.climb v_clm
  let p_clm ← powerSlD G e c map2sl v_clm (pyNum c.climbalt_m) p_clm
  let v_crs := NumArg.scalar (kts2mps (pyNum c.cruisespeed_ktas))
  let p_crs ← powerOfNan tow_kg (pyNum c.etaprop_cruise) r.cruise v_crs
  let p_crs ← powerSlD G e c map2sl v_crs (pyNum c.cruisealt_m) p_crs
  let secclimbspeed_ktas ← Atmos.eas2tas c.designatm (pyNum c.secclimbspd_kias) (pyNum c.servceil_m)
  let v_sec := NumArg.scalar (kts2mps secclimbspeed_ktas)
  let p_sec ← powerOfNan tow_kg (pyNum c.etaprop_sec) r.servceil v_sec
  let p_sec ← powerSlD G e c map2sl v_sec (pyNum c.servceil_m) p_sec
  let comb ← amax p_to [if feasibleonly then fe else p_trn, p_clm, p_crs, p_sec]
  pure { takeoff := p_to, liftoffspeed := r.liftoffspeed, avspeed := r.avspeed, turn := p_trn,
         turnfeasible := fe, turncl := r.turncl, climb := p_clm, cruise := p_crs, servceil := p_sec,
         combined := comb }

end

end Verif.Aircraft
