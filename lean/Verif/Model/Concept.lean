import Verif.Model.Dict
import Verif.Model.Atmosphere
import Mathlib.Analysis.SpecialFunctions.Exp
import Mathlib.Analysis.SpecialFunctions.Trigonometric.Arctan

/-
Model of AircraftConcept.__init__ (ADRpy/constraintanalysis.py:258-508): filling in of defaults,
averaging of ranges, the propulsion argument, the attributes.
-/

namespace Verif.Aircraft
open Verif

noncomputable section

/-! ### Defaults -/

/-- constraintanalysis.py:280-308 -/
def default_brief : Dict :=
  [("climbalt_m", .num 0), ("climbspeed_kias", .flag), ("climbrate_fpm", .flag),
   ("cruisealt_m", .flag), ("cruisespeed_ktas", .flag), ("cruisethrustfact", .num 1.0),
   ("servceil_m", .flag), ("secclimbspd_kias", .flag), ("vstallclean_kcas", .flag),
   ("groundrun_m", .flag), ("rwyelevation_m", .num 0), ("to_headwind_kts", .num 0),
   ("to_slope_perc", .num 0), ("stloadfactor", .flag), ("turnalt_m", .num 0),
   ("turnspeed_ktas", .flag)]

/-- constraintanalysis.py:312-336 -/
def default_design : Dict :=
  [("aspectratio", .num 8), ("sweep_le_deg", .flag), ("sweep_mt_deg", .flag), ("sweep_25_deg", .flag),
   ("roottaperratio", .flag), ("wingarea_m2", .flag), ("wingheightratio", .num 100), ("bpr", .num (-1)),
   ("spooluptime_s", .num 5), ("totalstaticthrust_n", .flag), ("tr", .num 1.07), ("weight_n", .flag),
   ("weightfractions", .sub [("climb", some 1.0), ("cruise", some 1.0), ("servceil", some 1.0),
     ("turn", some 1.0)]),
   ("runwayalpha_deg", .num 0), ("runwayalpha_max_deg", .flag)]

/-- constraintanalysis.py:340-359 -/
def default_performance : Dict :=
  [("CD0TO", .flag), ("CDTO", .num 0.09), ("CDminclean", .num 0.03), ("mu_R", .num 0.03),
   ("CL0TO", .flag), ("CLTO", .num 0.95), ("CLmaxTO", .num 1.5), ("CLmaxclean", .flag),
   ("CLminclean", .flag), ("CLslope", .num (2 * Real.pi)),
   ("etaprop", .sub [("climb", none), ("cruise", none), ("servceil", none), ("take-off", none),
     ("turn", none)])]

/-- constraintanalysis.py:407-409 -/
def default_etaprop : List (String × ℝ) :=
  [("climb", 0.75), ("cruise", 0.85), ("servceil", 0.65), ("take-off", 0.45), ("turn", 0.85)]

/-! ### Filling -/

/-- constraintanalysis.py:379-381: missing sub-dictionary entries are added. -/
def fillSub (dflt s : SubDict) : SubDict :=
  dflt.foldl (fun s kv => if (dget s kv.1).isSome then s else dset s kv.1 kv.2) s

/-- constraintanalysis.py:369-381, one default entry: an absent key is added; a present
sub-dictionary is filled entry by entry (a sub-dictionary given for a key whose default is not one
raises AttributeError, `.items()` of a number or False); anything else is kept. -/
def fillKey (d : Dict) (kv : String × Val) : PyM Dict :=
  match dget d kv.1 with
  | none => .ok (dset d kv.1 kv.2)
  | some (.sub s) =>
    match kv.2 with
    | .sub dflt => .ok (dset d kv.1 (.sub (fillSub dflt s)))
    | _ => .error .attributeError
  | some _ => .ok d

/-- constraintanalysis.py:367-381, one of the three dictionaries -/
def fill (dflts : Dict) (d : Dict) : PyM Dict := dflts.foldlM fillKey d

/-- `sum(xs) / len(xs)` (constraintanalysis.py:399, 423): ZeroDivisionError for an empty list. -/
def pyMean (xs : List ℝ) : PyM ℝ :=
  if xs = [] then .error .zeroDivisionError else .ok (xs.sum / xs.length)

/-- constraintanalysis.py:398-401: the quarter-chord sweep used for the taper default (a dictionary
raises TypeError in the multiplication; `False` cannot occur after 391-392). -/
def sweepAvg : Val → PyM ℝ
  | .list xs => pyMean xs
  | .num x => .ok x
  | _ => .error .typeError

/-! ### Sweep, taper and efficiency defaults -/

/-- constraintanalysis.py:386-387 -/
def leDefault (d : Dict) : PyM Dict := do
  match ← dgetE d "sweep_le_deg" with
  | .flag => pure (dset d "sweep_le_deg" (.num 0))
  | _ => pure d

/-- constraintanalysis.py:388-389 -/
def mtDefault (d : Dict) : PyM Dict := do
  match ← dgetE d "sweep_mt_deg" with
  | .flag => do
    let le ← dgetE d "sweep_le_deg"
    pure (dset d "sweep_mt_deg" le)
  | _ => pure d

/-- constraintanalysis.py:391-392. The expression is `(2 * le) + (5 * mt) / 7`: a list divided by a
number, a list plus a number, or arithmetic with a dictionary raises TypeError. (`False` counts as
0 in arithmetic; it cannot occur here after 386-389.) -/
def sweep25Default (d : Dict) : PyM Dict := do
  match ← dgetE d "sweep_25_deg" with
  | .flag => do
    match ← dgetE d "sweep_le_deg", ← dgetE d "sweep_mt_deg" with
    | .num le, .num mt => pure (dset d "sweep_25_deg" (.num (2 * le + (5 * mt) / 7)))
    | _, _ => .error .typeError
  | _ => pure d

/-- constraintanalysis.py:396-403: the taper ratio default and `taperdefaultflag`. -/
def taperDefault (d : Dict) : PyM (Dict × Bool) := do
  match ← dgetE d "roottaperratio" with
  | .flag => do
    let sweep25 ← dgetE d "sweep_25_deg"
    let avg ← sweepAvg sweep25
    pure (dset d "roottaperratio" (.num (0.45 * Real.exp (-0.0375 * avg))), true)
  | _ => pure (d, false)

/-- constraintanalysis.py:410-413 over the items of the sub-dictionary: entries flagged `False` get the
default efficiency (KeyError for an unknown phase) and are counted. -/
def etaLoop : SubDict → PyM (SubDict × ℕ)
  | [] => .ok ([], 0)
  | (k, none) :: t => do
    let v ← dgetE default_etaprop k
    let (t', n) ← etaLoop t
    pure ((k, some v) :: t', n + 1)
  | (k, some x) :: t => do
    let (t', n) ← etaLoop t
    pure ((k, some x) :: t', n)

/-- constraintanalysis.py:406-414. A number, list or False for `etaprop` raises AttributeError
(`.items()`). -/
def etaDefault (d : Dict) : PyM (Dict × ℕ) := do
  match ← dgetE d "etaprop" with
  | .sub s => do
    let (s', n) ← etaLoop s
    pure (dset d "etaprop" (.sub s'), n)
  | _ => .error .attributeError

/-! ### Averaging -/

/-- constraintanalysis.py:421-423, one key: a list is replaced by its mean (ZeroDivisionError for an
empty list). -/
def averageKey (d : Dict) (k : String) : PyM Dict := do
  match ← dgetE d k with
  | .list xs => do
    let m ← pyMean xs
    pure (dset d k (.num m))
  | _ => pure d

/-- constraintanalysis.py:420-423, one of the three dictionaries (only documented keys are averaged) -/
def average (dflts : Dict) (d : Dict) : PyM Dict := (dflts.map (·.1)).foldlM averageKey d

/-! ### Propulsion argument -/

/-- Engine objects as far as `_propulsion_slcorr` distinguishes them. The correction functions of the
decks are arbitrary functions here (Mach number or best engine speed, altitude; NaN outside the
tabulated region is not modelled); `other` is any object that is not a deck (for example `False`).
(constraintanalysis.py:1107-1130) -/
inductive Engine where
  | turboprop (powercorr : ℝ → ℝ → ℝ)
  | piston (bestrpm : ℝ) (powercorr : ℝ → ℝ → ℝ)
  | electric
  | jet (thrustcorr : ℝ → ℝ → ℝ)
  | other

/-- The `propulsion` argument: None, a string, a two-element tuple (the second element is only
stored), any other iterable (lists, longer tuples), or a non-iterable object.
(constraintanalysis.py:267-276) -/
inductive PropArg where
  | pyNone
  | str (s : String)
  | pair (engine : Engine)
  | iterable
  | obj (engine : Engine)

/-- The attribute `self.propulsion`. (constraintanalysis.py:267-276) -/
inductive PropAttr where
  | pyFalse
  | str (s : String)
  | pair (engine : Engine)

/-- constraintanalysis.py:267-276 -/
def parsePropulsion : PropArg → PropAttr
  | .str s => .str s
  | .pair e => .pair e
  | .iterable => .pyFalse
  | .obj e => .pair e
  | .pyNone => .pyFalse

/-- The attribute passed on as an argument to another constructor (as
`propulsionsensitivity_monothetic` does, 2079-2080): `False` is an object that is neither None nor
iterable. (constraintanalysis.py:2079-2082) -/
def PropAttr.asArg : PropAttr → PropArg
  | .pyFalse => .obj .other
  | .str s => .str s
  | .pair e => .pair e

/-! ### Attributes -/

/-- constraintanalysis.py:429-506: the attributes read by the other methods; `none` is the flag
`False`. (Attributes never read elsewhere, e.g. `to_slope_rad`, are left out.) -/
structure Concept where
  climbalt_m : Option ℝ
  climbspeed_kias : Option ℝ
  climbrate_fpm : Option ℝ
  cruisealt_m : Option ℝ
  cruisespeed_ktas : Option ℝ
  cruisethrustfact : Option ℝ
  servceil_m : Option ℝ
  secclimbspd_kias : Option ℝ
  vstallclean_kcas : Option ℝ
  groundrun_m : Option ℝ
  rwyelevation_m : Option ℝ
  turnalt_m : Option ℝ
  turnspeed_ktas : Option ℝ
  stloadfactor : Option ℝ
  aspectratio : Option ℝ
  sweep_le_deg : Option ℝ
  sweep_25_deg : Option ℝ
  sweep_mt_deg : Option ℝ
  roottaperratio : Option ℝ
  wingarea_m2 : Option ℝ
  wingheightratio : Option ℝ
  bpr : Option ℝ
  throttle_r : Option ℝ
  weight_n : Option ℝ
  climb_weight_fraction : Option ℝ
  cruise_weight_fraction : Option ℝ
  sec_weight_fraction : Option ℝ
  turn_weight_fraction : Option ℝ
  cdto : Option ℝ
  cdminclean : Option ℝ
  mu_r : Option ℝ
  clto : Option ℝ
  clmaxclean : Option ℝ
  clminclean : Option ℝ
  clmaxto : Option ℝ
  a_0i : Option ℝ
  etaprop_climb : Option ℝ
  etaprop_cruise : Option ℝ
  etaprop_sec : Option ℝ
  etaprop_to : Option ℝ
  etaprop_turn : Option ℝ
  /-- constraintanalysis.py:406, 412 -/
  etadefaultflag : ℕ
  /-- constraintanalysis.py:264 -/
  designatm : Atmos.Atm
  /-- constraintanalysis.py:267-276 -/
  propulsion : PropAttr

/-- The flag `False` behaves like 0 in Python arithmetic and comparisons.
(for instance constraintanalysis.py:1044-1058) -/
def pyNum (x : Option ℝ) : ℝ := x.getD 0

/-- Reading a scalar entry (constraintanalysis.py:429-499). A list or a sub-dictionary cannot be left
at this point (423, 378-381). -/
def attr (d : Dict) (k : String) : PyM (Option ℝ) := do
  match ← dgetE d k with
  | .flag => pure none
  | .num x => pure (some x)
  | _ => .error .typeError

/-- Reading an entry of a sub-dictionary (constraintanalysis.py:478-481, 502-506): indexing a number
or False raises TypeError. -/
def subAttr (d : Dict) (k k2 : String) : PyM (Option ℝ) := do
  match ← dgetE d k with
  | .sub s => dgetE s k2
  | _ => .error .typeError

/-- constraintanalysis.py:429-506 -/
def readConcept (brief design performance : Dict) (n : ℕ) (atm : Atmos.Atm) (pr : PropAttr) : PyM Concept := do
  let climbalt_m ← attr brief "climbalt_m"
  let climbspeed_kias ← attr brief "climbspeed_kias"
  let climbrate_fpm ← attr brief "climbrate_fpm"
  let cruisealt_m ← attr brief "cruisealt_m"
  let cruisespeed_ktas ← attr brief "cruisespeed_ktas"
  let cruisethrustfact ← attr brief "cruisethrustfact"
  let servceil_m ← attr brief "servceil_m"
  let secclimbspd_kias ← attr brief "secclimbspd_kias"
  let vstallclean_kcas ← attr brief "vstallclean_kcas"
  let groundrun_m ← attr brief "groundrun_m"
  let rwyelevation_m ← attr brief "rwyelevation_m"
  let turnalt_m ← attr brief "turnalt_m"
  let turnspeed_ktas ← attr brief "turnspeed_ktas"
  let stloadfactor ← attr brief "stloadfactor"
  let aspectratio ← attr design "aspectratio"
  let sweep_le_deg ← attr design "sweep_le_deg"
  let sweep_25_deg ← attr design "sweep_25_deg"
  let sweep_mt_deg ← attr design "sweep_mt_deg"
  let roottaperratio ← attr design "roottaperratio"
  let wingarea_m2 ← attr design "wingarea_m2"
  let wingheightratio ← attr design "wingheightratio"
  let bpr ← attr design "bpr"
  let throttle_r ← attr design "tr"
  let weight_n ← attr design "weight_n"
  let climb_weight_fraction ← subAttr design "weightfractions" "climb"
  let cruise_weight_fraction ← subAttr design "weightfractions" "cruise"
  let sec_weight_fraction ← subAttr design "weightfractions" "servceil"
  let turn_weight_fraction ← subAttr design "weightfractions" "turn"
  let cdto ← attr performance "CDTO"
  let cdminclean ← attr performance "CDminclean"
  let mu_r ← attr performance "mu_R"
  let clto ← attr performance "CLTO"
  let clmaxclean ← attr performance "CLmaxclean"
  let clminclean ← attr performance "CLminclean"
  let clmaxto ← attr performance "CLmaxTO"
  let a_0i ← attr performance "CLslope"
  let etaprop_climb ← subAttr performance "etaprop" "climb"
  let etaprop_cruise ← subAttr performance "etaprop" "cruise"
  let etaprop_sec ← subAttr performance "etaprop" "servceil"
  let etaprop_to ← subAttr performance "etaprop" "take-off"
  let etaprop_turn ← subAttr performance "etaprop" "turn"
  pure { climbalt_m, climbspeed_kias, climbrate_fpm, cruisealt_m, cruisespeed_ktas, cruisethrustfact,
         servceil_m, secclimbspd_kias, vstallclean_kcas, groundrun_m, rwyelevation_m, turnalt_m,
         turnspeed_ktas, stloadfactor, aspectratio, sweep_le_deg, sweep_25_deg, sweep_mt_deg,
         roottaperratio, wingarea_m2, wingheightratio, bpr, throttle_r, weight_n,
         climb_weight_fraction, cruise_weight_fraction, sec_weight_fraction, turn_weight_fraction,
         cdto, cdminclean, mu_r, clto, clmaxclean, clminclean, clmaxto, a_0i, etaprop_climb,
         etaprop_cruise, etaprop_sec, etaprop_to, etaprop_turn,
         etadefaultflag := n, designatm := atm, propulsion := pr }

/-- Result of the constructor: the three dictionaries afterwards (`self.designstate`, 426, which are
the caller's own objects when these were non-empty), the design space (417, a deep copy made before
averaging), the taper flag and the attributes. (constraintanalysis.py:258-508) -/
structure Built where
  brief : Dict
  design : Dict
  performance : Dict
  space : Dict × Dict × Dict
  taperdefaultflag : Bool
  concept : Concept

/-- constraintanalysis.py:258-508 (`AircraftConcept.__init__`). An absent (None) dictionary is the
empty one (261-263). Aliasing between the three dictionaries is not modelled. -/
def construct (brief design performance : Dict) (atm : Option Atmos.Atm) (pa : PropArg) : PyM Built := do
  let atm := atm.getD (.isa 0)
  let pr := parsePropulsion pa
  let brief ← fill default_brief brief
  let design ← fill default_design design
  let performance ← fill default_performance performance
  let design ← leDefault design
  let design ← mtDefault design
  let design ← sweep25Default design
  let (design, tflag) ← taperDefault design
  let (performance, n) ← etaDefault performance
  let space := (brief, design, performance)
  let brief ← average default_brief brief
  let design ← average default_design design
  let performance ← average default_performance performance
  let c ← readConcept brief design performance n atm pr
  pure ⟨brief, design, performance, space, tflag, c⟩

/-- constraintanalysis.py:261-263: what the caller's dictionary object looks like after the
constructor returned `final`: an empty one is replaced by a new object and stays empty, any other is
mutated in place. -/
def callerAfter (given final : Dict) : Dict := if given = [] then [] else final

end

end Verif.Aircraft
