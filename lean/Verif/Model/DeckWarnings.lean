import Verif.Model.Warnings
import Verif.Model.Propulsion

/-
The warnings of the engine decks (ADRpy/propulsion.py), which `Model/Propulsion.lean` leaves out. A warning about missing data carries
the name that its message gives to the quantity.
-/

namespace Verif.Propulsion
open Verif Verif.Units Verif.Aircraft

noncomputable section

/-- A deck query with its warnings (propulsion.py:216-223) -/
abbrev QueryW := W (Option (List (Option ℝ)))

/-- propulsion.py:216-224, 246-254, 636-645, 1022-1030, 1251-1259 -/
def guardedW (avail : Bool) (what : String) (data : Option (List Row)) (G : Grid) (x y : NumArg) : QueryW :=
  if avail = false then do warn (.noData what); pure none
  else quiet (do
    let t ← attrOf data
    let z ← griddata G t x y
    pure (some z))

/-- propulsion.py:318-327, 434-443, 746-755, 835-844, 1116-1125 -/
def choosePropW (o : PropellerObj) (mach alt : NumArg) (rpm : ℝ) (power : Option (List (Option ℝ))) : W Propeller :=
  match o with
  | .pyNone => do
    let p ← quiet (mkPropeller .pyNone)
    let p ← quiet (ansatzprop p mach alt rpm power)
    warn .ansatzAssumed
    pure p
  | .deck p => pure p
  | .other => quiet (.error .typeError)

/-- propulsion.py:318-333, 746-761, 1116-1132 -/
def propThrustW (o : PropellerObj) (mach alt : List ℝ) (rpm : ℝ) (power : Option (List (Option ℝ))) : W (List (Option ℝ)) := do
  let p ← choosePropW o (.array mach) (.array alt) rpm power
  let eta ← quiet (efficiency p (.array mach) (.array alt) power rpm).1
  let v ← quiet (airspeed mach alt)
  quiet (match power with
    | none => .error .typeError
    | some ps => do
      let ep ← bcast nmul eta ps
      bcast ndiv ep (v.map some))

/-- propulsion.py:434-456, 835-857 -/
def propTsfcW (o : PropellerObj) (mach alt : List ℝ) (rpm : ℝ) (power : Option (List (Option ℝ))) (bsfc : QueryW) :
    W (List (Option ℝ)) := do
  let p ← choosePropW o (.array mach) (.array alt) rpm power
  let eta ← quiet (efficiency p (.array mach) (.array alt) power rpm).1
  let v ← quiet (airspeed mach alt)
  let q ← bsfc
  quiet (match q with
    | none => .error .typeError
    | some b => do
      let bv ← bcast nmul (b.map (fun x => ndiv x (some 3600))) (v.map some)
      bcast ndiv bv eta)

/-- propulsion.py:1905-1959 (`_demo_plot`) -/
def demoPlotW (lims : Option ℝ × Option ℝ × Option ℝ × Option ℝ) (func : List ℝ → List ℝ → QueryW)
    (x_label y_label z_label title : String) : W DemoPlot := do
  let xs ← quiet (mgridAxis lims.1 lims.2.1)
  let ys ← quiet (mgridAxis lims.2.2.1 lims.2.2.2)
  let q ← func (gridX xs ys) (gridY xs ys)
  quiet (match q with
    | none => .error .typeError
    | some z => pure ⟨x_label, y_label, z_label, title, xs, ys, z⟩)

/-- The plots (propulsion.py:475-485 and the like): limits, colour map -/
def plotW (data : Option (List Row)) (func : List ℝ → List ℝ → QueryW) (x_label y_label z_label title : String) : W (Option DemoPlot) := do
  let lims ← quiet (plotLimits data)
  let p ← demoPlotW lims func x_label y_label z_label title
  pure (some p)

namespace TurbopropDeck

/-- propulsion.py:183-224 -/
def hotthrustW (d : TurbopropDeck) (G : Grid) (mach alt : NumArg) : QueryW :=
  guardedW (flagAt d.avail.out 0) "Hot thrust" d.thr_data G mach alt

/-- propulsion.py:226-254 -/
def shaftpowerW (d : TurbopropDeck) (G : Grid) (mach alt : NumArg) : QueryW :=
  guardedW (flagAt d.avail.out 1) "power" d.pwr_data G mach alt

/-- propulsion.py:256-287: the message says TSFC -/
def bsfcW (d : TurbopropDeck) (G : Grid) (mach alt : NumArg) : QueryW :=
  guardedW (flagAt d.avail.eff 0) "TSFC" (d.bsfc_data.map dropNan) G mach alt

/-- propulsion.py:289-335 -/
def coldthrustW (d : TurbopropDeck) (G : Grid) (mach alt : NumArg) (rpm : ℝ) (o : PropellerObj) : W (List (Option ℝ)) := do
  let m := recastArray mach
  let h := recastArray alt
  let power ← d.shaftpowerW G (.array m) (.array h)
  propThrustW o m h rpm power

/-- propulsion.py:337-369 -/
def thrustW (d : TurbopropDeck) (G : Grid) (mach alt : NumArg) (rpm : ℝ) (o : PropellerObj) : W (List (Option ℝ)) := do
  let m := recastArray mach
  let h := recastArray alt
  let hot ← d.hotthrustW G (.array m) (.array h)
  let cold ← d.coldthrustW G (.array m) (.array h) rpm o
  quiet (match hot with
    | none => .error .typeError
    | some hs => bcast nadd hs cold)

/-- propulsion.py:371-400 -/
def sl_powercorrW (d : TurbopropDeck) (G : Grid) (mach alt : NumArg) : W (List (Option ℝ)) := do
  let q ← d.shaftpowerW G (.array (recastArray mach)) (.array (recastArray alt))
  quiet (overMax q d.pwr_data)

/-- propulsion.py:402-456 -/
def tsfcW (d : TurbopropDeck) (G : Grid) (mach alt : NumArg) (rpm : ℝ) (o : PropellerObj) : W (List (Option ℝ)) := do
  let m := recastArray mach
  let h := recastArray alt
  let power ← d.shaftpowerW G (.array m) (.array h)
  propTsfcW o m h rpm power (d.bsfcW G (.array m) (.array h))

/-- propulsion.py:458-485 -/
def demoplot_thrustW (d : TurbopropDeck) (engine : String) (G : Grid) : W (Option DemoPlot) :=
  if (AvItem.list d.avail.out).isFalse then do warn (.noData "core/hot thrust"); pure none
  else plotW d.thr_data (fun x y => d.hotthrustW G (.array x) (.array y)) "Mach Number" "Altitude (m)" "Core/hot Thrust (N)"
    (engine ++ " core/hot thrust (N) for Mach number and altitude (m)")

/-- propulsion.py:487-514 -/
def demoplot_shaftpowerW (d : TurbopropDeck) (engine : String) (G : Grid) : W (Option DemoPlot) :=
  if (AvItem.list d.avail.out).isFalse then do warn (.noData "power"); pure none
  else plotW d.pwr_data (fun x y => d.shaftpowerW G (.array x) (.array y)) "Mach Number" "Altitude (m)" "Power (W)"
    (engine ++ " shaft power (W) for Mach Number and altitude (m)")

/-- propulsion.py:516-544 -/
def demoplot_bsfcW (d : TurbopropDeck) (engine : String) (G : Grid) : W (Option DemoPlot) :=
  if (AvItem.list d.avail.out).isFalse then do warn (.noData "BSFC"); pure none
  else plotW d.bsfc_data (fun x y => d.bsfcW G (.array x) (.array y)) "Mach Number" "Altitude (m)" "BSFC (g/(kWh))"
    (engine ++ " BSFC (g/(kWh)) for Mach Number and altitude (m)")

end TurbopropDeck

namespace PistonDeck

/-- propulsion.py:602-645 -/
def shaftpowerW (d : PistonDeck) (G : Grid) (rpm alt : NumArg) : QueryW :=
  guardedW (flagAt d.avail.out 0) "power" d.pwr_data G rpm alt

/-- propulsion.py:647-714 -/
def bsfcW (d : PistonDeck) (G : Grid) (rpm : NumArg) (power : Option (List (Option ℝ))) (best : String) : QueryW :=
  let go (avail : Bool) (what : String) (data : Option (List Row)) : QueryW :=
    if avail = false then do warn (.noData what); pure none
    else quiet (do
      let t ← attrOf data
      let z ← bcast (gridNan G t) (recastArray rpm) (power.getD [none])
      pure (some z))
  if best = "economy" then go (flagAt d.avail.eff 0) "BSFC for best economy" d.bsfc_data
  else if best = "power" then go (flagAt d.avail.eff 1) "BSFC for best power" d.bsfc_pwr_data
  else do warn .unknownChoice; pure none

/-- propulsion.py:716-763 -/
def thrustW (d : PistonDeck) (G : Grid) (mach alt : NumArg) (rpm : ℝ) (o : PropellerObj) : W (List (Option ℝ)) := do
  let m := recastArray mach
  let h := recastArray alt
  let power ← d.shaftpowerW G (.scalar rpm) (.array h)
  propThrustW o m h rpm power

/-- propulsion.py:765-794 -/
def sl_powercorrW (d : PistonDeck) (G : Grid) (rpm alt : NumArg) : W (List (Option ℝ)) := do
  let q ← d.shaftpowerW G (.array (recastArray rpm)) (.array (recastArray alt))
  quiet (overMax q d.pwr_data)

/-- propulsion.py:796-857 -/
def tsfcW (d : PistonDeck) (G : Grid) (mach alt : NumArg) (rpm : ℝ) (o : PropellerObj) (best : String) : W (List (Option ℝ)) := do
  let m := recastArray mach
  let h := recastArray alt
  let power ← d.shaftpowerW G (.array m) (.array h)
  propTsfcW o m h rpm power (d.bsfcW G (.scalar rpm) power best)

/-- propulsion.py:859-887 -/
def demoplot_shaftpowerW (d : PistonDeck) (engine : String) (G : Grid) : W (Option DemoPlot) :=
  if (AvItem.list d.avail.out).isFalse then do warn (.noData "power"); pure none
  else plotW d.pwr_data (fun x y => d.shaftpowerW G (.array x) (.array y)) "Engine Speed (RPM)" "Altitude (m)" "Shaft power (W)"
    (engine ++ " shaft power (W) for Engine speed (RPM) and altitude (m)")

/-- propulsion.py:889-948 -/
def demoplot_bsfcW (d : PistonDeck) (engine : String) (G : Grid) (best : String) : W (Option DemoPlot) :=
  let title := engine ++ " BSFC (g/(kWh)) at best " ++ best ++ " for Engine speed (RPM) and shaft power (W)"
  let bsfc_type := fun (x y : List ℝ) => d.bsfcW G (.array x) (some (y.map some)) best
  if best = "economy" then
    if flagAt d.avail.eff 0 = false then do warn (.noData "best economy BSFC"); pure none
    else plotW d.bsfc_data bsfc_type "Engine Speed (RPM)" "Shaft power (W)" "BSFC (g/(kWh))" title
  else if best = "power" then
    if flagAt d.avail.eff 1 = false then do warn (.noData "best power BSFC"); pure none
    else plotW d.bsfc_pwr_data bsfc_type "Engine Speed (RPM)" "Shaft power (W)" "BSFC (g/(kWh))" title
  else do warn .unknownChoice; pure none

end PistonDeck

namespace ElectricDeck

/-- propulsion.py:989-1030 -/
def efficiencyW (d : ElectricDeck) (G : Grid) (rpm torque : NumArg) : QueryW :=
  guardedW (flagAt d.avail.out 0) "efficiency" d.eta_data G rpm torque

/-- propulsion.py:1032-1055 -/
def bsecW (d : ElectricDeck) (G : Grid) (rpm torque : NumArg) : W (List (Option ℝ)) := do
  let q ← d.efficiencyW G rpm torque
  quiet (match q with
    | none => .error .typeError
    | some zs => pure (zs.map (fun z => ndiv (some 1) z)))

/-- propulsion.py:1084-1134 -/
def thrustW (_d : ElectricDeck) (power mach alt : NumArg) (rpm : ℝ) (o : PropellerObj) : W (List (Option ℝ)) :=
  propThrustW o (recastArray mach) (recastArray alt) rpm (some ((recastArray power).map some))

/-- propulsion.py:1137-1165 -/
def demoplot_efficiencyW (d : ElectricDeck) (engine : String) (G : Grid) : W (Option DemoPlot) :=
  if flagAt d.avail.out 0 = false then do warn (.noData "efficiency"); pure none
  else plotW d.eta_data (fun x y => d.efficiencyW G (.array x) (.array y)) "Motor Speed (RPM)" "Torque (Nm)" "Efficiency"
    (engine ++ " efficiency for Motor speed (RPM) and torque (Nm)")

end ElectricDeck

/-- propulsion.py:1866-1902 (`_poly`) for one number -/
def polyNumW (x : ℝ) (cs limits : List ℝ) : W (Option (List ℝ)) := do
  let hi ← quiet (getIdx limits 1)
  if hi < x then do warn .machHigh; pure none
  else do
    let lo ← quiet (getIdx limits 0)
    if x < lo then do warn .machLow; pure none else pure (some [evalPoly cs x])

/-- propulsion.py:1866-1902 (`_poly`) -/
def polyQueryW (x : PolyArg) (cs limits : List ℝ) : W (Option (List ℝ)) :=
  match x with
  | .num x => polyNumW x cs limits
  | .arr [x] => polyNumW x cs limits
  | x => quiet (polyQuery x cs limits)

/-- propulsion.py:1363-1375 and 1403-1415 -/
def slQueryW (avail : Bool) (what : String) (f : Option PolyFile) (x : PolyArg) : W (Option (List ℝ)) :=
  if avail = false then do warn (.noData what); pure none
  else match f with
    | none => quiet (.error .typeError)
    | some (cs, limits) => do
      let _ ← quiet (pyIndex limits (-1))
      let _ ← quiet (pyIndex limits 0)
      polyQueryW x cs limits

namespace JetDeck

/-- propulsion.py:1218-1259 -/
def thrustW (d : JetDeck) (G : Grid) (mach alt : NumArg) : QueryW :=
  guardedW (flagAt d.avail.out 0) "Thrust" d.thr_data G mach alt

/-- propulsion.py:1261-1289 -/
def sl_thrustcorrW (d : JetDeck) (G : Grid) (mach alt : NumArg) : W (List (Option ℝ)) := do
  let q ← d.thrustW G mach alt
  quiet (overMax q d.thr_data)

/-- propulsion.py:1291-1336 -/
def tsfcW (d : JetDeck) (G : Grid) (mach thrust : NumArg) : QueryW :=
  guardedW (flagAt d.avail.eff 0) "TSFC" (d.tsfc_data.map dropNan) G mach thrust

/-- propulsion.py:1338-1375 -/
def sl_thrustW (d : JetDeck) (mach : PolyArg) : W (Option (List ℝ)) := slQueryW d.avail.sl "sea level thrust" d.slPoly mach

/-- propulsion.py:1377-1415 -/
def sl_take_off_thrustW (d : JetDeck) (mach : PolyArg) : W (Option (List ℝ)) :=
  slQueryW d.avail.slto "sea level take off thrust" d.sltoPoly mach

/-- propulsion.py:1417-1444 -/
def demoplot_thrustW (d : JetDeck) (engine : String) (G : Grid) : W (Option DemoPlot) :=
  if flagAt d.avail.out 0 = false then do warn (.noData "thrust"); pure none
  else plotW d.thr_data (fun x y => d.thrustW G (.array x) (.array y)) "Mach Number" "Altitude (m)" "Thrust (N)"
    (engine ++ " thrust (N) for Mach number and altitude (m)")

/-- propulsion.py:1508-1509 (`_tsfc_fun`) -/
def tsfcAtW (d : JetDeck) (G : Grid) (mach alt : List ℝ) : QueryW := do
  let q ← d.thrustW G (.array mach) (.array alt)
  match q with
  | none => quiet (.error .typeError)
  | some ts =>
    if flagAt d.avail.eff 0 = false then do warn (.noData "TSFC"); pure none
    else quiet (do
      let t ← attrOf (d.tsfc_data.map dropNan)
      let z ← bcast (gridNan G t) mach ts
      pure (some z))

/-- propulsion.py:1446-1519 -/
def demoplot_tsfcW (d : JetDeck) (engine : String) (G : Grid) (y_var : String) : W (Option DemoPlot) :=
  if flagAt d.avail.eff 0 = false then do warn (.noData "TSFC"); pure none
  else if y_var = "t_n" then
    if flagAt d.avail.out 0 = false then do warn (.noData "thrust"); pure none
    else plotW d.tsfc_data (fun x y => d.tsfcW G (.array x) (.array y)) "Mach Number" "Thrust (N)" "TSFC (g/(kNs))"
      (engine ++ " TSFC (g/(kNs)) for Mach number and Thrust (N)")
  else if y_var = "alt_m" then
    plotW d.thr_data (d.tsfcAtW G) "Mach Number" "Altitude (m)" "TSFC (g/(kNs))"
      (engine ++ " TSFC (g/(kNs)) for Mach number and altitude (m)")
  else do warn .unknownChoice; pure none

end JetDeck

end

end Verif.Propulsion
