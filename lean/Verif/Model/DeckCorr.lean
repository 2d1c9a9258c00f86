import Verif.Model.Constraint
import Verif.Model.Propulsion

/-
Model of the branch of `_propulsion_slcorr` for engine decks (ADRpy/constraintanalysis.py:1106-1130) with the decks of
`Model/Propulsion.lean` themselves; `engineCorr` (`Model/Constraint.lean`) has arbitrary functions in their place.
-/

namespace Verif.Aircraft
open Verif Verif.Propulsion

noncomputable section

/-- The engine objects `_propulsion_slcorr` distinguishes (constraintanalysis.py:1111-1130). -/
inductive DeckObj where
  | turboprop (d : TurbopropDeck)
  | piston (d : PistonDeck)
  | electric (d : ElectricDeck)
  | jet (d : JetDeck)

/-- `np.arange(lo, hi)`: steps of one, the end excluded; a NaN limit raises ValueError.
(constraintanalysis.py:1117) -/
def arange (lo hi : Option ℝ) : PyM (List ℝ) :=
  match lo, hi with
  | some a, some b => .ok ((List.range ⌈b - a⌉.toNat).map (fun i : ℕ => a + (i : ℝ)))
  | _, _ => .error .valueError

/-- `np.nanmax` of an array without NaN: ValueError when it is empty.
(constraintanalysis.py:1119) -/
def nanmaxE : List ℝ → PyM ℝ
  | [] => .error .valueError
  | x :: xs => .ok (xs.foldl max x)

open Classical in
/-- constraintanalysis.py:1115-1120: the engine speeds handed to `sl_powercorr`. The powers are computed and not used. -/
def bestSpeeds (d : PistonDeck) (G : Grid) (altitude_m : ℝ) : PyM (List ℝ) := do
  let t ← attrOf d.pwr_data
  let minrpm ← pyMinList (t.map (fun r => r.1))
  let maxrpm ← pyMax (t.map (fun r => r.1))
  let speed_rpm_array ← arange minrpm maxrpm
  let _power_w_array ← d.shaftpower G (.array speed_rpm_array) (.scalar altitude_m)
  let m ← nanmaxE speed_rpm_array
  pure (speed_rpm_array.filter (fun x => decide (x = m)))

/-- constraintanalysis.py:1061-1062, 1111-1130: (thrust correction, power correction) at the Mach numbers `ms` -/
def deckCorr (G : Grid) (e : DeckObj) (ms : List ℝ) (altitude_m : ℝ) : PyM (NanArg × NanArg) :=
  let ones := NanArg.array (ms.map (fun _ => some 1))
  match e with
  | .turboprop d => do
    let pcorr ← d.sl_powercorr G (.array ms) (.scalar altitude_m)
    pure (ones, .array pcorr)
  | .piston d => do
    let speeds ← bestSpeeds d G altitude_m
    let pcorr ← d.sl_powercorr G (.array speeds) (.scalar altitude_m)
    pure (ones, .array pcorr)
  | .electric _ => .ok (.scalar (some 1), .scalar (some 1))
  | .jet d => do
    let tcorr ← d.sl_thrustcorr G (.array ms) (.scalar altitude_m)
    pure (.array tcorr, ones)

end

end Verif.Aircraft
