import Verif.Model.SensShow
import Verif.Model.VnWarnings

/-
The warnings of `propulsionsensitivity_monothetic` (ADRpy/constraintanalysis.py:1835-2301), its own and those of the requirements it
evaluates, which `Model/SensShow.lean` leaves out.
-/

namespace Verif.Aircraft
open Verif Verif.Units Verif.Airworthiness

noncomputable section

/-- constraintanalysis.py:2023-2028 -/
def yFunctionW (X : Ext) (S : StudyIn) (c : Concept) : W Req :=
  if S.power then powerrequiredW X c S.ws S.mass true true else twrequiredW X c S.ws true true

/-- constraintanalysis.py:2079-2082, 2095-2097 (the constructor issues no warnings) -/
def evalStateW (X : Ext) (S : StudyIn) (s : Design3) : W Req := do
  let b ← quiet (construct s.brief s.design s.performance (some S.atm) S.propulsion.asArg)
  yFunctionW X S b.concept

/-- constraintanalysis.py:2061-2092 -/
def studyEntryW (X : Ext) (S : StudyIn) (i : Fin 3) (R : Recorded) (e : String × Val) : W Recorded :=
  match e.2 with
  | .list xs => do
    let hi ← quiet (listMax xs)
    let lo ← quiet (listMin xs)
    let rmax ← evalStateW X S (S.state.set i e.1 hi)
    let rmin ← evalStateW X S (S.state.set i e.1 lo)
    quiet (recordAll e.1 rmax rmin R)
  | _ => pure R

/-- constraintanalysis.py:2059-2092 (as in `studyLoop`, each concept is evaluated as soon as it is constructed) -/
def studyLoopW (X : Ext) (S : StudyIn) (space : Design3) : W Recorded := do
  let R ← space.brief.foldlM (studyEntryW X S 0) ⟨fun _ => [], []⟩
  let R ← space.design.foldlM (studyEntryW X S 1) R
  space.performance.foldlM (studyEntryW X S 2) R

/-- constraintanalysis.py:1989-2097 -/
def studyW (X : Ext) (b : Built) (wingloading : NumArg) (power : Bool) : W (Recorded × Req) := do
  let S ← quiet (studyIn b wingloading power)
  let R ← studyLoopW X S ⟨b.space.1, b.space.2.1, b.space.2.2⟩
  let nominal ← evalStateW X S S.state
  pure (R, nominal)

/-- constraintanalysis.py:1989-2122 -/
def sensDataW (X : Ext) (b : Built) (wingloading : NumArg) (y_var x_var : String) (y_lim : Option ℝ) : W SensData := do
  let weight_n ← quiet (need b.concept.weight_n)
  let power := decide (y_var = "p_hp")
  let area := decide (x_var = "s_m2")
  let (R, nom) ← studyW X b wingloading power
  let xs := xAxis weight_n area (recastArray wingloading)
  let xcrit ← quiet (xcritStall b.concept area (weight_n / gAcc))
  let ylim ← quiet (ylimHi y_lim nom)
  let bounds ← quiet (infeasBounds xs nom.combined.toList)
  pure ⟨R, nom, (recastArray wingloading).length, xs, xcrit, ylim, bounds⟩

/-- constraintanalysis.py:1955-1958: values that count as false (None, 0) are not looked at -/
def LimArg.wrong : LimArg → Prop
  | .none => False
  | .number _ => False
  | .numpy x => x ≠ 0
  | .other => True

/-- constraintanalysis.py:2260-2301: what is drawn -/
def drawn (A : SensArgs) (D : SensData) : PyM (List Drawn) :=
  let y_var := yVar A.y_var
  let x_var := xVar A.x_var
  let labels := A.customlabels.getD []
  match A.shown with
  | .yes => do
    let a ← [Constr.climb, .cruise, .servceil, .takeoff, .turn].mapM (sensitivityplots D y_var x_var labels A.maskbool)
    let c ← combinedplot D y_var x_var
    pure (a ++ [c])
  | .no => pure []
  | .text s =>
    match constrOf s with
    | some q => do
      let a ← sensitivityplots D y_var x_var labels A.maskbool q
      pure [a]
    | none =>
      if s = "combined" then do
        let c ← combinedplot D y_var x_var
        pure [c]
      else pure []

open Classical in
/-- constraintanalysis.py:1835-2301 (`propulsionsensitivity_monothetic`): what is drawn, with the warnings. The size of the figure is
looked at as in the V-n diagram (1976-1987). -/
def propulsionsensitivity_monotheticW (X : Ext) (b : Built) (wingloading : NumArg) (A : SensArgs) (figsize : FigSize) : W (List Drawn) := do
  warnIf (A.y_var ∉ ["tw", "p_hp"]) .unsupportedY
  warnIf A.y_lim.wrong .unsupportedLim
  warnIf (A.x_var ∉ ["ws_pa", "s_m2"]) .unsupportedX
  warnIf (figsize.wrong = true) .figureSize
  let D ← sensDataW X b wingloading (yVar A.y_var) (xVar A.x_var) (yLim A.y_lim)
  quiet (drawn A D)

end

end Verif.Aircraft
