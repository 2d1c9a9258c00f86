import Verif.Model.SensPlot
import Verif.Model.Propeller

/-
Model of `propulsionsensitivity_monothetic` as it is called (ADRpy/constraintanalysis.py:1835-2301): the arguments, which charts are
drawn, their titles, labels, layers and colours. Text sizes, the size of the figure, the places of the legends and the styles of the
lines are not modelled; the warnings are in `Model/SensWarnings.lean`.
-/

namespace Verif.Aircraft
open Verif Verif.Units

noncomputable section

/-- The argument `y_lim`: None, a Python float or int, a numpy number (whose type is neither), another value that counts as true (a text, a
non-empty list, True). Other values that count as false are not modelled.
(constraintanalysis.py:1954-1960) -/
inductive LimArg where
  | none
  | number (x : ℝ)
  | numpy (x : ℝ)
  | other

/-- The argument `show`: True, False, a text. (constraintanalysis.py:1835-1837, 2260-2301) -/
inductive ShowArg where
  | yes
  | no
  | text (s : String)

/-- constraintanalysis.py:1835-1837: the arguments after the wing loadings -/
structure SensArgs where
  y_var : String
  y_lim : LimArg
  x_var : String
  customlabels : Option (List (String × String))
  shown : ShowArg
  maskbool : Bool

/-- constraintanalysis.py:1948-1952 -/
def yVar (s : String) : String := if s ∈ ["tw", "p_hp"] then s else "tw"

/-- constraintanalysis.py:1962-1966 -/
def xVar (s : String) : String := if s ∈ ["ws_pa", "s_m2"] then s else "ws_pa"

open Classical in
/-- constraintanalysis.py:1954-1960: numbers other than 0 are tested for their exact type -/
def yLim : LimArg → Option ℝ
  | .none => Option.none
  | .number x => some x
  | .numpy x => if x ≠ 0 then Option.none else some x
  | .other => Option.none

/-- constraintanalysis.py:2006-2009 -/
def clr_list : List String :=
  ["limegreen", "olivedrab", "darkorchid", "indigo", "yellow", "darkgoldenrod", "royalblue", "darkslategrey", "orange", "sienna",
   "darkturquoise", "forestgreen", "red", "darkviolet", "yellowgreen", "olive", "mediumslateblue", "navy", "gold", "chocolate",
   "dodgerblue", "teal", "lightcoral", "darkred"]

/-- constraintanalysis.py:2091-2092, 2155: `clr_dict[k]`; the colours were given in the order of the list -/
def clrDict (R : Recorded) (k : String) : PyM String :=
  if k ∈ R.coloured then Propulsion.getIdx clr_list (R.coloured.idxOf k) else .error .keyError

/-- constraintanalysis.py:2037-2042 -/
def yLabelling (y_type : String) : String := if y_type = "p_hp" then "Power required [hp]" else "Thrust to weight ratio [-]"

/-- constraintanalysis.py:2044-2049 -/
def xLabelling (x_type : String) : String := if x_type = "s_m2" then "Wing area [m$^2$]" else "Wing loading [Pa]"

/-- constraintanalysis.py:2126-2127 -/
def predefinedlabel : Constr → String
  | .climb => "Climb"
  | .cruise => "Cruise"
  | .servceil => "Service ceiling"
  | .takeoff => "Take-off ground roll"
  | .turn => "Sustained turn"

/-- A layer of a stacked chart: label, colour, values (`none`: NaN).
(constraintanalysis.py:2138-2166) -/
structure Layer where
  label : String
  colour : String
  values : List (Option ℝ)

/-- A chart of relative sensitivities; `cross` are the two diagonals of an empty chart.
(constraintanalysis.py:2132-2201) -/
structure StackChart where
  title : String
  xs : List ℝ
  layers : List Layer
  cross : Bool
  xlim : ℝ × ℝ
  xlabel : String
  ylabel : String
  masks : List (ℝ × ℝ)

/-- The combined chart: the curves with label and colour, the two vertical lines, the shaded region, the front.
(constraintanalysis.py:2203-2258) -/
structure CombChart where
  xs : List ℝ
  curves : List Layer
  stall : Option ℝ
  turn : Option ℝ
  xlim : ℝ × ℝ
  ylim : ℝ
  xlabel : String
  ylabel : String
  mask : ℝ × ℝ
  front : List (ℝ × Option ℝ)

/-- What is drawn on one pair of axes. (constraintanalysis.py:2260-2301) -/
inductive Drawn where
  | stack (q : Constr) (c : StackChart)
  | combined (c : CombChart)

open Classical in
/-- constraintanalysis.py:2147-2148: the shares of a parameter at `n` wing loadings, NaN where the sum is 0 (so are all ranges there) -/
def shareList (l : List (String × List ℝ)) (n : ℕ) (v : List ℝ) : List (Option ℝ) :=
  (List.range n).map (fun i => if primeSum l i = 0 then none else some (v.getD i 0 / primeSum l i))

/-- constraintanalysis.py:2150-2153 -/
def labelOf (labels : List (String × String)) (k : String) : String := (labels.lookup k).getD k

/-- constraintanalysis.py:2138-2166: the layers, or the filler when there are none -/
def stackLayers (R : Recorded) (labels : List (String × String)) (n : ℕ) (q : Constr) : PyM (List Layer × Bool) := do
  let ls ← (R.prime q).mapM (fun e => do
    let c ← clrDict R e.1
    pure (⟨labelOf labels e.1, c, shareList (R.prime q) n e.2⟩ : Layer))
  pure (if ls.length = 0 then ([⟨"N/A", "red", List.replicate n (some 0)⟩], true) else (ls, false))

/-- What has been computed before the charts (constraintanalysis.py:2094-2122). -/
structure SensData where
  recd : Recorded
  nom : Req
  n : ℕ
  xs : List ℝ
  xcrit : Option ℝ
  ylim : ℝ
  bounds : ℝ × ℝ

/-- constraintanalysis.py:2132-2201 (`sensitivityplots`). The label of the vertical axis ends with `y_var.split('_')[0].upper()`, "P" or "TW". -/
def sensitivityplots (D : SensData) (y_var x_var : String) (labels : List (String × String)) (maskbool : Bool) (q : Constr) : PyM Drawn := do
  let (layers, cross) ← stackLayers D.recd labels D.n q
  let lo ← listMin D.xs
  let hi ← listMax D.xs
  let masks ← if maskbool then focusMasks D.xs (recastArray (D.nom.entry q)) D.nom.combined.toList else .ok []
  pure (.stack q { title := predefinedlabel q, xs := D.xs, layers, cross, xlim := (lo, hi), xlabel := xLabelling x_var,
                   ylabel := "Rel. sensitivity of " ++ (if y_var = "p_hp" then "P" else "TW"), masks })

/-- constraintanalysis.py:2210-2211: the curve of constraint number `i` -/
def constrCurve (nom : Req) (i : ℕ) (q : Constr) : PyM Layer := do
  let c ← Propulsion.getIdx clr_list (i * 2 + 6)
  pure ⟨predefinedlabel q, c, (recastArray (nom.entry q)).map some⟩

/-- constraintanalysis.py:2203-2258 (`combinedplot`) -/
def combinedplot (D : SensData) (y_var x_var : String) : PyM Drawn := do
  let comb := D.nom.combined.toList
  let c0 ← constrCurve D.nom 0 .climb
  let c1 ← constrCurve D.nom 1 .cruise
  let c2 ← constrCurve D.nom 2 .servceil
  let c3 ← constrCurve D.nom 3 .takeoff
  let c4 ← constrCurve D.nom 4 .turn
  let stall ← stallLine D.xs D.xcrit
  let trn ← turnLine D.xs comb
  let lo ← listMin D.xs
  let hi ← listMax D.xs
  let m := clMask D.xcrit D.bounds
  pure (.combined { xs := D.xs, curves := [⟨"Combined front \nup to turn stall line", "k", comb⟩, c0, c1, c2, c3, c4], stall, turn := trn,
                    xlim := (lo, hi), ylim := D.ylim, xlabel := xLabelling x_var, ylabel := yLabelling y_var, mask := m,
                    front := feasFront D.xs comb m })

/-- constraintanalysis.py:1989-2122 -/
def sensData (X : Ext) (b : Built) (wingloading : NumArg) (y_var x_var : String) (y_lim : Option ℝ) : PyM SensData := do
  let weight_n ← need b.concept.weight_n
  let power := decide (y_var = "p_hp")
  let area := decide (x_var = "s_m2")
  let (R, nom) ← study X b wingloading power
  let xs := xAxis weight_n area (recastArray wingloading)
  let xcrit ← xcritStall b.concept area (weight_n / gAcc)
  let ylim ← ylimHi y_lim nom
  let bounds ← infeasBounds xs nom.combined.toList
  pure ⟨R, nom, (recastArray wingloading).length, xs, xcrit, ylim, bounds⟩

/-- constraintanalysis.py:2019 -/
def constrOf (s : String) : Option Constr :=
  if s = "climb" then some .climb
  else if s = "cruise" then some .cruise
  else if s = "servceil" then some .servceil
  else if s = "take-off" then some .takeoff
  else if s = "turn" then some .turn
  else none

/-- constraintanalysis.py:1835-2301 (`propulsionsensitivity_monothetic`): what is drawn -/
def propulsionsensitivity_monothetic (X : Ext) (b : Built) (wingloading : NumArg) (A : SensArgs) : PyM (List Drawn) := do
  let y_var := yVar A.y_var
  let y_lim := yLim A.y_lim
  let x_var := xVar A.x_var
  let labels := A.customlabels.getD []
  let D ← sensData X b wingloading y_var x_var y_lim
  match A.shown with
  | .yes => do
    let a ← [Constr.climb, .cruise, .servceil, .takeoff, .turn].mapM (sensitivityplots D y_var x_var labels A.maskbool)
    let c ← combinedplot D y_var x_var
    pure (a ++ [c])
  | .no => pure []
  | .text s =>
    match constrOf s with
    | some q => do
      let a ← sensitivityplots D y_var x_var labels A.maskbool q
      pure [a]
    | none =>
      if s = "combined" then do
        let c ← combinedplot D y_var x_var
        pure [c]
      else pure []

end

end Verif.Aircraft
