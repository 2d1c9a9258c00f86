import Verif.Model.Airworthiness
import Verif.Model.Propeller

/-
ADRpy/airworthiness.py:739, 755-886: what `flightenvelope` draws: gust lines with their annotations, the
outline of the flight envelope, the manoeuvre envelope, the marked points, the legend and the axes. Fonts,
text offsets, line styles and the texts around the numbers are left out.
-/

namespace Verif.Airworthiness
open Verif Verif.Units Verif.Aircraft

noncomputable section

/-- A straight line between two points (speed, load). (airworthiness.py:803-812) -/
abbrev Seg := (ℝ × ℝ) × (ℝ × ℝ)

/-- The drawing of the V-n diagram. (airworthiness.py:755-886) -/
structure VnPlot where
  gustLines : List Seg
  notes : List (ℝ × (ℝ × ℝ))
  outline : List (ℝ × ℝ)
  manoeuvre : List (ℝ × ℝ)
  marks : List (String × String × (ℝ × ℝ))
  legend : List (String × (ℝ × ℝ))
  xlim : ℝ × ℝ
  ylim : ℝ × ℝ

/-- airworthiness.py:663: `airspeed_atgust_keas` -/
def Envelope.gustKeas (E : Envelope) : Gust → ℝ
  | .Ub => E.vb
  | .Uc => E.vc
  | .Ud => E.vd

/-- airworthiness.py:781-785: the ends of the gust lines of one gust (`xlist`, `ylist`): first the positive
load, then the negative one, the order in which the dictionary was filled (498-499) -/
def gustEnds (E : Envelope) (g : GustLoad) : List (Gust × Seg) :=
  [(g.gust, ((0, 1), (E.gustKeas g.gust, g.npos))), (g.gust, ((0, 1), (E.gustKeas g.gust, g.nneg)))]

/-- airworthiness.py:807-808: extension of a gust line beyond the envelope -/
def extendLine (s : Seg) : Seg := ((s.1.1, s.1.2), (s.2.1 * 5, (s.2.2 - 1) * 5 + 1))

open Classical in
/-- airworthiness.py:783, 786-799: the annotation of a gust line: the rounded gust speed and the point the
arrow points to; only for loads of at least 1 -/
def gustNote (gusts : List (Gust × ℝ)) (l : Gust × Seg) : PyM (Option (ℝ × (ℝ × ℝ))) := do
  let u ← gustSpeed gusts l.1
  pure (if l.2.2.2 ≥ 1 then some (Propulsion.roundDp 2 u, (0.15 * l.2.2.1, 0.15 * (l.2.2.2 - 1) + 1)) else none)

/-- airworthiness.py:686-739, 815-827: the outline of the flight envelope: stall line `OS`, `SC`, `CD`, `E`, `EF`,
`FS`, stall line `iSO`, one after the other -/
def envOutline (E : Envelope) (wfract : ℝ) : List (ℝ × ℝ) :=
  [(E.vs, 0), (E.vs, 1 / wfract)] ++ E.sc ++ E.cd ++ [E.e] ++ E.ef ++ E.fs ++
    [(E.vis, max (-1) (firstY E.go)), (E.vis, 0), (E.vs, 0)]

/-- airworthiness.py:666-684, 866-876: the manoeuvre envelope: `OA`, the points D, E, F, `GO` -/
def manOutline (E : Envelope) (man : Manoeuvre) (wingloading trueloading : ℝ) : List (ℝ × ℝ) :=
  E.oa ++ [(E.vd, man.npos_D * (wingloading / trueloading)), (E.vd, man.nneg_D * (wingloading / trueloading)),
    (E.vc, man.nneg_C * (wingloading / trueloading))] ++ E.go

/-- `coords_poi[k][1]`: KeyError when the point is absent. (airworthiness.py:756-757) -/
def poiY (poi : List (String × (ℝ × ℝ))) (k : String) : PyM ℝ :=
  match poi.find? (fun p => p.1 = k) with
  | some p => .ok p.2.2
  | none => .error .keyError

/-- airworthiness.py:693: the load of the first key of the dictionary (IndexError when it is empty). -/
def firstLoad : List GustLoad → PyM ℝ
  | [] => .error .indexError
  | g :: _ => .ok g.npos

/-- airworthiness.py:849 -/
def poiColour (k : String) : String := if k ∈ ["A", "B", "C", "D"] then "green" else "red"

/-- airworthiness.py:755-886 with `show=True`. The gust loads are those computed at 664; the dictionaries are
computed again here from the same inputs. -/
def vnPlot (X : Ext) (o : Cert) : PyM VnPlot := do
  let E ← flightenvelope X o
  let cat ← parseCat o.category
  let weight_n ← need o.acobj.weight_n
  let wingarea_m2 ← need o.acobj.wingarea_m2
  let wingloading := weight_n / wingarea_m2
  let wfract := o.weightfraction
  let (mans, gusts) ← paragraph333 o
  let (loads, _, _) ← paragraph341 X o (fun g => some (E.gustKeas g))
  let max_ygust ← firstLoad (loads cat)
  let c ← poiY E.poi "C"
  let d ← poiY E.poi "D"
  let e ← poiY E.poi "E"
  let f ← poiY E.poi "F"
  let g ← poiY E.poi "G"
  let yposlim := max (max max_ygust c) d
  let yneglim := min (min e f) g
  let ends := (loads cat).flatMap (gustEnds E)
  let notes ← ends.mapM (gustNote (gusts cat))
  pure { gustLines := ends.map (fun l => extendLine l.2),
         notes := notes.filterMap id,
         outline := envOutline E wfract,
         manoeuvre := manOutline E (mans cat) wingloading (wingloading * wfract),
         marks := E.poi.map (fun p => (p.1, poiColour p.1, p.2)),
         legend := E.poi.map (fun p => (p.1, (Propulsion.roundDp 1 p.2.1, Propulsion.roundDp 2 p.2.2))),
         xlim := (0, 1.1 * E.vd),
         ylim := (1.3 * yneglim, 1.3 * yposlim) }

end

end Verif.Airworthiness
