import Verif.Model.Propulsion
import Verif.Model.Tools

/-
Model of the panel plots (ADRpy/mtools4acdc.py:28-57, 87-133, 136-269): which curve is drawn in which panel, with which label and
which marker lines. Colours, fonts, sizes, legends' places and the vertical extent of the marker lines are not modelled.
-/

namespace Verif.Tools
open Verif Verif.Propulsion

noncomputable section

/-- A row of numbers to plot (`none`: NaN). (mtools4acdc.py:28-57, 87-133) -/
abbrev Series := List (Option ℝ)

/-- mtools4acdc.py:87-91, an element of `vlabels`: a text, or a list of texts (the label of the panel and those of its curves) -/
inductive VLabel where
  | text (s : String)
  | list (l : List String)

/-- `vlabels[i][k]`: of a text the character, of a list the element; IndexError beyond the end
(mtools4acdc.py:112-121) -/
def VLabel.at (v : VLabel) (k : ℕ) : PyM String :=
  match v with
  | .text s => do
    let c ← pyIndex s.toList k
    pure (String.ofList [c])
  | .list l => pyIndex l k

/-- mtools4acdc.py:112-121, an element of `vaxes`: a list of signals or one signal -/
inductive VAxis where
  | many (ds : List Series)
  | one (d : Series)

/-- A curve as drawn. (mtools4acdc.py:112-121) -/
structure Curve where
  xs : Series
  ys : Series
  label : Option String

/-- `axes[i].plot(x, y, label=..)`: ValueError when the lengths differ
(mtools4acdc.py:44, 114, 120) -/
def plotCurve (xs ys : Series) (label : Option String) : PyM Curve :=
  if xs.length = ys.length then .ok ⟨xs, ys, label⟩ else .error .valueError

/-- A panel as drawn: the label of its vertical axis, its curves, its marker lines (place and colour), the label of its horizontal
axis where there is one. (mtools4acdc.py:110-127) -/
structure PanelView where
  ylabel : VLabel
  curves : List Curve
  markers : List (ℝ × String)
  xlabel : Option String

/-- mtools4acdc.py:113-114: the loop over the signals of a panel, from number `j` on -/
def panelCurves (haxis : Series) (lab : VLabel) : ℕ → List Series → PyM (List Curve)
  | _, [] => .ok []
  | j, d :: ds => do
    let l ← lab.at (j + 1)
    let c ← plotCurve haxis d (some l)
    let cs ← panelCurves haxis lab (j + 1) ds
    pure (c :: cs)

/-- mtools4acdc.py:48-49 and 124-125: the loop over the marker lines, from number `j` on; fewer colours raise IndexError -/
def lineMarks (cols : List String) : ℕ → List ℝ → PyM (List (ℝ × String))
  | _, [] => .ok []
  | j, v :: vs => do
    let c ← pyIndex cols j
    let r ← lineMarks cols (j + 1) vs
    pure ((v, c) :: r)

/-- mtools4acdc.py:110-125: panel number `i` -/
def panelX (haxis : Series) (v : VAxis) (vlabels : List VLabel) (vlines : List ℝ) (cols : List String) (i : ℕ) : PyM PanelView :=
  match v with
  | .many ds => do
    let cs ← match ds with
      | [] => pure []
      | ds => do
        let lab ← pyIndex vlabels i
        panelCurves haxis lab 0 ds
    let lab ← pyIndex vlabels i
    let y ← lab.at 0
    let ms ← lineMarks cols 0 vlines
    pure ⟨.text y, cs, ms, none⟩
  | .one d => do
    let lab ← pyIndex vlabels i
    let c ← plotCurve haxis d none
    let ms ← lineMarks cols 0 vlines
    pure ⟨lab, [c], ms, none⟩

/-- mtools4acdc.py:110-125: the loop over the panels, from number `i` on -/
def panelsX (haxis : Series) (vlabels : List VLabel) (vlines : List ℝ) (cols : List String) : ℕ → List VAxis → PyM (List PanelView)
  | _, [] => .ok []
  | i, v :: vs => do
    let p ← panelX haxis v vlabels vlines cols i
    let ps ← panelsX haxis vlabels vlines cols (i + 1) vs
    pure (p :: ps)

/-- mtools4acdc.py:127: the horizontal label goes to the last panel -/
def labelLast (hlabel : String) : List PanelView → List PanelView
  | [] => []
  | [p] => [{ p with xlabel := some hlabel }]
  | p :: ps => p :: labelLast hlabel ps

/-- mtools4acdc.py:87-133 (`panelplot_with_shared_x`). `plt.subplots` of no panels raises ValueError; of one panel it returns a single
axes object, which cannot be indexed (TypeError). -/
def panelplot_with_shared_x (haxis : Series) (vaxes : List VAxis) (hlabel : String) (vlabels : List VLabel) (vlines : List ℝ)
    (cols : List String) : PyM (List PanelView) :=
  if vaxes.length = 0 then .error .valueError
  else if vaxes.length = 1 then .error .typeError
  else do
    let ps ← panelsX haxis vlabels vlines cols 0 vaxes
    pure (labelLast hlabel ps)

/-- mtools4acdc.py:232-233: the data frame cut to the time frame (`none`: NaN, for which the comparisons are false) -/
def fdrTrim (f : Frame) (tcol : String) (ti tf : ℝ) : PyM Frame := do
  let t ← col f tcol
  let keep := t.map (fun s => match s with
    | some s => decide (s ≥ ti) && decide (s ≤ tf)
    | none => false)
  pure (f.map (fun c => (c.1, ((keep.zip c.2).filter (fun p => p.1)).map (fun p => p.2))))

/-- mtools4acdc.py:240-245: the signals of a panel; its label `panel[0]` is read first -/
def panelData (fd : Frame) (panel : List String) : PyM (List Series) := do
  let _ ← pyIndex panel 0
  (panel.drop 1).mapM (col fd)

/-- mtools4acdc.py:136-269 (`fdrplot`) of the data frame read from the file; `timeline` and `markers` are given by their parts, sizes and
colours (`figpars`) are left out. -/
def fdrplot (f : Frame) (tcol tlabel : String) (ti tf : ℝ) (panels : List (List String)) (vlines : List ℝ) (cols : List String) :
    PyM (List PanelView × Frame) := do
  let fd ← fdrTrim f tcol ti tf
  let time ← col fd tcol
  let data ← panels.mapM (panelData fd)
  let ps ← panelplot_with_shared_x time (data.map .many) tlabel (panels.map .list) vlines cols
  pure (ps, fd)

/-- A panel with a shared vertical axis as drawn: one curve, the limits of its horizontal axis, its label, the horizontal lines (between
the limits, at a height, in a colour), the label of the vertical axis where there is one.
(mtools4acdc.py:43-51) -/
structure SideView where
  xs : Series
  ys : Series
  xlim : ℝ × ℝ
  xlabel : String
  lines : List ((ℝ × ℝ) × ℝ × String)
  ylabel : Option String

/-- mtools4acdc.py:43-49: the loop over the panels, from number `i` on -/
def panelsY (vaxis : Series) (hlimits : List (ℝ × ℝ)) (hlabels : List String) (hlines : List ℝ) (cols : List String) :
    ℕ → List Series → PyM (List SideView)
  | _, [] => .ok []
  | i, h :: hs => do
    let c ← plotCurve h vaxis none
    let lim ← pyIndex hlimits i
    let lab ← pyIndex hlabels i
    let ms ← lineMarks cols 0 hlines
    let r ← panelsY vaxis hlimits hlabels hlines cols (i + 1) hs
    pure (⟨c.xs, c.ys, lim, lab, ms.map (fun m => (lim, m.1, m.2)), none⟩ :: r)

/-- mtools4acdc.py:51: the vertical label goes to the first panel -/
def labelFirst (vlabel : String) : List SideView → List SideView
  | [] => []
  | p :: ps => { p with ylabel := some vlabel } :: ps

/-- mtools4acdc.py:28-57 (`panelplot_with_shared_y`), as `panelplot_with_shared_x` for the numbers of panels -/
def panelplot_with_shared_y (vaxis : Series) (haxes : List Series) (hlimits : List (ℝ × ℝ)) (vlabel : String) (hlabels : List String)
    (hlines : List ℝ) (cols : List String) : PyM (List SideView) :=
  if haxes.length = 0 then .error .valueError
  else if haxes.length = 1 then .error .typeError
  else do
    let ps ← panelsY vaxis hlimits hlabels hlines cols 0 haxes
    pure (labelFirst vlabel ps)

end

end Verif.Tools
