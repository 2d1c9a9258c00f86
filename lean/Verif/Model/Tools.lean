import Verif.Model.Array
import Mathlib.Analysis.SpecialFunctions.Trigonometric.Basic

/-
Model of the numeric helpers of ADRpy/mtools4acdc.py and of ADRpy/weathertools.py.
-/

namespace Verif.Tools

noncomputable section

/-- mtools4acdc.py:73-84 -/
def polyblend (time time_f signal_i signal_f : ℝ) : PyM ℝ :=
  if time_f = 0 then .error .zeroDivisionError
  else
    let normtime := time / time_f
    let scale := signal_f - signal_i
    if time < 0 then .ok signal_i
    else if time ≥ time_f then .ok signal_f
    else .ok (signal_i + scale * normtime ^ 2 * (3 - 2 * normtime))

/-- mtools4acdc.py:276-277, one point -/
def rot1 (theta x z : ℝ) : ℝ × ℝ :=
  (x * Real.cos theta + z * Real.sin theta, -x * Real.sin theta + z * Real.cos theta)

/-- mtools4acdc.py:272-278 (`_coordtrans`): the loop runs over the indices of `x`; a `z` shorter than
`x` raises IndexError, extra elements of `z` are ignored. -/
def coordtrans : List ℝ → List ℝ → ℝ → PyM (List ℝ × List ℝ)
  | [], _, _ => .ok ([], [])
  | _ :: _, [], _ => .error .indexError
  | x :: xs, z :: zs, theta =>
    match coordtrans xs zs theta with
    | .error e => .error e
    | .ok (xt, zt) => .ok ((rot1 theta x z).1 :: xt, (rot1 theta x z).2 :: zt)

/-- mtools4acdc.py:232-233: rows of the data frame inside the time frame. A row is an arbitrary type,
`time` reads its time column (`none`: NaN, for which both comparisons are false). -/
def fdrWindow {Row : Type} (time : Row → Option ℝ) (ti tf : ℝ) (rows : List Row) : List Row :=
  rows.filter (fun r =>
    match time r with
    | some t => decide (t ≥ ti) && decide (t ≤ tf)
    | none => false)

/-- mtools4acdc.py:235-246: a plotted channel is the column of the selected rows. -/
def fdrChannel {Row : Type} (time : Row → Option ℝ) (ti tf : ℝ) (rows : List Row)
    (signal : Row → Option ℝ) : List (Option ℝ) :=
  (fdrWindow time ti tf rows).map signal

end

/-! ### weathertools.py -/

/-- `readlines()`: the lines of a text, each with its terminating newline (the last one possibly
without). Universal newline translation is not modelled. (weathertools.py:18-35) -/
def pyLines : List Char → List (List Char)
  | [] => []
  | c :: cs =>
    if c = '\n' then [c] :: pyLines cs
    else
      match pyLines cs with
      | [] => [[c]]
      | l :: ls => (c :: l) :: ls

/-- `line[:-k]` for k = 1, 2 (weathertools.py:28-31) -/
def dropEnd (k : ℕ) (l : List Char) : List Char := l.take (l.length - k)

/-- weathertools.py:18-35 (`readmethistfile`); `contents` is `none` when the file does not exist. The
result `none` is Python's None. -/
def readmethistfile (contents : Option (List Char)) : PyM (Option (List (List Char))) :=
  match contents with
  | none => .ok none
  | some cs =>
    match pyLines cs with
    | [] => .error .indexError
    | first :: rest =>
      match pyIndex first (-2) with
      | .error e => .error e
      | .ok c =>
        if c = '=' then .ok (some ((first :: rest).map (dropEnd 2)))
        else .ok (some ((first :: rest).map (dropEnd 1)))

/-- weathertools.py:38-52 (`decodemetar`) with an arbitrary decoder (`Metar.Metar`) that may fail. The
bare `except` retries once with characters 4 to 6 replaced. -/
def decodemetar {Obs Err : Type} (decode : List Char → Except Err Obs) (metar : List Char) :
    Except Err Obs :=
  match decode metar with
  | .ok o => .ok o
  | .error _ => decode (metar.take 4 ++ [' ', '2', '8'] ++ metar.drop 7)

end Verif.Tools
