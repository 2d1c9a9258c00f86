import Verif.Model.Propulsion

/-
ADRpy/propulsion.py: reading of the polynomial files (`_poly_process`) and the data list printed by
`local_data`.
-/

namespace Verif.Propulsion

open Verif

noncomputable section

/-! ### Polynomial files -/

/-- Universal newlines of a file opened in text mode (propulsion.py:1827): `\r\n` and `\r` become
`\n`. -/
def newlines : List Char → List Char
  | [] => []
  | '\r' :: '\n' :: s => '\n' :: newlines s
  | '\r' :: s => '\n' :: newlines s
  | c :: s => c :: newlines s

/-- The encoding `utf-8-sig` (propulsion.py:1827) drops a byte order mark at the start. -/
def dropBom : List Char → List Char
  | '\ufeff' :: s => s
  | s => s

/-- Python's `s.split(sep)` for a separator of one character. (propulsion.py:1829-1833) -/
def pySplit (sep : Char) : List Char → List (List Char)
  | [] => [[]]
  | c :: s =>
    if c = sep then [] :: pySplit sep s
    else match pySplit sep s with
      | [] => [[c]]
      | h :: t => (c :: h) :: t

/-- propulsion.py:1799-1838 (`_poly_process`) on the decoded characters of a file. `num` is Python's
`float` of a string, an arbitrary function (infinities and NaN are not modelled); the polynomial is its
list of coefficients. -/
def polyProcess (num : List Char → PyM ℝ) (text : List Char) : PyM PolyFile := do
  let poly_data := pySplit '\n' (newlines (dropBom text))
  let line0 ← getIdx poly_data 0
  let coeff_list ← (pySplit ',' line0).mapM num
  let line1 ← getIdx poly_data 1
  let poly_limits ← ((pySplit ',' line1).filter (fun l => l.length ≠ 0)).mapM num
  pure (coeff_list, poly_limits)

/-- A directory whose polynomial files have these contents. (propulsion.py:1799-1838) -/
def textDir (listing : List String) (csv : String → Frame) (num : List Char → PyM ℝ) (text : String → List Char) : Dir :=
  ⟨listing, csv, fun f => polyProcess num (text f)⟩

/-! ### Printed data -/

/-- propulsion.py:83-103: `file_name_replace` of an engine type -/
def dataNames (deck_type : List Char) : List (String × String) :=
  if deck_type = "turboprop".toList then
    [("Thrust_data", "Core/hot thrust (N) versus Mach Number and altitude (m)"),
     ("Power_data", "Shaft power (W) versus Mach Number and altitude (m)"),
     ("BSFC_data", "BSFC (g/(kWh)) versus Mach Number and altitude (m)")]
  else if deck_type = "jet".toList then
    [("Thrust_SL_TO_data", "Take-off thrust (N) versus Mach number at SL"),
     ("Thrust_data", "Thrust (N) versus Mach number and altitude (m)"),
     ("TSFC_data", "TSFC (g/(kNs)) versus Mach number and engine thrust (N)")]
  else if deck_type = "electric".toList then
    [("Efficiency_data", "Efficiency versus Engine speed (RPM) and torque (Nm)")]
  else if deck_type = "piston".toList then
    [("Power_data", "Shaft power (W) versus Engine Speed (RPM) and altitude (m)"),
     ("BSFC_data", "BSFC (g/(kWh)) Engine Speed (RPM) and shaft power (W)")]
  else []

/-- propulsion.py:108-111: the readable names of the files; the removal of ".csv" (113) changes none of
them. -/
def parsedData (deck_type : List Char) (files : List String) : List String :=
  (dataNames deck_type).flatMap (fun kv => (files.filter (fun f => pyIn kv.1.toList f.toList)).map (fun _ => kv.2))

/-- What is printed of one engine. (propulsion.py:79-120) -/
structure Printed where
  engine : String
  data : List String
  notes : String
  reference : String

/-- propulsion.py:79-120 with `printdata=True`: one metadata row -/
def printRow (deck_type : List Char) (listing : List String) (row : List String) : PyM Printed :=
  match row with
  | [name, notes, ref] =>
    .ok ⟨name, parsedData deck_type (engineFiles name listing), if notes.length ≠ 0 then notes else "-",
      if ref.length ≠ 0 then ref else "-"⟩
  | _ => .error .unpackError

/-- propulsion.py:25-124 (`local_data`) with `printdata=True`: what is printed, row after row (of a run
that raises, the rows printed before are left out). -/
def local_print (dirs : List Char → List String) (meta_rows : List Char → List (List String)) (deck_type : String) :
    PyM (List Printed) :=
  let t := lower deck_type
  if t ∈ engineTypes.map String.toList then (meta_rows t).mapM (printRow t (dirs t))
  else .error .lookupError

end

end Verif.Propulsion
