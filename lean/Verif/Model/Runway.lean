import Verif.Model.AtmosHelpers
import Verif.Model.Array

/-
Model of Runway.__init__ (ADRpy/atmospheres.py:130-204) over an arbitrary database table. The csv
parser and Python's `float(str)` are parameters: rows are given as lists of field strings, and
`parse` is an arbitrary partial function from strings to numbers (`none` is the ValueError of
`float`).
-/

namespace Verif.Atmos
open Verif.Units

noncomputable section

/-- A field that is a database string or, on a custom runway, a number. (atmospheres.py:151-204) -/
inductive Field where
  | str (s : String)
  | num (x : ℝ)

/-- atmospheres.py:148-204, the attributes of a Runway. `none` in a threshold field is NaN. `nrways`
is set in the database branch only (line 145). -/
structure Runway where
  nrways : Option ℕ
  ident : String
  airport_ref : String
  airport_ident : String
  length_ft : ℝ
  width_ft : ℝ
  surface : String
  lighted : Field
  closed : Field
  le_ident : String
  le_latitude_deg : Field
  le_longitude_deg : Field
  le_elevation_ft : ℝ
  le_heading_degt : ℝ
  le_displaced_threshold_ft : Option ℝ
  he_ident : String
  he_latitude_deg : Field
  he_longitude_deg : Field
  he_elevation_ft : ℝ
  he_heading_degt : ℝ
  he_displaced_threshold_ft : Option ℝ
  length_m : ℝ
  width_m : ℝ
  le_elevation_m : ℝ
  le_displaced_threshold_m : Option ℝ
  he_elevation_m : ℝ
  he_displaced_threshold_m : Option ℝ

/-- Python's `float(s)` with the parser as a parameter. (atmospheres.py:151-175) -/
def pyFloat (parse : String → Option ℝ) (s : String) : PyM ℝ :=
  match parse s with
  | some x => .ok x
  | none => .error .valueError

/-- atmospheres.py:142: indices of the rows whose third field is the code. (The IndexError of a row
with fewer than three fields is handled in `runwayDb`.) -/
def rindlst (db : List (List String)) (code : String) : List ℕ :=
  (List.range db.length).filter (fun i => decide ((db[i]?.bind (fun r => r[2]?)) = some code))

/-- atmospheres.py:151-175 and 198-204: the attributes read from one row. -/
def runwayOfRow (parse : String → Option ℝ) (nr : ℕ) (row : List String) : PyM Runway := do
  let ident ← pyIndex row 0
  let airport_ref ← pyIndex row 1
  let airport_ident ← pyIndex row 2
  let length_ft ← (← pyIndex row 3) |> pyFloat parse
  let width_ft ← (← pyIndex row 4) |> pyFloat parse
  let surface ← pyIndex row 5
  let lighted ← pyIndex row 6
  let closed ← pyIndex row 7
  let le_ident ← pyIndex row 8
  let le_lat ← pyIndex row 9
  let le_lon ← pyIndex row 10
  let le_elev ← (← pyIndex row 11) |> pyFloat parse
  let le_hdg ← (← pyIndex row 12) |> pyFloat parse
  let le_disp ← pyIndex row 13
  let he_ident ← pyIndex row 14
  let he_lat ← pyIndex row 15
  let he_lon ← pyIndex row 16
  let he_elev ← (← pyIndex row 17) |> pyFloat parse
  let he_hdg ← (← pyIndex row 18) |> pyFloat parse
  let he_disp ← pyIndex row 19
  pure { nrways := some nr, ident, airport_ref, airport_ident, length_ft, width_ft, surface,
         lighted := .str lighted, closed := .str closed, le_ident,
         le_latitude_deg := .str le_lat, le_longitude_deg := .str le_lon,
         le_elevation_ft := le_elev, le_heading_degt := le_hdg,
         le_displaced_threshold_ft := parse le_disp, he_ident,
         he_latitude_deg := .str he_lat, he_longitude_deg := .str he_lon,
         he_elevation_ft := he_elev, he_heading_degt := he_hdg,
         he_displaced_threshold_ft := parse he_disp,
         length_m := feet2m length_ft, width_m := feet2m width_ft,
         le_elevation_m := feet2m le_elev, le_displaced_threshold_m := (parse le_disp).map feet2m,
         he_elevation_m := feet2m he_elev, he_displaced_threshold_m := (parse he_disp).map feet2m }

/-- atmospheres.py:133-175 (database branch): the row `rindlst[0] + rwyno`, with Python's negative
indexing. -/
def runwayDb (parse : String → Option ℝ) (db : List (List String)) (code : String) (rwyno : ℤ) :
    PyM Runway :=
  if db.any (fun r => decide (r.length < 3)) then .error .indexError
  else
    let idx := rindlst db code
    if rwyno > (idx.length : ℤ) - 1 then .error .valueError
    else
      match idx with
      | [] => .error .indexError
      | rind :: _ =>
        match pyIndex db ((rind : ℤ) + rwyno) with
        | .error e => .error e
        | .ok row => runwayOfRow parse idx.length row

/-- atmospheres.py:176-204 (custom branch). `str(int(x/10))` is a parameter `label`. -/
def runwayCustom (label : ℝ → String) (elevation_ft heading : ℝ) (surf : String)
    (length_ft width_ft : ℝ) : Runway :=
  { nrways := none, ident := "0000000", airport_ref := "0000", airport_ident := "CUST",
    length_ft, width_ft, surface := surf, lighted := .num 1, closed := .num 0,
    le_ident := label (heading / 10), le_latitude_deg := .num 0, le_longitude_deg := .num 0,
    le_elevation_ft := elevation_ft, le_heading_degt := heading, le_displaced_threshold_ft := some 0,
    he_ident := label (reciprocalhdg heading / 10), he_latitude_deg := .num 0,
    he_longitude_deg := .num 0, he_elevation_ft := elevation_ft,
    he_heading_degt := reciprocalhdg heading, he_displaced_threshold_ft := some 0,
    length_m := feet2m length_ft, width_m := feet2m width_ft,
    le_elevation_m := feet2m elevation_ft, le_displaced_threshold_m := some (feet2m 0),
    he_elevation_m := feet2m elevation_ft, he_displaced_threshold_m := some (feet2m 0) }

end

end Verif.Atmos
