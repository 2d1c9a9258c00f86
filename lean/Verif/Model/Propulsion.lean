import Verif.Model.Propeller
import Mathlib.Data.List.Infix

/-
Model of the engine decks of ADRpy/propulsion.py: data selection (`_setup`, `local_data`), polynomial
fits (`_poly`), the queries of TurbopropDeck, PistonDeck, ElectricDeck and JetDeck, and the checks of
their demonstration plots (labels, grid and values; the drawing by matplotlib is left out).

scipy's `griddata` is an arbitrary function `Grid` of the table and the query point (NaN outside the
convex hull of the table).
-/

namespace Verif.Propulsion

open Verif Verif.Atmos

noncomputable section

/-! ### Files -/

/-- `t in s` for Python strings: `t` is a contiguous part of `s`. (propulsion.py:1767-1787) -/
def pyIn (t s : List Char) : Bool := decide (t <:+: s)

/-- `s.lower()`; only the ASCII letters are changed here (Python also maps other alphabets; the file
names of the package are ASCII). (propulsion.py:67, 1767-1787) -/
def lower (s : String) : List Char := s.toList.map Char.toLower

/-- A data frame read by `pd.read_csv`: named columns of numbers, blanks are NaN.
(propulsion.py:151-179) -/
abbrev Frame := List (String × List (Option ℝ))

/-- A polynomial file (propulsion.py:1799-1838): coefficients and limits. -/
abbrev PolyFile := List ℝ × List ℝ

/-- A directory: the names in the order `os.listdir` gives them, and the contents of the files.
(propulsion.py:74, 1740) -/
structure Dir where
  listing : List String
  csv : String → Frame
  poly : String → PyM PolyFile

/-- propulsion.py:1747-1748: `data_available` -/
structure Avail where
  out : List Bool
  eff : List Bool
  sl : Bool
  slto : Bool
  deriving DecidableEq

/-- An element of the list `data_available`: a list or a boolean. (propulsion.py:1747-1796) -/
inductive AvItem where
  | list (l : List Bool)
  | bool (b : Bool)

/-- `value is False`: true for the boolean False only. (propulsion.py:470, 499, 529, 871) -/
def AvItem.isFalse : AvItem → Bool
  | .list _ => false
  | .bool b => !b

/-- propulsion.py:1747-1748 as the list it is. -/
def Avail.items (a : Avail) : List AvItem := [.list a.out, .list a.eff, .bool a.sl, .bool a.slto]

/-- `data_available[0][i]`, `data_available[1][i]` (the index always exists).
(propulsion.py:151, 161, 172) -/
def flagAt (l : List Bool) (i : ℕ) : Bool := l.getD i false

/-- propulsion.py:1747-1760: the local variables of `_setup` (a polynomial and its limits are
assigned together). -/
structure Setup where
  output_data : List (Option Frame)
  eta_data : List (Option Frame)
  slPoly : Option PolyFile
  sltoPoly : Option PolyFile
  avail : Avail

/-- propulsion.py:1747-1760 -/
def setupInit (outputs effs : List String) : Setup where
  output_data := outputs.map (fun _ => none)
  eta_data := effs.map (fun _ => none)
  slPoly := none
  sltoPoly := none
  avail := ⟨outputs.map (fun _ => false), effs.map (fun _ => false), false, false⟩

/-- propulsion.py:1767 and 1787: the file holds the table of this role. -/
def isTable (role : String) (file : String) : Bool :=
  pyIn (role.toList ++ "_data.csv".toList) (lower file)

/-- propulsion.py:1773 -/
def isSlPoly (role : String) (file : String) : Bool :=
  pyIn ("sea_level_".toList ++ role.toList ++ "_polynomial.csv".toList) (lower file)

/-- propulsion.py:1780 -/
def isSltoPoly (role : String) (file : String) : Bool :=
  pyIn ("sea_level_take_off_".toList ++ role.toList ++ "_polynomial.csv".toList) (lower file)

/-- propulsion.py:1767-1771 -/
def takeOutput (d : Dir) (file : String) (S : Setup) (o : String × ℕ) : Setup :=
  if isTable o.1 file then
    { S with output_data := S.output_data.set o.2 (some (d.csv file)),
             avail := { S.avail with out := S.avail.out.set o.2 true } }
  else S

/-- propulsion.py:1773-1777 -/
def takeSl (d : Dir) (file : String) (S : Setup) (o : String × ℕ) : PyM Setup :=
  if isSlPoly o.1 file then do
    let p ← d.poly file
    pure { S with slPoly := some p, avail := { S.avail with sl := true } }
  else pure S

/-- propulsion.py:1780-1784 -/
def takeSlto (d : Dir) (file : String) (S : Setup) (o : String × ℕ) : PyM Setup :=
  if isSltoPoly o.1 file then do
    let p ← d.poly file
    pure { S with sltoPoly := some p, avail := { S.avail with slto := true } }
  else pure S

/-- propulsion.py:1766-1784: one output role -/
def takeRole (d : Dir) (file : String) (S : Setup) (o : String × ℕ) : PyM Setup := do
  let S1 ← takeSl d file (takeOutput d file S o) o
  takeSlto d file S1 o

/-- propulsion.py:1786-1790: one efficiency role -/
def takeEff (d : Dir) (file : String) (S : Setup) (e : String × ℕ) : Setup :=
  if isTable e.1 file then
    { S with eta_data := S.eta_data.set e.2 (some (d.csv file)),
             avail := { S.avail with eff := S.avail.eff.set e.2 true } }
  else S

/-- propulsion.py:1763-1790: one file -/
def takeFile (d : Dir) (outputs effs : List String) (S : Setup) (file : String) : PyM Setup := do
  let S1 ← outputs.zipIdx.foldlM (takeRole d file) S
  pure (effs.zipIdx.foldl (takeEff d file) S1)

/-- propulsion.py:1742: the files of the engine -/
def engineFiles (name : String) (listing : List String) : List String :=
  listing.filter (fun f => pyIn name.toList f.toList)

/-- propulsion.py:1722-1796 (`_setup`) -/
def setup (d : Dir) (name : String) (outputs effs : List String) : PyM Setup := do
  let S ← (engineFiles name d.listing).foldlM (takeFile d outputs effs) (setupInit outputs effs)
  if S.avail.items.all AvItem.isFalse then .error .nameError else pure S

/-! ### Local data -/

/-- Python's `s.capitalize()` is only used to build the directory name. One row of the result of
`local_data` (propulsion.py:119-121). -/
structure LocalEntry where
  available_data : List String
  engine_notes : String
  reference : String

/-- propulsion.py:66 -/
def engineTypes : List String := ["turboprop", "jet", "electric", "piston"]

/-- propulsion.py:79-121: one metadata row; unpacking a row that has not three fields raises
ValueError (here `unpackError`). Assignment to an existing key replaces its value. -/
def localRow (listing : List String) (acc : List (String × LocalEntry)) (row : List String) :
    PyM (List (String × LocalEntry)) :=
  match row with
  | [name, notes, ref] =>
    .ok ((acc.filter (fun e => e.1 ≠ name)) ++ [(name, ⟨engineFiles name listing, notes, ref⟩)])
  | _ => .error .unpackError

/-- propulsion.py:25-124 (`local_data`): `dirs` and `meta` are the directory listing and the metadata
rows found for an engine type. Printing is not modelled; a replaced entry keeps its old position in a
Python dictionary and moves to the end here. -/
def local_data (dirs : List Char → List String) (meta_rows : List Char → List (List String)) (deck_type : String) :
    PyM (List (String × LocalEntry)) :=
  let t := lower deck_type
  if t ∈ engineTypes.map String.toList then (meta_rows t).foldlM (localRow (dirs t)) []
  else .error .lookupError

/-! ### Tables and interpolation -/

/-- One column of the array `np.array([x, y, z])`: two coordinates and the value.
(propulsion.py:156-179) -/
abbrev Row := Option ℝ × Option ℝ × Option ℝ

/-- `df[name].to_numpy()`: KeyError when the column is missing. (propulsion.py:156-158) -/
def col (f : Frame) (name : String) : PyM (List (Option ℝ)) :=
  match f.find? (fun c => c.1 = name) with
  | some c => .ok c.2
  | none => .error .keyError

/-- propulsion.py:156-160 and the like: three columns of a frame (which have the same length) -/
def table (f : Frame) (x y z : String) : PyM (List Row) := do
  let a ← col f x
  let b ← col f y
  let c ← col f z
  pure (a.zip (b.zip c))

/-- `griddata((x_ref, y_ref), z_ref, (x, y), method="cubic", rescale=True)` (propulsion.py:1861) at one
point: an arbitrary function. -/
abbrev Grid := List Row → ℝ → ℝ → Option ℝ

/-- numpy broadcasting of two one-dimensional arrays, any element types (propulsion.py:1861) -/
def bcast {α β γ : Type} (f : α → β → γ) (xs : List α) (ys : List β) : PyM (List γ) :=
  if xs.length = ys.length then .ok (List.zipWith f xs ys)
  else match xs, ys with
    | [x], ys => .ok (ys.map (f x))
    | xs, [y] => .ok (xs.map (fun x => f x y))
    | _, _ => .error .valueError

/-- propulsion.py:1841-1863 (`_griddata_interpolate`) on arrays; a number is a one-element array
here (scipy returns a zero-dimensional array for two numbers). -/
def griddata (G : Grid) (t : List Row) (x y : NumArg) : PyM (List (Option ℝ)) :=
  bcast (G t) (recastArray x) (recastArray y)

/-- A query whose second argument is itself an array with NaN (griddata at NaN gives NaN).
(propulsion.py:708, 1335, 1861) -/
def gridNan (G : Grid) (t : List Row) (x : ℝ) (y : Option ℝ) : Option ℝ := do let y ← y; G t x y

/-- propulsion.py:283 and 1333: the rows without NaN -/
def dropNan (t : List Row) : List Row := t.filter (fun r => r.1.isSome && r.2.1.isSome && r.2.2.isSome)

/-- Attribute access: AttributeError when the constructor did not set the attribute.
(propulsion.py:223, 253, 286) -/
def attrOf {α : Type} (x : Option α) : PyM α :=
  match x with
  | some a => .ok a
  | none => .error .attributeError

/-- The result of a deck query: `none` is None, returned after a RuntimeWarning.
(propulsion.py:216-223) -/
abbrev Query := PyM (Option (List (Option ℝ)))

/-- Product and quotient with NaN propagation (a division by zero is not modelled: it takes Lean's
value). (for instance propulsion.py:329-335, 366, 398, 445) -/
def nmul (a b : Option ℝ) : Option ℝ := do let x ← a; let y ← b; pure (x * y)

/-- See `nmul`. (for instance propulsion.py:329-335, 366, 398, 445) -/
def ndiv (a b : Option ℝ) : Option ℝ := do let x ← a; let y ← b; pure (x / y)

/-- Sum with NaN propagation. (for instance propulsion.py:329-335, 366, 398, 445) -/
def nadd (a b : Option ℝ) : Option ℝ := do let x ← a; let y ← b; pure (x + y)

/-- Python's `max` of a sequence that may contain NaN: the first element is replaced by later ones
that are larger (a comparison with NaN is false); ValueError when empty.
(propulsion.py:397, 791, 1286) -/
def pyMax : List (Option ℝ) → PyM (Option ℝ)
  | [] => .error .valueError
  | x :: xs => .ok (xs.foldl (fun m y => match m, y with
      | some a, some b => if a < b then some b else some a
      | m, _ => m) x)

/-- Query of a table guarded by its availability flag (propulsion.py:216-224, 246-254, 636-645,
1022-1030, 1251-1259): None with a warning, or the interpolation. -/
def guarded (avail : Bool) (data : Option (List Row)) (G : Grid) (x y : NumArg) : Query :=
  if avail = false then .ok none
  else do
    let t ← attrOf data
    let z ← griddata G t x y
    pure (some z)

/-- `self.x / max(self.data[2])` (propulsion.py:395-398, 789-792, 1284-1287): dividing None raises
TypeError. -/
def overMax (q : Option (List (Option ℝ))) (data : Option (List Row)) : PyM (List (Option ℝ)) := do
  let t ← attrOf data
  let m ← pyMax (t.map (fun r => r.2.2))
  match q with
  | none => .error .typeError
  | some zs => pure (zs.map (fun z => ndiv z m))

/-! ### Propeller-driven thrust -/

/-- The `propeller_obj` argument: None, a PropellerDeck, or an object of another type.
(propulsion.py:318-329, 434-445) -/
inductive PropellerObj where
  | pyNone
  | deck (p : Propeller)
  | other

/-- propulsion.py:318-327, 434-443, 746-755, 835-844, 1116-1125 -/
def chooseProp (o : PropellerObj) (mach alt : NumArg) (rpm : ℝ) (power : Option (List (Option ℝ))) :
    PyM Propeller :=
  match o with
  | .pyNone => do
    let p ← mkPropeller .pyNone
    ansatzprop p mach alt rpm power
  | .deck p => .ok p
  | .other => .error .typeError

/-- propulsion.py:330-331, 446-447, 758-759, 847-848, 1129-1130: `mach * vsound` -/
def airspeed (mach alt : List ℝ) : PyM (List ℝ) := do
  let c ← vsound_mps isa0 (.array alt)
  bcast (fun m a => m * a) mach (recastArray c)

/-- propulsion.py:318-333, 746-761, 1116-1132: propeller thrust `etaprop * power / airspeed` for a
given power array (None raises TypeError in `efficiency`, or ValueError in `ansatzprop`). -/
def propThrust (o : PropellerObj) (mach alt : List ℝ) (rpm : ℝ) (power : Option (List (Option ℝ))) :
    PyM (List (Option ℝ)) := do
  let p ← chooseProp o (.array mach) (.array alt) rpm power
  let eta ← (efficiency p (.array mach) (.array alt) power rpm).1
  let v ← airspeed mach alt
  match power with
  | none => .error .typeError
  | some ps => do
    let ep ← bcast nmul eta ps
    bcast ndiv ep (v.map some)

/-- propulsion.py:434-456, 835-857: `bsfc / 3600 * airspeed / etaprop`; `bsfc` is the query made in
between (None / 3600 raises TypeError). -/
def propTsfc (o : PropellerObj) (mach alt : List ℝ) (rpm : ℝ) (power : Option (List (Option ℝ))) (bsfc : Query) :
    PyM (List (Option ℝ)) := do
  let p ← chooseProp o (.array mach) (.array alt) rpm power
  let eta ← (efficiency p (.array mach) (.array alt) power rpm).1
  let v ← airspeed mach alt
  match ← bsfc with
  | none => .error .typeError
  | some b => do
    let bv ← bcast nmul (b.map (fun x => ndiv x (some 3600))) (v.map some)
    bcast ndiv bv eta

/-! ### Turboprop -/

/-- propulsion.py:140-181: the attributes; `none` is an attribute that was never assigned. -/
structure TurbopropDeck where
  avail : Avail
  thr_data : Option (List Row)
  pwr_data : Option (List Row)
  bsfc_data : Option (List Row)

/-- `if self.data_available[..] is True: self.x = np.array([..])` (propulsion.py:151-179) -/
def assign (avail : Bool) (f : Option Frame) (x y z : String) : PyM (Option (List Row)) :=
  if avail = true then
    match f with
    | some f => do let t ← table f x y z; pure (some t)
    | none => .error .typeError
  else .ok none

/-- `data[0][i]`, `data[1][i]` (the index always exists) (propulsion.py:1747-1796) -/
def dataAt (l : List (Option Frame)) (i : ℕ) : Option Frame := (l[i]?).getD none

/-- propulsion.py:140-181 -/
def mkTurboprop (d : Dir) (name : String) : PyM TurbopropDeck := do
  let S ← setup d name ["thrust", "power"] ["bsfc"]
  let thr ← assign (flagAt S.avail.out 0) (dataAt S.output_data 0) "Mach Number" "Altitude (m)" "Thrust (N)"
  let pwr ← assign (flagAt S.avail.out 1) (dataAt S.output_data 1) "Mach Number" "Altitude (m)" "Power (W)"
  let bsfc ← assign (flagAt S.avail.eff 0) (dataAt S.eta_data 0) "Mach Number" "Altitude (m)" "BSFC (g/(kWh))"
  pure ⟨S.avail, thr, pwr, bsfc⟩

namespace TurbopropDeck

/-- propulsion.py:183-224 -/
def hotthrust (d : TurbopropDeck) (G : Grid) (mach alt : NumArg) : Query :=
  guarded (flagAt d.avail.out 0) d.thr_data G mach alt

/-- propulsion.py:226-254 -/
def shaftpower (d : TurbopropDeck) (G : Grid) (mach alt : NumArg) : Query :=
  guarded (flagAt d.avail.out 1) d.pwr_data G mach alt

/-- propulsion.py:256-287 -/
def bsfc (d : TurbopropDeck) (G : Grid) (mach alt : NumArg) : Query :=
  guarded (flagAt d.avail.eff 0) (d.bsfc_data.map dropNan) G mach alt

/-- propulsion.py:289-335 -/
def coldthrust (d : TurbopropDeck) (G : Grid) (mach alt : NumArg) (rpm : ℝ) (o : PropellerObj) :
    PyM (List (Option ℝ)) := do
  let m := recastArray mach
  let h := recastArray alt
  let power ← d.shaftpower G (.array m) (.array h)
  propThrust o m h rpm power

/-- propulsion.py:337-369 -/
def thrust (d : TurbopropDeck) (G : Grid) (mach alt : NumArg) (rpm : ℝ) (o : PropellerObj) :
    PyM (List (Option ℝ)) := do
  let m := recastArray mach
  let h := recastArray alt
  let hot ← d.hotthrust G (.array m) (.array h)
  let cold ← d.coldthrust G (.array m) (.array h) rpm o
  match hot with
  | none => .error .typeError
  | some hs => bcast nadd hs cold

/-- propulsion.py:371-400 -/
def sl_powercorr (d : TurbopropDeck) (G : Grid) (mach alt : NumArg) : PyM (List (Option ℝ)) := do
  let q ← d.shaftpower G (.array (recastArray mach)) (.array (recastArray alt))
  overMax q d.pwr_data

/-- propulsion.py:402-456 -/
def tsfc (d : TurbopropDeck) (G : Grid) (mach alt : NumArg) (rpm : ℝ) (o : PropellerObj) :
    PyM (List (Option ℝ)) := do
  let m := recastArray mach
  let h := recastArray alt
  let power ← d.shaftpower G (.array m) (.array h)
  propTsfc o m h rpm power (d.bsfc G (.array m) (.array h))

end TurbopropDeck

/-! ### Demonstration plots -/

/-- Python's `min` of a sequence that may contain NaN, see `pyMax`. (propulsion.py:475-478) -/
def pyMinList : List (Option ℝ) → PyM (Option ℝ)
  | [] => .error .valueError
  | x :: xs => .ok (xs.foldl (fun m y => match m, y with
      | some a, some b => if b < a then some b else some a
      | m, _ => m) x)

/-- A colour map: labels, the grid and the values, row after row of the grid (the value of the point
`xs[i]`, `ys[j]` is at `i * len(ys) + j`). (propulsion.py:1867-1959) -/
structure DemoPlot where
  x_label : String
  y_label : String
  z_label : String
  title : String
  xs : List ℝ
  ys : List ℝ
  z : List (Option ℝ)

/-- One axis of `np.mgrid[slice(lo, hi + inc, inc)]` with `inc = (hi - lo) / 1000`
(propulsion.py:1942-1948): `ceil((stop - start) / step)` points; that quotient is NaN for a NaN limit or
for equal limits (0/0 of numpy numbers), whose ceiling raises ValueError. -/
def mgridAxis (lo hi : Option ℝ) : PyM (List ℝ) :=
  match lo, hi with
  | some a, some b =>
    let inc := (b - a) / 1000
    if inc = 0 then .error .valueError
    else .ok ((List.range ⌈(b + inc - a) / inc⌉.toNat).map (fun i : ℕ => (i : ℝ) * inc + a))
  | _, _ => .error .valueError

/-- The first grid of `np.mgrid`, flattened row by row. (propulsion.py:1949) -/
def gridX (xs ys : List ℝ) : List ℝ := xs.flatMap (fun x => ys.map (fun _ => x))

/-- The second grid of `np.mgrid`, flattened row by row. (propulsion.py:1949) -/
def gridY (xs ys : List ℝ) : List ℝ := xs.flatMap (fun _ => ys)

/-- The limits of a plot, `min`/`max` of the first two rows of a table (propulsion.py:475-478 and the
like). -/
def plotLimits (data : Option (List Row)) : PyM (Option ℝ × Option ℝ × Option ℝ × Option ℝ) := do
  let t ← attrOf data
  let min_x ← pyMinList (t.map (fun r => r.1))
  let max_x ← pyMax (t.map (fun r => r.1))
  let min_y ← pyMinList (t.map (fun r => r.2.1))
  let max_y ← pyMax (t.map (fun r => r.2.1))
  pure (min_x, max_x, min_y, max_y)

/-- propulsion.py:1905-1959 (`_demo_plot`). `func` is applied to the two-dimensional grids, which the
elementwise queries treat like their flattened forms; plotting None raises TypeError (no plot of the
module gets there). -/
def demoPlot (lims : Option ℝ × Option ℝ × Option ℝ × Option ℝ) (func : List ℝ → List ℝ → Query)
    (x_label y_label z_label title : String) : PyM DemoPlot := do
  let xs ← mgridAxis lims.1 lims.2.1
  let ys ← mgridAxis lims.2.2.1 lims.2.2.2
  match ← func (gridX xs ys) (gridY xs ys) with
  | none => .error .typeError
  | some z => pure ⟨x_label, y_label, z_label, title, xs, ys, z⟩

namespace TurbopropDeck

/-- propulsion.py:458-485: the test is `self.data_available[0] is False`; `none` is the warning path,
`engine` the name of the engine. -/
def demoplot_thrust (d : TurbopropDeck) (engine : String) (G : Grid) : PyM (Option DemoPlot) := do
  if (AvItem.list d.avail.out).isFalse then pure none
  else do
    let lims ← plotLimits d.thr_data
    let p ← demoPlot lims (fun x y => d.hotthrust G (.array x) (.array y)) "Mach Number" "Altitude (m)" "Core/hot Thrust (N)"
      (engine ++ " core/hot thrust (N) for Mach number and altitude (m)")
    pure (some p)

/-- propulsion.py:487-514 -/
def demoplot_shaftpower (d : TurbopropDeck) (engine : String) (G : Grid) : PyM (Option DemoPlot) := do
  if (AvItem.list d.avail.out).isFalse then pure none
  else do
    let lims ← plotLimits d.pwr_data
    let p ← demoPlot lims (fun x y => d.shaftpower G (.array x) (.array y)) "Mach Number" "Altitude (m)" "Power (W)"
      (engine ++ " shaft power (W) for Mach Number and altitude (m)")
    pure (some p)

/-- propulsion.py:516-544 -/
def demoplot_bsfc (d : TurbopropDeck) (engine : String) (G : Grid) : PyM (Option DemoPlot) := do
  if (AvItem.list d.avail.out).isFalse then pure none
  else do
    let lims ← plotLimits d.bsfc_data
    let p ← demoPlot lims (fun x y => d.bsfc G (.array x) (.array y)) "Mach Number" "Altitude (m)" "BSFC (g/(kWh))"
      (engine ++ " BSFC (g/(kWh)) for Mach Number and altitude (m)")
    pure (some p)

end TurbopropDeck

/-! ### Piston -/

/-- propulsion.py:559-600 -/
structure PistonDeck where
  avail : Avail
  pwr_data : Option (List Row)
  bsfc_data : Option (List Row)
  bsfc_pwr_data : Option (List Row)

/-- propulsion.py:559-600 -/
def mkPiston (d : Dir) (name : String) : PyM PistonDeck := do
  let S ← setup d name ["power"] ["bsfc", "bsfc_best_power"]
  let pwr ← assign (flagAt S.avail.out 0) (dataAt S.output_data 0) "Speed (RPM)" "Altitude (m)" "Power (W)"
  let b ← assign (flagAt S.avail.eff 0) (dataAt S.eta_data 0) "Speed (RPM)" "Power (W)" "BSFC (g/(kWh))"
  let bp ← assign (flagAt S.avail.eff 1) (dataAt S.eta_data 1) "Speed (RPM)" "Power (W)" "BSFC (g/(kWh))"
  pure ⟨S.avail, pwr, b, bp⟩

namespace PistonDeck

/-- propulsion.py:602-645 -/
def shaftpower (d : PistonDeck) (G : Grid) (rpm alt : NumArg) : Query :=
  guarded (flagAt d.avail.out 0) d.pwr_data G rpm alt

/-- propulsion.py:647-714: the powers are an array that may contain NaN. (Called with None as power,
scipy converts it to NaN: one NaN.) -/
def bsfc (d : PistonDeck) (G : Grid) (rpm : NumArg) (power : Option (List (Option ℝ))) (best : String) : Query :=
  let go (avail : Bool) (data : Option (List Row)) : Query :=
    if avail = false then .ok none
    else do
      let t ← attrOf data
      let z ← bcast (gridNan G t) (recastArray rpm) (power.getD [none])
      pure (some z)
  if best = "economy" then go (flagAt d.avail.eff 0) d.bsfc_data
  else if best = "power" then go (flagAt d.avail.eff 1) d.bsfc_pwr_data
  else .ok none

/-- propulsion.py:716-763 -/
def thrust (d : PistonDeck) (G : Grid) (mach alt : NumArg) (rpm : ℝ) (o : PropellerObj) :
    PyM (List (Option ℝ)) := do
  let m := recastArray mach
  let h := recastArray alt
  let power ← d.shaftpower G (.scalar rpm) (.array h)
  propThrust o m h rpm power

/-- propulsion.py:765-794 -/
def sl_powercorr (d : PistonDeck) (G : Grid) (rpm alt : NumArg) : PyM (List (Option ℝ)) := do
  let q ← d.shaftpower G (.array (recastArray rpm)) (.array (recastArray alt))
  overMax q d.pwr_data

/-- propulsion.py:796-857; line 833 passes the Mach numbers as engine speeds. -/
def tsfc (d : PistonDeck) (G : Grid) (mach alt : NumArg) (rpm : ℝ) (o : PropellerObj) (best : String) :
    PyM (List (Option ℝ)) := do
  let m := recastArray mach
  let h := recastArray alt
  let power ← d.shaftpower G (.array m) (.array h)
  propTsfc o m h rpm power (d.bsfc G (.scalar rpm) power best)

/-- propulsion.py:859-887 (the test is `self.data_available[0] is False`) -/
def demoplot_shaftpower (d : PistonDeck) (engine : String) (G : Grid) : PyM (Option DemoPlot) := do
  if (AvItem.list d.avail.out).isFalse then pure none
  else do
    let lims ← plotLimits d.pwr_data
    let p ← demoPlot lims (fun x y => d.shaftpower G (.array x) (.array y)) "Engine Speed (RPM)" "Altitude (m)" "Shaft power (W)"
      (engine ++ " shaft power (W) for Engine speed (RPM) and altitude (m)")
    pure (some p)

/-- propulsion.py:889-948 -/
def demoplot_bsfc (d : PistonDeck) (engine : String) (G : Grid) (best : String) : PyM (Option DemoPlot) := do
  let title := engine ++ " BSFC (g/(kWh)) at best " ++ best ++ " for Engine speed (RPM) and shaft power (W)"
  let bsfc_type := fun (x y : List ℝ) => d.bsfc G (.array x) (some (y.map some)) best
  if best = "economy" then
    if flagAt d.avail.eff 0 = false then pure none
    else do
      let lims ← plotLimits d.bsfc_data
      let p ← demoPlot lims bsfc_type "Engine Speed (RPM)" "Shaft power (W)" "BSFC (g/(kWh))" title
      pure (some p)
  else if best = "power" then
    if flagAt d.avail.eff 1 = false then pure none
    else do
      let lims ← plotLimits d.bsfc_pwr_data
      let p ← demoPlot lims bsfc_type "Engine Speed (RPM)" "Shaft power (W)" "BSFC (g/(kWh))" title
      pure (some p)
  else pure none

end PistonDeck

/-! ### Electric -/

/-- propulsion.py:963-987; the rows 3 and 4 of `eta_data` (shaft and electric power) are kept
separately. -/
structure ElectricDeck where
  avail : Avail
  eta_data : Option (List Row)
  sft_pwr : List (Option ℝ)
  elc_pwr : List (Option ℝ)

/-- propulsion.py:983: `torque * rpm * (2 * pi) / 60` -/
def mapPower (r : Row) : Option ℝ :=
  (nmul (nmul r.2.1 r.1) (some (2 * Real.pi))).map (· / 60)

/-- propulsion.py:963-987. The efficiency role "" makes every table file of the motor an efficiency
table too; that table is not used. -/
def mkElectric (d : Dir) (name : String) : PyM ElectricDeck := do
  let S ← setup d name ["efficiency"] [""]
  let e ← assign (flagAt S.avail.out 0) (dataAt S.output_data 0) "Speed (RPM)" "Torque (Nm)" "Efficiency"
  let rows := e.getD []
  pure ⟨S.avail, e, rows.map mapPower, rows.map (fun r => ndiv (mapPower r) r.2.2)⟩

namespace ElectricDeck

/-- propulsion.py:989-1030 -/
def efficiency (d : ElectricDeck) (G : Grid) (rpm torque : NumArg) : Query :=
  guarded (flagAt d.avail.out 0) d.eta_data G rpm torque

/-- propulsion.py:1032-1055: `np.divide(1, None)` raises TypeError -/
def bsec (d : ElectricDeck) (G : Grid) (rpm torque : NumArg) : PyM (List (Option ℝ)) := do
  match ← d.efficiency G rpm torque with
  | none => .error .typeError
  | some zs => pure (zs.map (fun z => ndiv (some 1) z))

/-- propulsion.py:1057-1082 -/
def shaftpower (_d : ElectricDeck) (rpm torque : NumArg) : PyM (List ℝ) :=
  bcast (fun r t => r / 60 * Real.pi * t) (recastArray rpm) (recastArray torque)

/-- propulsion.py:1084-1134 -/
def thrust (_d : ElectricDeck) (power mach alt : NumArg) (rpm : ℝ) (o : PropellerObj) :
    PyM (List (Option ℝ)) :=
  propThrust o (recastArray mach) (recastArray alt) rpm (some ((recastArray power).map some))

/-- propulsion.py:1137-1165 -/
def demoplot_efficiency (d : ElectricDeck) (engine : String) (G : Grid) : PyM (Option DemoPlot) :=
  if flagAt d.avail.out 0 = false then pure none
  else do
    let lims ← plotLimits d.eta_data
    let p ← demoPlot lims (fun x y => d.efficiency G (.array x) (.array y)) "Motor Speed (RPM)" "Torque (Nm)" "Efficiency" (engine ++ " efficiency for Motor speed (RPM) and torque (Nm)")
    pure (some p)

end ElectricDeck

/-! ### Jet -/

/-- propulsion.py:1180-1216 -/
structure JetDeck where
  avail : Avail
  thr_data : Option (List Row)
  tsfc_data : Option (List Row)
  slPoly : Option PolyFile
  sltoPoly : Option PolyFile

/-- propulsion.py:1180-1216 -/
def mkJet (d : Dir) (name : String) : PyM JetDeck := do
  let S ← setup d name ["thrust"] ["tsfc"]
  let thr ← assign (flagAt S.avail.out 0) (dataAt S.output_data 0) "Mach Number" "Altitude (m)" "Thrust (N)"
  let sfc ← assign (flagAt S.avail.eff 0) (dataAt S.eta_data 0) "Mach Number" "Thrust (N)" "TSFC (g/(kNs))"
  pure ⟨S.avail, thr, sfc, S.slPoly, S.sltoPoly⟩

/-- A numpy `Polynomial` evaluated by Horner's rule (coefficients from the constant term up).
(propulsion.py:1836) -/
def evalPoly (cs : List ℝ) (x : ℝ) : ℝ := cs.foldr (fun c acc => c + x * acc) 0

/-- The argument of the sea-level fits: a number, a Python list, or a numpy array.
(propulsion.py:1363-1420) -/
inductive PolyArg where
  | num (x : ℝ)
  | list (xs : List ℝ)
  | arr (xs : List ℝ)

/-- propulsion.py:1866-1902 (`_poly`): comparing a list with a number raises TypeError, the truth value
of an array of two or more elements ValueError (an empty array is false, numpy warns). -/
def polyQuery (x : PolyArg) (cs limits : List ℝ) : PyM (Option (List ℝ)) := do
  match x with
  | .num x => do
    let hi ← getIdx limits 1
    if hi < x then pure none
    else do
      let lo ← getIdx limits 0
      if x < lo then pure none else pure (some [evalPoly cs x])
  | .list _ => do
    let _ ← getIdx limits 1
    .error .typeError
  | .arr [] => do
    let _ ← getIdx limits 1
    let _ ← getIdx limits 0
    pure (some [])
  | .arr [x] => do
    let hi ← getIdx limits 1
    if hi < x then pure none
    else do
      let lo ← getIdx limits 0
      if x < lo then pure none else pure (some [evalPoly cs x])
  | .arr _ => do
    let _ ← getIdx limits 1
    .error .valueError

/-- propulsion.py:1363-1375 and 1403-1415: `limits[-1]` and `limits[0]` are read first, for the
messages. -/
def slQuery (avail : Bool) (f : Option PolyFile) (x : PolyArg) : PyM (Option (List ℝ)) :=
  if avail = false then .ok none
  else match f with
    | none => .error .typeError
    | some (cs, limits) => do
      let _ ← pyIndex limits (-1)
      let _ ← pyIndex limits 0
      polyQuery x cs limits

namespace JetDeck

/-- propulsion.py:1218-1259 -/
def thrust (d : JetDeck) (G : Grid) (mach alt : NumArg) : Query :=
  guarded (flagAt d.avail.out 0) d.thr_data G mach alt

/-- propulsion.py:1261-1289 -/
def sl_thrustcorr (d : JetDeck) (G : Grid) (mach alt : NumArg) : PyM (List (Option ℝ)) := do
  let q ← d.thrust G mach alt
  overMax q d.thr_data

/-- propulsion.py:1291-1336 -/
def tsfc (d : JetDeck) (G : Grid) (mach thrust : NumArg) : Query :=
  guarded (flagAt d.avail.eff 0) (d.tsfc_data.map dropNan) G mach thrust

/-- propulsion.py:1338-1375 -/
def sl_thrust (d : JetDeck) (mach : PolyArg) : PyM (Option (List ℝ)) := slQuery d.avail.sl d.slPoly mach

/-- propulsion.py:1377-1415 -/
def sl_take_off_thrust (d : JetDeck) (mach : PolyArg) : PyM (Option (List ℝ)) :=
  slQuery d.avail.slto d.sltoPoly mach

/-- propulsion.py:1417-1444 -/
def demoplot_thrust (d : JetDeck) (engine : String) (G : Grid) : PyM (Option DemoPlot) :=
  if flagAt d.avail.out 0 = false then pure none
  else do
    let lims ← plotLimits d.thr_data
    let p ← demoPlot lims (fun x y => d.thrust G (.array x) (.array y)) "Mach Number" "Altitude (m)" "Thrust (N)"
      (engine ++ " thrust (N) for Mach number and altitude (m)")
    pure (some p)

/-- propulsion.py:1508-1509 (`_tsfc_fun`): the consumption at the thrust available at each point, which
may be NaN (`griddata` at NaN gives NaN). Without a thrust table `self.thrust` would give None; the plot
then does not get this far. -/
def tsfcAt (d : JetDeck) (G : Grid) (mach alt : List ℝ) : Query := do
  match ← d.thrust G (.array mach) (.array alt) with
  | none => .error .typeError
  | some ts =>
    if flagAt d.avail.eff 0 = false then .ok none
    else do
      let t ← attrOf (d.tsfc_data.map dropNan)
      let z ← bcast (gridNan G t) mach ts
      pure (some z)

/-- propulsion.py:1446-1519 -/
def demoplot_tsfc (d : JetDeck) (engine : String) (G : Grid) (y_var : String) : PyM (Option DemoPlot) :=
  if flagAt d.avail.eff 0 = false then pure none
  else if y_var = "t_n" then
    if flagAt d.avail.out 0 = false then pure none
    else do
      let lims ← plotLimits d.tsfc_data
      let p ← demoPlot lims (fun x y => d.tsfc G (.array x) (.array y)) "Mach Number" "Thrust (N)" "TSFC (g/(kNs))"
        (engine ++ " TSFC (g/(kNs)) for Mach number and Thrust (N)")
      pure (some p)
  else if y_var = "alt_m" then do
    let lims ← plotLimits d.thr_data
    let p ← demoPlot lims (d.tsfcAt G) "Mach Number" "Altitude (m)" "TSFC (g/(kNs))"
      (engine ++ " TSFC (g/(kNs)) for Mach number and altitude (m)")
    pure (some p)
  else pure none

end JetDeck

end

end Verif.Propulsion
