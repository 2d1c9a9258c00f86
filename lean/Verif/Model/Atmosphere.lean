import Verif.Model.ISA

/-
Model of Obsprofile (ADRpy/atmospheres.py:276-311), the linear `scipy.interpolate.interp1d`, and class
Atmosphere (314-838) with its scalar/array conventions and errors.
-/

namespace Verif.Atmos
open Verif.Units

noncomputable section

/-! ### Linear interpolation -/

/-- The segment formula of `interp1d(kind='linear')`: slope times distance from the left point plus
the left value. (atmospheres.py:300-303) -/
def linSeg (x0 y0 x1 y1 x : ℝ) : ℝ := (y1 - y0) / (x1 - x0) * (x - x0) + y0

/-- Value of the linear interpolant on a table of points sorted by abscissa: the first segment whose
right end is not below the query (scipy: `searchsorted` left, clipped to the first segment). Used
after the bounds check of `interp1d`. Tables with fewer than two points give no value (scipy's
behaviour there is version dependent and not modelled). (atmospheres.py:300-303) -/
def interpSeg : List (ℝ × ℝ) → ℝ → Option ℝ
  | [], _ => none
  | [_], _ => none
  | (x0, y0) :: (x1, y1) :: rest, x =>
    if x ≤ x1 then some (linSeg x0 y0 x1 y1 x)
    else match rest with
      | [] => some (linSeg x0 y0 x1 y1 x)
      | _ => interpSeg ((x1, y1) :: rest) x

/-- The rows of a table sorted by abscissa, rows with the same abscissa in their given order (scipy: `argsort` with mergesort).
(atmospheres.py:300-303) -/
def sortTable (t : List (ℝ × ℝ)) : List (ℝ × ℝ) := t.mergeSort (fun a b => decide (a.1 ≤ b.1))

/-- `interp1d(xs, ys)(x)` with the default `bounds_error=True`: ValueError outside the table
(atmospheres.py:300-303, called at 624, 634, 652). `interp1d` sorts the table by abscissa first. -/
def interp1d (xs ys : List ℝ) (x : ℝ) : PyM ℝ :=
  if xs.length ≠ ys.length then .error .valueError
  else
    let t := sortTable (xs.zip ys)
    match t.head?, t.getLast? with
    | some lo, some hi =>
      if x < lo.1 ∨ hi.1 < x then .error .valueError
      else match interpSeg t x with
        | some y => .ok y
        | none => .error .valueError
    | _, _ => .error .valueError

/-! ### Obsprofile -/

/-- atmospheres.py:276-303: the completed profile. -/
structure Obs where
  alt_m : List ℝ
  temp_k : List ℝ
  rho_kgpm3 : List ℝ
  p_pa : List ℝ
  vs_mps : List ℝ

/-- `np.size(np.array(x))`: a missing column (`None`) is a zero-dimensional array of size 1.
(atmospheres.py:290-293) -/
def npSize : Option (List ℝ) → ℕ
  | none => 1
  | some l => l.length

/-- atmospheres.py:279-303 (`Obsprofile.__init__`). A missing column where a number is needed raises
TypeError (arithmetic with None, iterating a 0-d array); `math.sqrt` of a negative temperature
ValueError; no altitudes TypeError (interp1d takes their length), columns whose length differs from theirs
ValueError (interp1d). -/
def obsprofile (alt temp rho p : Option (List ℝ)) : PyM Obs :=
  let completed : PyM (Option (List ℝ) × Option (List ℝ)) :=
    if npSize alt = npSize temp ∧ npSize temp = npSize rho then
      match rho, temp with
      | some r, some t => .ok (some r, some (List.zipWith (fun r t => R_JPKGPK * r * t) r t))
      | _, _ => .error .typeError
    else if npSize alt = npSize temp ∧ npSize temp = npSize p then
      match p, temp with
      | some p, some t => .ok (some (List.zipWith idealgasdens_kgm3 p t), some p)
      | _, _ => .error .typeError
    else .ok (rho, p)
  match completed with
  | .error e => .error e
  | .ok (rho, p) =>
    match temp with
    | none => .error .typeError
    | some t =>
      if t.any (fun x => decide (x < 0)) then .error .valueError
      else
        match alt, rho, p with
        | some a, some r, some p =>
          if a.length = t.length ∧ a.length = p.length ∧ a.length = r.length then
            .ok ⟨a, t, r, p, t.map vsound⟩
          else .error .valueError
        | none, _, _ => .error .typeError
        | _, _, _ => .error .valueError

/-- atmospheres.py:305-307 (`min(self.alt_m)`; ValueError for an empty table) -/
def loalt (o : Obs) : PyM ℝ :=
  match o.alt_m with
  | [] => .error .valueError
  | a :: as => .ok (as.foldl min a)

/-- atmospheres.py:309-311 -/
def hialt (o : Obs) : PyM ℝ :=
  match o.alt_m with
  | [] => .error .valueError
  | a :: as => .ok (as.foldl max a)

/-! ### Atmosphere -/

/-- atmospheres.py:435-445: an atmosphere is an ISA with an offset, or an observed profile (the offset
is stored but not used then). -/
inductive Atm where
  | isa (offset_deg : ℝ)
  | profile (o : Obs)

/-- atmospheres.py:449-472 (`_alttest`). The request is turned into a Python list of floats. In the
ISA branch a request above 50 km evaluates `list > int`, which raises TypeError; in the profile branch
an out-of-range request indexes a list with a boolean array, TypeError. (The announcement printed
before is not modelled.) -/
def alttest (a : Atm) (req : NumArg) : PyM (List ℝ) :=
  let alts := recastArray req
  match a with
  | .isa _ => if alts.any (fun x => decide (x > Level5)) then .error .typeError else .ok alts
  | .profile o =>
    match loalt o, hialt o with
    | .ok lo, .ok hi =>
      if alts.any (fun x => decide (x < lo)) then .error .typeError
      else if alts.any (fun x => decide (x > hi)) then .error .typeError
      else .ok alts
    | .error e, _ => .error e
    | _, .error e => .error e

/-- atmospheres.py:875-879 (`_reverttoscalar`): one-element arrays become numbers. -/
def revert : List ℝ → NumArg
  | [x] => .scalar x
  | xs => .array xs

/-- The `np.nditer` loops of the ISA functions: element by element; an empty operand raises
ValueError (numpy: iteration of zero-sized operands is not enabled).
(atmospheres.py:477, 501, 523, 545, 571) -/
def nditer (f : ℝ → ℝ) (alts : List ℝ) : PyM (List ℝ) :=
  match alts with
  | [] => .error .valueError
  | _ => .ok (alts.map f)

/-- atmospheres.py:592-625 -/
def airtemp_k (a : Atm) (req : NumArg) : PyM NumArg := do
  let alts ← alttest a req
  let ts ← match a with
    | .isa off => nditer (isatemp off) alts
    | .profile o => alts.mapM (interp1d o.alt_m o.temp_k)
  pure (revert ts)

/-- atmospheres.py:628-635 -/
def airpress_pa (a : Atm) (req : NumArg) : PyM NumArg := do
  let alts ← alttest a req
  let ps ← match a with
    | .isa _ => nditer isapress alts
    | .profile o => alts.mapM (interp1d o.alt_m o.p_pa)
  pure (revert ps)

/-- atmospheres.py:646-653 -/
def airdens_kgpm3 (a : Atm) (req : NumArg) : PyM NumArg := do
  let alts ← alttest a req
  let ds ← match a with
    | .isa off => nditer (isadens off) alts
    | .profile o => alts.mapM (interp1d o.alt_m o.rho_kgpm3)
  pure (revert ds)

/-- atmospheres.py:882-885 (`_vsound_mps`): `math.sqrt` raises ValueError for a negative argument. -/
def vsoundE (t : ℝ) : PyM ℝ := if t < 0 then .error .valueError else .ok (vsound t)

/-- atmospheres.py:638-643 -/
def vsound_mps (a : Atm) (req : NumArg) : PyM NumArg := do
  let alts ← alttest a req
  let ts ← airtemp_k a (.array alts)
  match ts with
  | .scalar t => do let v ← vsoundE t; pure (.scalar v)
  | .array ts => do let vs ← ts.mapM vsoundE; pure (revert vs)

/-- atmospheres.py:656-672 (`mach`). `airspeed_mps.any() < 0` compares a boolean with 0 and is never
true, so the sign correction of line 664 is unreachable; `anyLt0` below is that test. The result is
always an array. -/
def mach (a : Atm) (airspeed alt : NumArg) : PyM (List ℝ) := do
  let v := recastArray airspeed
  let anyTrue : ℤ := if v.any (fun x => decide (x ≠ 0)) then 1 else 0
  let v := if anyTrue < 0 then v.map abs else v
  let alts ← alttest a alt
  let vs ← vsound_mps a (.array alts)
  broadcast2 (fun x y => x / y) v (recastArray vs)

/-- Scalar density query; used by the scalar functions below (a one-element result is a number,
`_reverttoscalar`). (atmospheres.py:646-653, 875-879) -/
def dens1 (a : Atm) (alt : ℝ) : PyM ℝ := do
  match ← airdens_kgpm3 a (.scalar alt) with
  | .scalar d => pure d
  | .array _ => .error .typeError

/-- Scalar pressure query. (atmospheres.py:628-635, 875-879) -/
def press1 (a : Atm) (alt : ℝ) : PyM ℝ := do
  match ← airpress_pa a (.scalar alt) with
  | .scalar d => pure d
  | .array _ => .error .typeError

/-- atmospheres.py:690-728 for one altitude and one airspeed -/
def dynamicpressure_pa (a : Atm) (airspeed alt : ℝ) : PyM ℝ := do
  let d ← dens1 a alt
  pure (0.5 * d * airspeed ^ 2)

/-- `math.sqrt` of the density ratio: ValueError for a negative argument, ZeroDivisionError is not
modelled (theorems assume positive densities). (atmospheres.py:756) -/
def dratio (a : Atm) (alt : ℝ) : PyM ℝ := do
  let d ← dens1 a alt
  let d0 ← dens1 a 0
  if d / d0 < 0 then .error .valueError else pure (√(d / d0))

/-- atmospheres.py:731-757 for one altitude -/
def eas2tas (a : Atm) (eas alt : ℝ) : PyM ℝ := do
  let s ← dratio a alt
  pure (eas / s)

/-- atmospheres.py:759-762 for one altitude -/
def tas2eas (a : Atm) (tas alt : ℝ) : PyM ℝ := do
  let s ← dratio a alt
  pure (tas * s)

/-- Mach number of one airspeed at one altitude (element 0 of the array `mach` returns).
(atmospheres.py:656-674) -/
def mach1 (a : Atm) (v alt : ℝ) : PyM ℝ := do
  match ← mach a (.scalar v) (.scalar alt) with
  | [m] => pure m
  | _ => .error .typeError

/-- atmospheres.py:764-772 for one airspeed and altitude: (CAS, Mach) -/
def mpseas2mpscas (a : Atm) (mpseas alt : ℝ) : PyM (ℝ × ℝ) := do
  let mpstas ← eas2tas a mpseas alt
  let machno ← mach1 a mpstas alt
  let p ← press1 a alt
  let p0 ← press1 a 0
  let delta := p / p0
  let m2_term := (1 / 8) * (1 - delta) * machno ^ 2
  let m4_term := (3 / 640) * (1 - 10 * delta + 9 * delta ^ 2) * machno ^ 4
  pure (mpseas * (1 + m2_term + m4_term), machno)

/-- atmospheres.py:774-838 for one airspeed and altitude -/
def keas2kcas (a : Atm) (keas alt : ℝ) : PyM (ℝ × ℝ) := do
  let (mpscas, machno) ← mpseas2mpscas a (kts2mps keas) alt
  pure (mps2kts mpscas, machno)

/-- atmospheres.py:675-677. For several altitudes `vsound_mps` returns a Python list (line 885), and
`mps2kts` multiplies it by a float: TypeError. -/
def vsound_kts (a : Atm) (req : NumArg) : PyM NumArg := do
  match ← vsound_mps a req with
  | .scalar v => pure (.scalar (mps2kts v))
  | .array _ => .error .typeError

/-- atmospheres.py:680-682 -/
def airpress_mbar (a : Atm) (req : NumArg) : PyM NumArg := do
  match ← airpress_pa a req with
  | .scalar v => pure (.scalar (pa2mbar v))
  | .array vs => pure (.array (vs.map pa2mbar))

/-- atmospheres.py:685-687 -/
def airtemp_c (a : Atm) (req : NumArg) : PyM NumArg := do
  match ← airtemp_k a req with
  | .scalar v => pure (.scalar (k2c v))
  | .array vs => pure (.array (vs.map k2c))

end

end Verif.Atmos
