import Verif.Model.Atmosphere
import Verif.Model.NpInterp
import Mathlib.Analysis.SpecialFunctions.Pow.Real
import Mathlib.Analysis.SpecialFunctions.Trigonometric.Arctan
import Mathlib.Analysis.SpecialFunctions.Log.Basic
import Mathlib.Algebra.Order.Round

/-
Model of `PropellerDeck` in ADRpy/propulsion.py (lines 1522-1719).

Numbers are exact reals, NaN is `none`. Divisions by zero (numpy: inf or nan and a warning) are
reported as `zeroDivisionError` in `ansatzprop`; in the efficiency solver they take Lean's value 0,
and the theorems that depend on the values carry the hypotheses that exclude them.
-/

namespace Verif.Propulsion

open Verif Verif.Atmos

noncomputable section

/-- Atmosphere() (propulsion.py:1559): the standard atmosphere without offset. -/
def isa0 : Atm := .isa 0

/-- Scalar speed-of-sound query (`_reverttoscalar`, atmospheres.py:638-643, 875-879). -/
def vsound1 (a : Atm) (alt : ℝ) : PyM ℝ := do
  match ← vsound_mps a (.scalar alt) with
  | .scalar v => pure v
  | .array _ => .error .typeError

/-- Non-negative list index `l[i]` (IndexError when out of range).
(propulsion.py:1671-1681, 1831-1833) -/
def getIdx {α : Type} (l : List α) (i : ℕ) : PyM α :=
  match l[i]? with
  | some a => .ok a
  | none => .error .indexError

/-- `x ** p` for a numpy float and a non-integer exponent: NaN for a negative base.
(propulsion.py:1596-1600, 1610) -/
def npPow (x p : ℝ) : Option ℝ := if x < 0 then none else some (x ^ p)

/-- Python's `min(a, b)`: the second argument if it is smaller, else the first (so a NaN second
argument is ignored and a NaN first argument is kept). (propulsion.py:1603) -/
def pyMin (a b : Option ℝ) : Option ℝ :=
  match a, b with
  | some x, some y => if y < x then some y else some x
  | a, none => a
  | none, _ => none

/-- `round(x, 0)` of a numpy float: to the nearest integer, ties to even.
(propulsion.py:1613, 1616) -/
def roundEven (x : ℝ) : ℤ :=
  if x - ⌊x⌋ < 1 / 2 then ⌊x⌋
  else if 1 / 2 < x - ⌊x⌋ then ⌊x⌋ + 1
  else if Even ⌊x⌋ then ⌊x⌋ else ⌊x⌋ + 1

/-- `round(x, dp)`: the rounded value (a multiple of `10 ** -dp`). (propulsion.py:1711) -/
def roundDp (dp : ℤ) (x : ℝ) : ℝ := roundEven (x * (10:ℝ) ^ dp) / (10:ℝ) ^ dp

/-- propulsion.py:1566-1574: the attributes of a propeller; `none` is the flag `False`. -/
structure Propeller where
  diameter_m : Option ℝ
  bladecount : Option ℝ
  bladeactivityfact : Option ℝ
  solidity : Option ℝ
  idesign_cl : Option ℝ
  solve_dp : ℤ
  solve_maxiter : ℝ

/-- The documented keys of the `propeller` dictionary (propulsion.py:1529-1551 and 1573-1574); `none`
is a missing key. Other keys are ignored by the code. -/
structure PropDict where
  diameter_m : Option ℝ := none
  bladecount : Option ℝ := none
  bladeactivityfact : Option ℝ := none
  solidity : Option ℝ := none
  idesign_cl : Option ℝ := none
  solve_dp : Option ℤ := none
  solve_maxiter : Option ℝ := none

/-- The argument of the constructor: None, a dictionary, or an object of another type.
(propulsion.py:1553-1575) -/
inductive PropellerArg where
  | pyNone
  | dict (d : PropDict)
  | other

/-- propulsion.py:1564-1574 -/
def ofDict (d : PropDict) : Propeller where
  diameter_m := d.diameter_m
  bladecount := d.bladecount
  bladeactivityfact := d.bladeactivityfact
  solidity := d.solidity
  idesign_cl := d.idesign_cl
  solve_dp := d.solve_dp.getD 6
  solve_maxiter := d.solve_maxiter.getD 30

/-- propulsion.py:1553-1575 -/
def mkPropeller : PropellerArg → PyM Propeller
  | .pyNone => .ok (ofDict {})
  | .dict d => .ok (ofDict d)
  | .other => .error .typeError

/-- `np.average` of a float array; of an empty array it is NaN (with a warning), which ends in the
ValueError of `int(nan)`: modelled as that error here. (propulsion.py:1582-1583) -/
def average (xs : List ℝ) : PyM ℝ :=
  if xs.length = 0 then .error .valueError else .ok (xs.sum / xs.length)

/-- `np.average` of an array that may contain NaN: NaN as soon as one element is.
(propulsion.py:1591) -/
def averageNan (xs : List (Option ℝ)) : PyM (Option ℝ) :=
  if xs.length = 0 then .error .valueError
  else match xs.mapM id with
    | some ys => .ok (some (ys.sum / ys.length))
    | none => .ok none

/-- propulsion.py:1596-1597, for factor 3.2 or 2.4 -/
def bestDiam (f P V rho n : ℝ) : Option ℝ := npPow (f ^ 3 * (P / (V * rho * n ^ 2))) 0.25

/-- propulsion.py:1599-1601: `machlim_100_diam_m` -/
def machlimDiam (M a n : ℝ) : Option ℝ :=
  (npPow ((0.8 * a) ^ 2 - (M * a) ^ 2) 0.5).map (fun t => t / (n * Real.pi / 2))

/-- propulsion.py:1603: `self.diameter_m` -/
def ansatzDiam (M a P V rho n : ℝ) : Option ℝ :=
  pyMin (do let x ← bestDiam 3.2 P V rho n
            let y ← bestDiam 2.4 P V rho n
            pure (0.2 * x + 0.8 * y)) (machlimDiam M a n)

/-- propulsion.py:1612-1617: the blade count for a total activity factor. -/
def bladesFor (af : ℝ) : ℝ :=
  if af < 400 then ((max (roundEven (af / 133)) 2 : ℤ) : ℝ)
  else ((max (roundEven (af / 120)) 2 : ℤ) : ℝ)

/-- propulsion.py:1623 and 1666 -/
def solidityOf (count af : ℝ) : ℝ := 128 * count * af / (100000 * Real.pi)

/-- propulsion.py:1584-1629: the part of `ansatzprop` after the averages, for a number `P` (a NaN
power makes `int(nan)` raise ValueError at 1613/1616). An exception leaves some attributes already updated
in Python; the object after an exception is not modelled here. -/
def ansatzCore (p : Propeller) (M alt rpm : ℝ) (P : Option ℝ) : PyM Propeller := do
  let a ← vsound1 isa0 alt
  let rho ← dens1 isa0 alt
  let V := M * a
  let n := rpm / 60
  match P with
  | none => .error .valueError
  | some P =>
    if V = 0 ∨ n = 0 ∨ rho = 0 then .error .zeroDivisionError
    else match ansatzDiam M a P V rho n with
      | none => .error .valueError
      | some D =>
        if D = 0 then .error .zeroDivisionError
        else
          let cpower := P / (rho * n ^ 3 * D ^ 5)
          match npPow (cpower / 0.3) 0.8 with
          | none => .error .valueError
          | some y =>
            let af := 1000 * y
            let count := bladesFor af
            let baf := af / count
            let sol := solidityOf count baf
            if sol = 0 then .error .zeroDivisionError
            else .ok { p with
              diameter_m := some D
              bladecount := some count
              bladeactivityfact := some baf
              solidity := some sol
              idesign_cl := some (P / V / (0.5 * rho * V ^ 2 * (Real.pi * (D / 2) ^ 2 * sol))) }

/-- propulsion.py:1577-1629 (`ansatzprop`); the power array may contain NaN, and `none` is the
argument None (recast to NaN by numpy). -/
def ansatzprop (p : Propeller) (mach alt : NumArg) (rpm : ℝ) (power : Option (List (Option ℝ))) :
    PyM Propeller := do
  let M ← average (recastArray mach)
  let h ← average (recastArray alt)
  let P ← match power with
    | none => pure none
    | some ps => averageNan ps
  ansatzCore p M h rpm P

/-! ### Efficiency -/

/-- propulsion.py:1692-1695 -/
def glauert (x : ℝ) : ℝ :=
  (2 + 5 * Real.tan x ^ 2) / (8 * Real.cos x)
    - (3 / 16 * Real.tan x ^ 4) * Real.log ((1 - Real.cos x) / (1 + Real.cos x))

/-- propulsion.py:1683-1685 -/
def cdbar (cl cp J : ℝ) : ℝ := -0.136 * (cl * cp / J) ^ 2 + 0.116 * (cl * cp / J) + 0.00627

/-- propulsion.py:1706 -/
def eta2Of (cp J eta1 : ℝ) : ℝ := 1 - npInterp2 ((4 * eta1 * cp) / (Real.pi ^ 3 * J)) 0 1 0 1

/-- propulsion.py:1707-1708 -/
def eta3Of (cp J sigma cd eta1 eta2 : ℝ) : ℝ :=
  1 - (Real.pi ^ 4 * eta2 ^ 2 * sigma * cd * glauert (Real.arctan (J / (Real.pi * eta1 * eta2)))) / (8 * cp)

/-- propulsion.py:1706-1709: one round, from the induced efficiency `eta1` to its next value and the
product `eta1 * eta2 * eta3` -/
def etaRound (cp J sigma cd eta1 : ℝ) : ℝ × ℝ :=
  let eta2 := eta2Of cp J eta1
  let eta3 := eta3Of cp J sigma cd eta1 eta2
  let eta1' := 1 - (2 * cp * eta2 * eta3 * eta1 ^ 3) / (Real.pi * J ^ 3)
  (eta1', eta1' * eta2 * eta3)

/-- State of the solver loop (propulsion.py:1689-1715). -/
structure Solver where
  count : ℕ
  eta1 : ℝ
  eta : ℝ
  stopped : Bool

/-- propulsion.py:1689-1690 and 1700 -/
def solverInit : Solver := ⟨0, 0.98, 0.87, false⟩

/-- propulsion.py:1703-1715: one turn of the `while` loop; `none` when the loop has ended (its
condition is false, or `break` was executed). `rnd` is a round of the iteration. -/
def solverStep (maxiter : ℝ) (dp : ℤ) (rnd : ℝ → ℝ × ℝ) (s : Solver) : Option Solver :=
  if s.stopped then none
  else if (s.count : ℝ) < maxiter then
    let r := rnd s.eta1
    if roundDp dp s.eta = roundDp dp r.2 then some ⟨s.count + 1, r.1, r.2, true⟩
    else some ⟨s.count + 1, r.1, r.2, false⟩
  else none

/-- Runs the loop for at most `fuel` turns. (propulsion.py:1703-1715) -/
def solverRun (maxiter : ℝ) (dp : ℤ) (rnd : ℝ → ℝ × ℝ) : ℕ → Solver → Solver
  | 0, s => s
  | fuel + 1, s =>
    match solverStep maxiter dp rnd s with
    | none => s
    | some s' => solverRun maxiter dp rnd fuel s'

/-- propulsion.py:1703-1715: the loop run to its end. The number of turns allowed here is never
reached before the loop ends by itself (`C68_ends` in Props/Propeller). -/
def solve (maxiter : ℝ) (dp : ℤ) (rnd : ℝ → ℝ × ℝ) : ℝ :=
  (solverRun maxiter dp rnd (⌈maxiter⌉.toNat + 1) solverInit).eta

/-- Numeric value of an attribute that may be the flag `False` (which is 0 in arithmetic).
(propulsion.py:1573-1574, 1623) -/
def flagNum (x : Option ℝ) : ℝ := x.getD 0

/-- propulsion.py:1673-1717: one element of the result. A NaN power makes every round NaN, which
never matches, so the result is NaN unless no round is made. -/
def etaAt (p : Propeller) (sigma rho a m rpm : ℝ) (P : Option ℝ) : Option ℝ :=
  match P with
  | none => if 0 < p.solve_maxiter then none else some 0.87
  | some P =>
    let D := flagNum p.diameter_m
    let cp := P / (rho * (rpm / 60) ^ 3 * D ^ 5)
    let J := m * a / ((rpm / 60) * D)
    some (solve p.solve_maxiter p.solve_dp (etaRound cp J sigma (cdbar (flagNum p.idesign_cl) cp J)))

/-- propulsion.py:1671-1717: the loop over the elements of the power array. -/
def etaLoop (p : Propeller) (sigma : ℝ) (mach alt rho : List ℝ) (rpm : ℝ) (power : List (Option ℝ)) :
    PyM (List (Option ℝ)) :=
  power.zipIdx.mapM (fun q => do
    let r ← getIdx rho q.2
    let h ← getIdx alt q.2
    let a ← vsound1 isa0 h
    let m ← getIdx mach q.2
    pure (etaAt p sigma r a m rpm q.1))

/-- propulsion.py:1665-1667 -/
def cacheSolidity (p : Propeller) : Propeller :=
  { p with solidity := some (match p.solidity with
      | some s => s
      | none => solidityOf (flagNum p.bladecount) (flagNum p.bladeactivityfact)) }

/-- propulsion.py:1631-1719 (`efficiency`): the result and the propeller afterwards (the solidity is
stored in the object). `none` as power array is the argument None, recast to a zero-dimensional NaN
array, which cannot be iterated (TypeError). -/
def efficiency (p : Propeller) (mach alt : NumArg) (power : Option (List (Option ℝ))) (rpm : ℝ) :
    PyM (List (Option ℝ)) × Propeller :=
  match airdens_kgpm3 isa0 (.array (recastArray alt)) with
  | .error e => (.error e, p)
  | .ok rho =>
    let p' := cacheSolidity p
    match power with
    | none => (.error .typeError, p')
    | some ps =>
      (etaLoop p' (flagNum p'.solidity) (recastArray mach) (recastArray alt) (recastArray rho) rpm ps, p')

end

end Verif.Propulsion
