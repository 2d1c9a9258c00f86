import Verif.Model.Sensitivity

/-
Model of the numbers drawn by the sensitivity study (ADRpy/constraintanalysis.py:2030-2122, 2182-2257):
axis, limits, shaded regions. The drawing itself (matplotlib) is not modelled.
-/

namespace Verif.Aircraft
open Verif Verif.Units

noncomputable section

/-- constraintanalysis.py:2030-2035: the x-axis, wing loading or wing area -/
def xAxis (weight_n : ℝ) (area : Bool) (ws : List ℝ) : List ℝ :=
  if area then ws.map (fun w => weight_n / w) else ws

/-- constraintanalysis.py:2051-2056 -/
def whereCleanStall (c : Concept) (area : Bool) (mass_kg : ℝ) : PyM ℝ :=
  if area then smincleanstall_m2 c mass_kg else wsmaxcleanstall_pa c

/-- constraintanalysis.py:2101-2105: `None` unless both values are given and not 0 -/
def xcritStall (c : Concept) (area : Bool) (mass_kg : ℝ) : PyM (Option ℝ) :=
  if pyNum c.vstallclean_kcas ≠ 0 ∧ pyNum c.clmaxclean ≠ 0 then do
    let x ← whereCleanStall c area mass_kg
    pure (some x)
  else pure none

/-- constraintanalysis.py:2108-2114: `max` of each curve, then of the five, times 1.05; a limit given by
the user is used as it is. With a single wing loading the curves are numbers, of which `max` raises
TypeError; with a limit from the user the call fails a little later (2117 or 2255, depending on the numpy
version), which is modelled by the same error. -/
def ylimHi (y_lim : Option ℝ) (r : Req) : PyM ℝ :=
  match r.climb with
  | .scalar _ => .error .typeError
  | .array _ =>
    match y_lim with
    | some y => .ok y
    | none => do
      let a ← listMax (recastArray r.climb)
      let b ← listMax (recastArray r.cruise)
      let c ← listMax (recastArray r.servceil)
      let d ← listMax (recastArray r.takeoff)
      let e ← listMax (recastArray r.turn)
      let m ← listMax [a, b, c, d, e]
      pure (m * 1.05)

/-- constraintanalysis.py:2117: the indices where the combined requirement is a number -/
def feasIdx (comb : List (Option ℝ)) : List ℕ :=
  (List.range comb.length).filter (fun i => (comb.getD i none).isSome)

open Classical in
/-- constraintanalysis.py:2119: the x-values that are not the x-value of a feasible index other than the
last feasible one. (A set in the code; only its extremes and its being empty are used.) -/
def infeasX (xs : List ℝ) (comb : List (Option ℝ)) : List ℝ :=
  xs.filter (fun x => x ∉ (feasIdx comb).dropLast.map (fun i => xs.getD i 0))

/-- constraintanalysis.py:2121-2122: the ends (smallest, largest) -/
def infeasBounds (xs : List ℝ) (comb : List (Option ℝ)) : PyM (ℝ × ℝ) := do
  let hi ← listMax (infeasX xs comb)
  let lo ← listMin (infeasX xs comb)
  pure (lo, hi)

/-- constraintanalysis.py:2236-2242: the ends of the region shaded for its lift coefficient; a stall
position of 0 counts as none -/
def clMask (xcrit : Option ℝ) (b : ℝ × ℝ) : ℝ × ℝ :=
  match xcrit with
  | some x => if x = 0 then b else (min x b.1, max x b.2)
  | none => b

open Classical in
/-- constraintanalysis.py:2215-2216, 2221-2222: a vertical line at `x`, drawn only strictly inside the axis -/
def drawnLine (xs : List ℝ) (x : ℝ) : PyM (Option ℝ) := do
  let lo ← listMin xs
  let hi ← listMax xs
  pure (if lo < x ∧ x < hi then some x else none)

/-- constraintanalysis.py:2214-2216: the line of the clean stall; a position of 0 counts as none -/
def stallLine (xs : List ℝ) (xcrit : Option ℝ) : PyM (Option ℝ) :=
  match xcrit with
  | none => .ok none
  | some x => if x = 0 then .ok none else drawnLine xs x

/-- constraintanalysis.py:2219-2222: the line of the turn stall limit -/
def turnLine (xs : List ℝ) (comb : List (Option ℝ)) : PyM (Option ℝ) :=
  match (feasIdx comb).getLast? with
  | none => .ok none
  | some i => drawnLine xs (xs.getD i 0)

open Classical in
/-- constraintanalysis.py:2250-2253: the indices outside the shaded region (first those beyond its upper
end), index 0 if there is none -/
def solnIdx (xs : List ℝ) (m : ℝ × ℝ) : List ℕ :=
  let l := (List.range xs.length).filter (fun i => m.2 < xs.getD i 0) ++
    (List.range xs.length).filter (fun i => m.1 > xs.getD i 0)
  if l = [] then [0] else l

/-- constraintanalysis.py:2254-2257: the lower bound of the feasible region, points (x, requirement) -/
def feasFront (xs : List ℝ) (comb : List (Option ℝ)) (m : ℝ × ℝ) : List (ℝ × Option ℝ) :=
  (solnIdx xs m).map (fun i => (xs.getD i 0, comb.getD i none))

open Classical in
/-- constraintanalysis.py:2184-2185: the indices where the constraint is below the combined requirement,
with 0 in place of NaN -/
def maskIdx (curve : List ℝ) (comb : List (Option ℝ)) : List ℕ :=
  (List.range curve.length).filter (fun i => curve.getD i 0 < (comb.getD i none).getD 0)

/-- constraintanalysis.py:2187-2188: `np.split` at the places where the index does not grow by one. The split of
an empty array is one empty array. -/
def splitRuns : List ℕ → List (List ℕ)
  | [] => [[]]
  | [i] => [[i]]
  | i :: j :: l =>
    match splitRuns (j :: l) with
    | [] => [[i]]
    | r :: rs => if j = i + 1 then (i :: r) :: rs else [i] :: r :: rs

/-- `max` of an array of indices: ValueError when it is empty (constraintanalysis.py:2121-2122) -/
def idxMax : List ℕ → PyM ℕ
  | [] => .error .valueError
  | i :: l => .ok (l.foldl max i)

/-- `min` of an array of indices: ValueError when it is empty (constraintanalysis.py:2121-2122) -/
def idxMin : List ℕ → PyM ℕ
  | [] => .error .valueError
  | i :: l => .ok (l.foldl min i)

open Classical in
/-- constraintanalysis.py:2190-2199: one transparent mask (left end, right end) of a sensitivity chart -/
def focusMask (xs : List ℝ) (comb : List (Option ℝ)) (run : List ℕ) : PyM (ℝ × ℝ) := do
  let hi ← idxMax run
  let lo ← idxMin run
  let mf ← idxMax (feasIdx comb)
  pure (xs.getD lo 0, if xs.getD hi 0 = xs.getD mf 0 then xs.getD (xs.length - 1) 0 else xs.getD hi 0)

/-- constraintanalysis.py:2182-2199: the masks of the chart of one constraint -/
def focusMasks (xs curve : List ℝ) (comb : List (Option ℝ)) : PyM (List (ℝ × ℝ)) :=
  (splitRuns (maskIdx curve comb)).mapM (focusMask xs comb)

/-- What the six charts show besides the requirement curves and the relative sensitivities.
(constraintanalysis.py:2094-2280) -/
structure Charts where
  x : List ℝ
  ylim : ℝ
  xcrit : Option ℝ
  stall : Option ℝ
  turn : Option ℝ
  mask : ℝ × ℝ
  front : List (ℝ × Option ℝ)
  focus : Constr → List (ℝ × ℝ)

/-- constraintanalysis.py:2094-2122 and 2266-2280 with `show=True`: first the five sensitivity charts, then
the combined chart -/
def charts (X : Ext) (b : Built) (wingloading : NumArg) (power area : Bool) (y_lim : Option ℝ) (maskbool : Bool) :
    PyM Charts := do
  let weight_n ← need b.concept.weight_n
  let (_, nom) ← study X b wingloading power
  let xs := xAxis weight_n area (recastArray wingloading)
  let xcrit ← xcritStall b.concept area (weight_n / gAcc)
  let ylim ← ylimHi y_lim nom
  let comb := nom.combined.toList
  let bounds ← infeasBounds xs comb
  let masks := fun q => if maskbool then focusMasks xs (recastArray (nom.entry q)) comb else .ok []
  let climb ← masks .climb
  let cruise ← masks .cruise
  let servceil ← masks .servceil
  let takeoff ← masks .takeoff
  let turn ← masks .turn
  let stall ← stallLine xs xcrit
  let trn ← turnLine xs comb
  let m := clMask xcrit bounds
  pure { x := xs, ylim, xcrit, stall, turn := trn, mask := m, front := feasFront xs comb m,
         focus := fun q => match q with
           | .climb => climb | .cruise => cruise | .servceil => servceil | .takeoff => takeoff | .turn => turn }

end

end Verif.Aircraft
