import Verif.Model.Constraint

/-
Model of the one-factor-at-a-time sensitivity study (ADRpy/constraintanalysis.py:1835-2301): the
numbers that are plotted. The drawing itself (matplotlib) is not modelled.
-/

namespace Verif.Aircraft
open Verif Verif.Units

noncomputable section

/-- constraintanalysis.py:2019: the five constraints of the study -/
inductive Constr where
  | climb | cruise | servceil | takeoff | turn
  deriving DecidableEq

/-- The entry of the requirement dictionary for a constraint (`propulsionreqmax[constraint]`, 2086).
(constraintanalysis.py:2086) -/
def Req.entry (r : Req) : Constr → NumArg
  | .climb => r.climb
  | .cruise => r.cruise
  | .servceil => r.servceil
  | .takeoff => r.takeoff
  | .turn => r.turn

/-- The three dictionaries of a design (`designspace`, `designstate`: lists of length three).
(constraintanalysis.py:2011-2016) -/
structure Design3 where
  brief : Dict
  design : Dict
  performance : Dict

/-- constraintanalysis.py:2068, 2071: `state[i][k] = v` on a deep copy -/
def Design3.set (s : Design3) (i : Fin 3) (k : String) (v : ℝ) : Design3 :=
  match i with
  | 0 => { s with brief := dset s.brief k (.num v) }
  | 1 => { s with design := dset s.design k (.num v) }
  | 2 => { s with performance := dset s.performance k (.num v) }

/-- `max(xs)` of a Python list: ValueError for the empty list. (constraintanalysis.py:2068, 2071) -/
def listMax : List ℝ → PyM ℝ
  | [] => .error .valueError
  | x :: l => .ok (l.foldl max x)

/-- `min(xs)` of a Python list: ValueError for the empty list. (constraintanalysis.py:2068, 2071) -/
def listMin : List ℝ → PyM ℝ
  | [] => .error .valueError
  | x :: l => .ok (l.foldl min x)

/-- What the study reads from the concept it belongs to: the wing loadings, the y-axis type, the design
atmosphere, the propulsion attribute, the mass (2016) and the nominal design state.
(constraintanalysis.py:1989-2016) -/
structure StudyIn where
  ws : NumArg
  power : Bool
  atm : Atmos.Atm
  propulsion : PropAttr
  mass : ℝ
  state : Design3

/-- constraintanalysis.py:2023-2028 (the wing loadings are an array, 1993) -/
def yFunction (X : Ext) (S : StudyIn) (c : Concept) : PyM Req :=
  if S.power then powerrequired X c S.ws S.mass true true else twrequired X c S.ws true true

/-- constraintanalysis.py:2079-2082, 2095-2097: build a concept from a design state and evaluate it; the
propulsion attribute is passed on as the argument -/
def evalState (X : Ext) (S : StudyIn) (s : Design3) : PyM Req := do
  let b ← construct s.brief s.design s.performance (some S.atm) S.propulsion.asArg
  yFunction X S b.concept

/-- constraintanalysis.py:2006-2009: number of colours -/
def nColours : ℕ := 24

/-- What has been recorded so far: for every constraint the parameters with their ranges of the
requirement, in order (`propulsionreqprime`, 2020), and the parameters with a colour (`clr_dict`, 2010).
(constraintanalysis.py:2085-2092) -/
structure Recorded where
  prime : Constr → List (String × List ℝ)
  coloured : List String

/-- constraintanalysis.py:2088: `x.all() != np.zeros(len(x)).all()`: the empty product of truth values is True,
zeros of positive length are False -/
def recordTest (xs : List ℝ) : Prop := (∀ x ∈ xs, x ≠ 0) ≠ (xs = [])

open Classical in
/-- constraintanalysis.py:2086-2092: one constraint. The absolute difference of two numbers is a number,
which has no length (TypeError). -/
def recordOne (k : String) (rmax rmin : Req) (R : Recorded) (q : Constr) : PyM Recorded := do
  match ← op2 (fun x y => |x - y|) (rmax.entry q) (rmin.entry q) with
  | .scalar _ => .error .typeError
  | .array xs =>
    if recordTest xs then
      let prime := fun q' => if q' = q then dset (R.prime q) k xs else R.prime q'
      if k ∈ R.coloured then pure ⟨prime, R.coloured⟩
      else if R.coloured.length < nColours then pure ⟨prime, R.coloured ++ [k]⟩
      else .error .indexError
    else pure R

/-- constraintanalysis.py:2085-2092: the five constraints in order -/
def recordAll (k : String) (rmax rmin : Req) (R : Recorded) : PyM Recorded :=
  [Constr.climb, .cruise, .servceil, .takeoff, .turn].foldlM (recordOne k rmax rmin) R

/-- constraintanalysis.py:2061-2092: one entry of the design space -/
def studyEntry (X : Ext) (S : StudyIn) (i : Fin 3) (R : Recorded) (e : String × Val) : PyM Recorded :=
  match e.2 with
  | .list xs => do
    let hi ← listMax xs
    let lo ← listMin xs
    let rmax ← evalState X S (S.state.set i e.1 hi)
    let rmin ← evalState X S (S.state.set i e.1 lo)
    recordAll e.1 rmax rmin R
  | _ => pure R

/-- constraintanalysis.py:2059-2092: all entries of the three dictionaries. (Both temporary concepts are
constructed before either is evaluated, 2079-2082; this matters only for which error is raised.) -/
def studyLoop (X : Ext) (S : StudyIn) (space : Design3) : PyM Recorded := do
  let R ← space.brief.foldlM (studyEntry X S 0) ⟨fun _ => [], []⟩
  let R ← space.design.foldlM (studyEntry X S 1) R
  space.performance.foldlM (studyEntry X S 2) R

/-- The inputs of the study of a built concept (constraintanalysis.py:1989-2016). -/
def studyIn (b : Built) (wingloading : NumArg) (power : Bool) : PyM StudyIn := do
  let weight_n ← need b.concept.weight_n
  pure { ws := .array (recastArray wingloading), power, atm := b.concept.designatm,
         propulsion := b.concept.propulsion, mass := weight_n / gAcc,
         state := ⟨b.brief, b.design, b.performance⟩ }

/-- constraintanalysis.py:1989-2097: the recorded sensitivities and the nominal requirement -/
def study (X : Ext) (b : Built) (wingloading : NumArg) (power : Bool) : PyM (Recorded × Req) := do
  let S ← studyIn b wingloading power
  let R ← studyLoop X S ⟨b.space.1, b.space.2.1, b.space.2.2⟩
  let nominal ← evalState X S S.state
  pure (R, nominal)

/-- constraintanalysis.py:2138-2141: the sum of the recorded ranges at wing loading number `i` -/
def primeSum (l : List (String × List ℝ)) (i : ℕ) : ℝ := (l.map (fun e => e.2.getD i 0)).sum

/-- constraintanalysis.py:2147-2148: the relative sensitivities at wing loading number `i` -/
def shares (l : List (String × List ℝ)) (i : ℕ) : List ℝ := l.map (fun e => e.2.getD i 0 / primeSum l i)

end

end Verif.Aircraft
