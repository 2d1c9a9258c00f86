import Verif.Model.Py
import Mathlib.Data.Real.Basic

/-
Python dictionaries with string keys, and the values that occur in the brief, design and performance
dictionaries of class AircraftConcept (ADRpy/constraintanalysis.py).
-/

namespace Verif

section
variable {α : Type}

/-- Dictionary lookup (`d[k]` / `k in d`), first entry with the key.
(for instance constraintanalysis.py:367-381) -/
def dget : List (String × α) → String → Option α
  | [], _ => none
  | (k', v) :: t, k => if k = k' then some v else dget t k

/-- Dictionary assignment `d[k] = v`: an existing key keeps its position, a new one goes to the end.
(for instance constraintanalysis.py:371, 381) -/
def dset : List (String × α) → String → α → List (String × α)
  | [], k, v => [(k, v)]
  | (k', v') :: t, k, v => if k = k' then (k', v) :: t else (k', v') :: dset t k v

/-- `d[k]` with KeyError for an absent key. (for instance constraintanalysis.py:429-506) -/
def dgetE (d : List (String × α)) (k : String) : PyM α :=
  match dget d k with
  | some v => .ok v
  | none => .error .keyError

end

/-- A sub-dictionary such as `weightfractions` or `etaprop`. Values are numbers or the flag `False`
(`none`); other Python values are not modelled. (constraintanalysis.py:280-308, 340-359) -/
abbrev SubDict := List (String × Option ℝ)

/-- A value in one of the three dictionaries: the flag `False`, a number, a list of numbers (a range),
or a sub-dictionary. Other Python values (strings, arrays, None) are not modelled.
(constraintanalysis.py:280-359) -/
inductive Val where
  | flag
  | num (x : ℝ)
  | list (xs : List ℝ)
  | sub (d : SubDict)

/-- One of the three dictionaries. (constraintanalysis.py:258-263) -/
abbrev Dict := List (String × Val)

end Verif
