import Verif.Model.Py
import Mathlib.Data.Real.Basic

/-
Numpy/Python list conventions used by several modules.
-/

namespace Verif

/-- An argument that may be a Python number or a list / numpy array of numbers.
(as tested by `isinstance(x, Number)`, mtools4acdc.py:60-70) -/
inductive NumArg where
  | scalar (x : ℝ)
  | array (xs : List ℝ)

/-- mtools4acdc.py:60-70 (`recastasnpfloatarray`): a number becomes a one-element array, a list or
array is converted element by element. -/
def recastArray : NumArg → List ℝ
  | .scalar x => [x]
  | .array xs => xs

/-- Numpy broadcasting of a binary element-wise operation on two one-dimensional arrays: equal
lengths are combined element by element, a one-element array is paired with every element of the
other, any other combination raises ValueError.
(for instance atmospheres.py:728, constraintanalysis.py:1247-1252) -/
def broadcast2 (f : ℝ → ℝ → ℝ) (xs ys : List ℝ) : PyM (List ℝ) :=
  if xs.length = ys.length then .ok (List.zipWith f xs ys)
  else match xs, ys with
    | [x], ys => .ok (ys.map (f x))
    | xs, [y] => .ok (xs.map (fun x => f x y))
    | _, _ => .error .valueError

/-- Python list indexing with an integer (negative indices count from the end, anything else out of
range raises IndexError). (for instance atmospheres.py:148-149, mtools4acdc.py:114-125) -/
def pyIndex {α : Type} (l : List α) (i : ℤ) : PyM α :=
  if 0 ≤ i then
    match l[i.toNat]? with
    | some a => .ok a
    | none => .error .indexError
  else if -(l.length : ℤ) ≤ i then
    match l[(l.length + i).toNat]? with
    | some a => .ok a
    | none => .error .indexError
  else .error .indexError

end Verif
