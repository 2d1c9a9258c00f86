import Verif.Model.Constraint

/-
The `propulsion` argument as a Python value, the test `iterable` (ADRpy/mtools4acdc.py:281-288) and the branches of the constructor that
read them (ADRpy/constraintanalysis.py:266-276). `Model/Concept.lean` has the argument already sorted into cases (`PropArg`).
-/

namespace Verif.Aircraft
open Verif

/-- Values a caller may pass as `propulsion` (constraintanalysis.py:257, 266-276). Simplified: sequences other than tuples and strings
(lists, sets, arrays, dictionaries) are one case, and so are objects of other classes, of which only the outcome of `iter` matters;
engine decks define neither `__iter__` nor `__getitem__` (propulsion.py). -/
inductive PyVal where
  | none
  | bool (b : Bool)
  | str (s : String)
  | tuple (items : List PyVal)
  | seq (items : List PyVal)
  | deck (e : Engine)
  | object (iter : PyM Unit)

/-- The builtin `iter` called at mtools4acdc.py:284, the iterator itself left out. -/
def PyVal.iter : PyVal → PyM Unit
  | .str _ => .ok ()
  | .tuple _ => .ok ()
  | .seq _ => .ok ()
  | .object r => r
  | .none => .error .typeError
  | .bool _ => .error .typeError
  | .deck _ => .error .typeError

/-- mtools4acdc.py:281-288 -/
def iterable (obj : PyVal) : Bool :=
  match obj.iter with
  | .error _ => false
  | .ok _ => true

/-- `isinstance(propulsion, tuple) and len(propulsion) == 2` (constraintanalysis.py:268) -/
def PyVal.isPair : PyVal → Bool
  | .tuple items => decide (items.length = 2)
  | _ => false

/-- `isinstance(propulsion, str)` (constraintanalysis.py:268) -/
def PyVal.isStr : PyVal → Bool
  | .str _ => true
  | _ => false

/-- `isinstance(propulsion, type(None))` (constraintanalysis.py:273) -/
def PyVal.isNone : PyVal → Bool
  | .none => true
  | _ => false

/-- The value of `self.propulsion`. (constraintanalysis.py:266-276) -/
def setPropulsion (propulsion : PyVal) : PyVal :=
  if iterable propulsion then
    if propulsion.isPair || propulsion.isStr then propulsion else .bool false
  else if !propulsion.isNone then .tuple [propulsion, .none]
  else .bool false

/-- The engine as `_propulsion_slcorr` sees it: the decks, anything else. (constraintanalysis.py:1109-1130) -/
def PyVal.engine : PyVal → Engine
  | .deck e => e
  | _ => .other

/-- The attribute as `_propulsion_slcorr` reads it: `is False`, a string, a tuple unpacked into engine and propeller
(constraintanalysis.py:1038-1039, 1065, 1107-1109). Tuples of other lengths, which `setPropulsion` never stores, would fail to
unpack. -/
def PyVal.attr : PyVal → Option PropAttr
  | .bool false => some .pyFalse
  | .str s => some (.str s)
  | .tuple [e, _] => some (.pair e.engine)
  | _ => Option.none

/-- The cases of `Model/Concept.lean`. (constraintanalysis.py:266-276) -/
def PyVal.toArg : PyVal → PropArg
  | .none => .pyNone
  | .bool _ => .obj .other
  | .str s => .str s
  | .tuple [e, _] => .pair e.engine
  | .tuple _ => .iterable
  | .seq _ => .iterable
  | .deck e => .obj e
  | .object (.ok _) => .iterable
  | .object (.error _) => .obj .other

end Verif.Aircraft
