import Verif.Model.Sensitivity
import Mathlib.Logic.Function.Basic

/-
Dictionaries as objects that are shared between the caller and the concepts made from them
(ADRpy/constraintanalysis.py:258-508, 2011-2097). Brief, design and performance dictionaries are kept
in three separate stores: a dictionary that is passed in two of these roles is not modelled, and neither is
a sub-dictionary (`weightfractions`, `etaprop`) that belongs to two dictionaries.
-/

namespace Verif.Aircraft

open Verif Verif.Units

noncomputable section

/-- The dictionary objects of one role: `next` have been made so far, `get` are their contents.
(constraintanalysis.py:258-263) -/
structure Store where
  next : ℕ
  get : ℕ → Dict

/-- Writing to the dictionary with a given address changes it for everyone who has this address.
(for instance constraintanalysis.py:374-392) -/
def Store.put (s : Store) (a : ℕ) (d : Dict) : Store := { s with get := Function.update s.get a d }

/-- `{} if not brief else brief`: a new dictionary for an empty one, else the caller's own.
(constraintanalysis.py:261-263; None is an address with the empty contents) -/
def Store.orNew (s : Store) (a : ℕ) : Store × ℕ :=
  match s.get a with
  | [] => ({ next := s.next + 1, get := Function.update s.get s.next [] }, s.next)
  | _ :: _ => (s, a)

/-- A concept object: the addresses of its three dictionaries (`self.designstate`, 426), the design space
(a deep copy, 417) and the attributes. (constraintanalysis.py:258-508) -/
structure Obj where
  addr : Fin 3 → ℕ
  space : Dict × Dict × Dict
  taperdefaultflag : Bool
  concept : Concept

/-- The three stores (brief, design, performance) and the concepts made so far, in order.
(constraintanalysis.py:258-508) -/
structure Memory where
  store : Fin 3 → Store
  objs : List Obj

/-- The dictionaries a constructor leaves behind, by role. (constraintanalysis.py:426) -/
def Built.dict (r : Built) : Fin 3 → Dict
  | 0 => r.brief
  | 1 => r.design
  | 2 => r.performance

/-- The concept with the present contents of its dictionaries. (constraintanalysis.py:426, 2013-2014) -/
def Obj.view (M : Memory) (o : Obj) : Built :=
  ⟨(M.store 0).get (o.addr 0), (M.store 1).get (o.addr 1), (M.store 2).get (o.addr 2), o.space, o.taperdefaultflag, o.concept⟩

/-- `AircraftConcept(brief, design, performance, atm, pa)` with dictionaries given by their addresses. The
exception of a failing constructor ends the program. (constraintanalysis.py:258-508) -/
def newConcept (M : Memory) (a : Fin 3 → ℕ) (atm : Option Atmos.Atm) (pa : PropArg) : PyM Memory := do
  let s := fun i => (M.store i).orNew (a i)
  let r ← construct ((s 0).1.get (s 0).2) ((s 1).1.get (s 1).2) ((s 2).1.get (s 2).2) atm pa
  pure { store := fun i => (s i).1.put (s i).2 (r.dict i),
         objs := M.objs ++ [⟨fun i => (s i).2, r.space, r.taperdefaultflag, r.concept⟩] }

/-- `o.propulsionsensitivity_monothetic(...)`: the nominal concept is made from the dictionaries of the object
themselves (2094-2095), the others from deep copies (2067, 2070). (constraintanalysis.py:1989-2097) -/
def studyStep (X : Ext) (M : Memory) (o : Obj) (w : NumArg) (power : Bool) : PyM (Memory × (Recorded × Req)) := do
  let v := o.view M
  let res ← study X v w power
  let r ← construct v.brief v.design v.performance (some v.concept.designatm) v.concept.propulsion.asArg
  pure ({ M with store := fun i => (M.store i).put (o.addr i) (r.dict i) }, res)

/-- What a program using the class may do: make a concept, make a sensitivity study of concept number `n`, set an entry
of a dictionary (as the example in the documentation of `wigfactor` does, 2429), set attributes of concept number `n`.
(constraintanalysis.py:258-508, 1989-2097, 2429) -/
inductive Op where
  | new (a : Fin 3 → ℕ) (atm : Option Atmos.Atm) (pa : PropArg)
  | study (n : ℕ) (w : NumArg) (power : Bool)
  | write (i : Fin 3) (a : ℕ) (k : String) (v : Val)
  | setattr (n : ℕ) (c : Concept)

/-- One step of a program. A study of a concept that does not exist is an IndexError of the program.
(constraintanalysis.py:258-508, 1989-2097, 2429) -/
def exec (X : Ext) (M : Memory) : Op → PyM Memory
  | .new a atm pa => newConcept M a atm pa
  | .study n w power =>
    match M.objs[n]? with
    | some o => do
      let r ← studyStep X M o w power
      pure r.1
    | none => .error .indexError
  | .write i a k v => .ok { M with store := Function.update M.store i ((M.store i).put a (dset ((M.store i).get a) k v)) }
  | .setattr n c => .ok { M with objs := M.objs.modify n (fun o => { o with concept := c }) }

/-- A program: its steps in order. (constraintanalysis.py:258-508, 1989-2097, 2429) -/
def run (X : Ext) (M : Memory) (ops : List Op) : PyM Memory := ops.foldlM (exec X) M

end

end Verif.Aircraft
