/-
Python runtime values used by the model: exception classes.
-/

namespace Verif

/-- Python exception classes raised by the modelled code (explicit `raise` statements and the
implicit ones of built-in operations named in the comments of the definitions that use them).
(for instance constraintanalysis.py:1057-1058, airworthiness.py:143) -/
inductive PyErr where
  | valueError
  | typeError
  | indexError
  | keyError
  | attributeError
  | zeroDivisionError
  | nameError
  | lookupError
  | unpackError
  | fileNotFoundError
  deriving DecidableEq, Repr

/-- Result of a Python computation: a value or an exception.
(for instance constraintanalysis.py:1044-1058) -/
abbrev PyM (α : Type) := Except PyErr α

/-- `true` iff the computation raises `e`. (for instance constraintanalysis.py:1057-1058) -/
def Raises {α : Type} (x : PyM α) (e : PyErr) : Prop := x = Except.error e

/-- The computation returns the value `v`. (for instance constraintanalysis.py:1058) -/
def Returns {α : Type} (x : PyM α) (v : α) : Prop := x = Except.ok v

end Verif
