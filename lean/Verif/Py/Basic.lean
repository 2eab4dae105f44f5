/-
Shared vocabulary for the Python model: exception classes as values and
strings as lists of characters.
-/
import Mathlib.Data.List.Basic

namespace Verif.Py

/-- Python exception classes that the modelled code can raise (used as values). -/
inductive PyErr where
  | notImplemented
  | keyError
  | indexError
  | typeError
  | valueError
  | zeroDivision
  | unboundLocal
  | attributeError
  | nameError
  | assertion
  deriving DecidableEq, Repr

/-- Python strings are modelled as lists of characters. -/
abbrev Str := List Char

/-- `c!"abc"` is the list `['a', 'b', 'c']`, built at elaboration time. -/
macro:max "c!" s:str : term => do
  let cs ← s.getString.toList.toArray.mapM fun c => `($(Lean.Syntax.mkCharLit c))
  `(([$cs,*] : List Char))

/-- `str.lower()`, restricted to ASCII letters (other characters are left alone).
Simplification: Python also lowers non-ASCII letters. -/
def lower (s : Str) : Str := s.map Char.toLower

end Verif.Py
