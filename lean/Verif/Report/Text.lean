/-
Formats of the reports that the exporters do not use.  Numbers are exact rationals.
-/
import Verif.Export.Table

noncomputable section

namespace Verif.Report
open Verif.Py Verif.IO Verif.Phonon Verif.Export

/-- `'{:.de}'.format(x)`: as `'{:.dE}'` in lower case. -/
def sciLower (d : ℕ) (x : ℚ) : Str :=
  let (m, e) := sciParts d x
  (if x < 0 then ['-'] else []) ++ showNat (m / 10 ^ d) ++ '.' :: lastDigits d m ++ 'e' :: (showExp e).tail

/-- `'{: .de}'`: a space in place of the sign of a non-negative number. -/
def sciSpaced (d : ℕ) (x : ℚ) : Str := (if x < 0 then [] else [' ']) ++ sciLower d x

/-- `'{:-^w}'.format('')`. -/
def dashes (w : ℕ) : Str := List.replicate w '-'

/-- `xs[i]`. -/
def item {α : Type} (xs : List α) (i : ℕ) : Except PyErr α :=
  match xs[i]? with
  | some x => .ok x
  | none => .error .indexError

end Verif.Report
