/-
How `label = value(error)` is read: the digits in parentheses count units of the last decimal of the
value.
-/
import Mathlib.Data.Fin.VecNotation
import Verif.IO.Spec
import Verif.IO.TextLemmas

namespace Verif.Report.Spec
open Verif.Py Verif.IO.Spec

/-- `s` reads as the value `v` with uncertainty `u`: a label, an equals sign, a decimal number `v` with
the decimals `b`, and in parentheses the digits of `u` in units of the last decimal. -/
def ReadsAs (label s : Str) (v u : ℚ) : Prop :=
  ∃ sgn f a b e, Sign sgn f ∧ Digits a ∧ a ≠ [] ∧ Digits b ∧ Digits e ∧ e ≠ [] ∧
    s = label ++ c!" = " ++ (sgn ++ a ++ (if b = [] then [] else '.' :: b)) ++ ['('] ++ e ++ [')'] ∧
    v = f * (natOf a + (natOf b : ℚ) / 10 ^ b.length) ∧ u = (natOf e : ℚ) / 10 ^ b.length

/-- The symbols of energy, bulk modulus, its derivative and volume, the parameters of an equation of state. -/
def symbol : Fin 4 → Str := ![c!"E0", c!"K0", c!"K'", c!"V0"]

end Verif.Report.Spec
