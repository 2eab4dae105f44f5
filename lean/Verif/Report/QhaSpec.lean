/-
What the tables of the quasi-harmonic calculator should say.
-/
import Verif.IO.TextLemmas
import Verif.Phonon.YamlSpec

namespace Verif.Report.Spec
open Verif.Py Verif.IO Verif.IO.Spec

/-- One line of the results: temperature, volume, thermal expansion, isothermal and adiabatic bulk modulus,
difference of the heat capacities. -/
def IsResultRow (T V a KT KS D : ℚ) (l : Str) : Prop :=
  ∃ T' V' a' KT' KS' D', Rounded 1 T T' ∧ Rounded 6 V V' ∧ Phonon.Spec.Significant 8 a a' ∧ Rounded 3 KT KT' ∧
    Rounded 3 KS KS' ∧ Rounded 6 D D' ∧ Numbers [T', V', a', KT', KS', D'] l

/-- The verdict on a fit with this coefficient of determination. -/
def IsVerdict (x : ℚ) (t : Str) : Prop :=
  (t = c!"OK" ∧ 9 / 10 ≤ x) ∨ (t = c!"Low" ∧ 8 / 10 ≤ x ∧ x < 9 / 10) ∨ (t = c!"BAD!" ∧ x < 8 / 10)

/-- The line of frequency `j`, counted from zero: its number from one, the coefficient with six decimals, the
verdict. -/
def IsFrequencyRow (x : ℚ) (j : ℕ) (l : Str) : Prop :=
  ∃ tn tx v x', Digits tn ∧ natOf tn = j + 1 ∧ Rounded 6 x x' ∧ Numeral tx x' ∧ IsVerdict x v ∧
    Tokens [c!"*", c!"Frequency", tn ++ c!":", c!"R^2", c!"=", tx, v] l

end Verif.Report.Spec
