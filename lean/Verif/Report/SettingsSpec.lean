/-
What the settings printed by a command should say.
-/
import Verif.IO.TextLemmas

namespace Verif.Report.Spec
open Verif.Py Verif.IO Verif.IO.Spec

/-- The text with these lines. -/
def HasLines (ls : List Str) (text : Str) : Prop :=
  (∀ l ∈ ls, '\n' ∉ l) ∧ text = (ls.map (· ++ ['\n'])).flatten

/-- A line that gives a value to a label. -/
def IsSetting (label value l : Str) : Prop := Tokens [c!"-", label, value] l

/-- A line that gives a whole number to a label. -/
def IsNumber (label : Str) (n : ℤ) (l : Str) : Prop := ∃ t, Numeral t n ∧ Tokens [c!"-", label, t] l

/-- A line with a number of two decimals and its unit. -/
def IsBound (label : Str) (x : ℚ) (unit l : Str) : Prop :=
  ∃ v t, Rounded 2 x v ∧ Numeral t v ∧ Tokens [c!"-", label, t, unit] l

/-- Three lines with the minimum, the maximum and the step of a range. -/
def IsRange (r : Fin 3 → ℚ) (unit : Str) (ls : List Str) : Prop :=
  ∃ a b c, ls = [a, b, c] ∧ IsBound c!"min:" (r 0) unit a ∧ IsBound c!"max:" (r 1) unit b ∧ IsBound c!"step:" (r 2) unit c

/-- The units the commands offer. -/
structure UnitsOffered (energy length frequency temperature : Str) : Prop where
  energy : energy ∈ [c!"Ha", c!"eV", c!"Ry"]
  length : length ∈ [c!"A", c!"bohr"]
  frequency : frequency ∈ [c!"cm^-1", c!"THz", c!"Hz"]
  temperature : temperature ∈ [c!"K", c!"C"]

/-- The lines on the approach: the interpolation, the way the volumes are found, with the equation of state if there is
one, and Kieffer's method. -/
def IsApproach (scheme minimization : Str) (kieffer : Bool) (eos : Str) (ls : List Str) : Prop :=
  ∃ a m k, ls = a :: (m ++ [k]) ∧
    (scheme = c!"freq" → a = c!" - scheme: frequency interpolation") ∧
    (scheme = c!"td" → a = c!" - scheme: thermodynamics interpolation") ∧
    (minimization = c!"poly" → m = [c!" - volume minimization: polynomial functions"]) ∧
    (minimization = c!"eos" →
      m = [c!" - volume minimization: Equation of State (EoS)", c!" - EoS formulation: " ++ eos]) ∧
    (kieffer = true → k = c!" - use Kieffer's approach: Yes") ∧
    (kieffer = false → k = c!" - use Kieffer's approach: No")

/-- Two numbers that cannot be told apart with two decimals. -/
def Same (x y : ℚ) : Prop := ∃ v, Rounded 2 x v ∧ Rounded 2 y v

end Verif.Report.Spec
