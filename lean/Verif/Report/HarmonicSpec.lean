/-
What the report of the input of a harmonic run should say.
-/
import Mathlib.LinearAlgebra.Matrix.Determinant.Basic
import Verif.IO.TextLemmas
import Verif.Phonon.YamlSpec

namespace Verif.Report.Spec
open Verif.Py Verif.IO Verif.IO.Spec Verif.Phonon

/-- A line with a label and a number. -/
def IsCount (label : Str) (n : ℚ) (l : Str) : Prop := ∃ t, Numeral t n ∧ Tokens [c!"-", label, t] l

/-- The line of one volume: the volume with six decimals, the energy with thirteen significant digits. -/
def IsVolumeRow (v e : ℚ) (l : Str) : Prop :=
  ∃ v' e', Rounded 6 v v' ∧ Phonon.Spec.Significant 12 e e' ∧ Numbers [v', e'] l

/-- The input gives this supercell. -/
def HasSupercell (doc : Node) (M : Matrix (Fin 3) (Fin 3) ℤ) : Prop :=
  Phonon.Spec.Entry doc c!"supercell" (.list (List.ofFn fun i => .list (List.ofFn fun j => .int (M i j))))

end Verif.Report.Spec
