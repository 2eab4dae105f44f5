/-
Specification of the unit converters, written from the meaning of the units.
-/
import Mathlib.Data.Real.Basic
import Mathlib.Data.List.Forall2
import Verif.Units.Model

namespace Verif.Units.Spec
open Verif.Py Verif.Units

/-- A scale of measurement: the names a user may type (any letter case) and the affine map
`x ↦ slope * x + offset` giving the same quantity in the reference unit. -/
structure Scale where
  names : List Str
  slope : ℝ
  offset : ℝ

/-- Value in the reference unit of the number `x` read on this scale. -/
def Scale.toRef (A : Scale) (x : ℝ) : ℝ := A.slope * x + A.offset

/-- The name typed by the user designates scale `A` of the list. -/
def Means (scales : List Scale) (name : Str) (A : Scale) : Prop :=
  A ∈ scales ∧ lower name ∈ A.names

/-- What a user expects of a converter over a list of scales: it succeeds exactly on known names
and then element `i` of the result is the same physical quantity as element `i` of the input;
otherwise it raises `NotImplementedError`. -/
structure Faithful (scales : List Scale)
    (conv : List ℝ → Str → Str → Except PyErr (List ℝ)) : Prop where
  ok_iff : ∀ v a b w, conv v a b = .ok w ↔
    ∃ A B, Means scales a A ∧ Means scales b B ∧
      List.Forall₂ (fun x y => A.toRef x = B.toRef y) v w
  reject : ∀ v a b, ((∀ A, ¬ Means scales a A) ∨ (∀ B, ¬ Means scales b B)) →
    conv v a b = .error .notImplemented

/-- Temperatures, reference kelvin. -/
noncomputable def temperatures : List Scale :=
  [⟨[c!"celsius", c!"°c", c!"c"], 1, 273.15⟩,
   ⟨[c!"kelvin", c!"k"], 1, 0⟩,
   ⟨[c!"fahrenheit", c!"f"], 5 / 9, 273.15 - 32 * (5 / 9)⟩,
   ⟨[c!"rankine", c!"r"], 5 / 9, 0⟩]

/-- Energies with all names of the documentation (units.py:119-124), reference joule. -/
noncomputable def energiesDocumented (k : Consts) : List Scale :=
  [⟨[c!"hartree", c!"ha"], k.Ha, 0⟩,
   ⟨[c!"electron volt", c!"ev"], k.eV, 0⟩,
   ⟨[c!"rydberg", c!"ry"], k.Ry, 0⟩,
   ⟨[c!"kj/mol", c!"kjmol"], 1000 / k.N, 0⟩]

/-- The same without the two names that the code does not recognise. -/
noncomputable def energiesShort (k : Consts) : List Scale :=
  [⟨[c!"ha"], k.Ha, 0⟩,
   ⟨[c!"electron volt", c!"ev"], k.eV, 0⟩,
   ⟨[c!"ry"], k.Ry, 0⟩,
   ⟨[c!"kj/mol", c!"kjmol"], 1000 / k.N, 0⟩]

/-- Pressures, reference pascal (1 bar = 10^5 Pa). -/
noncomputable def pressures : List Scale :=
  [⟨[c!"pa"], 1, 0⟩, ⟨[c!"kpa"], 10 ^ 3, 0⟩, ⟨[c!"mpa"], 10 ^ 6, 0⟩, ⟨[c!"gpa"], 10 ^ 9, 0⟩,
   ⟨[c!"bar"], 10 ^ 5, 0⟩, ⟨[c!"kbar"], 10 ^ 3 * 10 ^ 5, 0⟩, ⟨[c!"mbar"], 10 ^ 6 * 10 ^ 5, 0⟩,
   ⟨[c!"gbar"], 10 ^ 9 * 10 ^ 5, 0⟩]

/-- Frequencies, reference hertz: a wavenumber of 1 cm^-1 is `100 c` hertz. -/
noncomputable def frequencies (k : Consts) : List Scale :=
  [⟨[c!"cm^-1"], 100 * k.c, 0⟩, ⟨[c!"hz"], 1, 0⟩, ⟨[c!"thz"], 10 ^ 12, 0⟩]

/-- Lengths, reference metre. -/
noncomputable def lengths (k : Consts) : List Scale :=
  [⟨[c!"metre", c!"m"], 1, 0⟩, ⟨[c!"angstrom", c!"a"], k.Angstrom, 0⟩, ⟨[c!"bohr"], k.Bohr, 0⟩]

/-- Volumes named by their edge length, reference cubic metre. -/
noncomputable def volumes (k : Consts) : List Scale :=
  [⟨[c!"metre", c!"m"], 1, 0⟩, ⟨[c!"angstrom", c!"a"], k.Angstrom ^ 3, 0⟩,
   ⟨[c!"bohr"], k.Bohr ^ 3, 0⟩]

/-- Energies accepted as numerator of an energy density, reference joule. -/
noncomputable def densityEnergies (k : Consts) : List Scale :=
  [⟨[c!"hartree", c!"ha"], k.Ha, 0⟩, ⟨[c!"electron volt", c!"ev"], k.eV, 0⟩,
   ⟨[c!"rydberg", c!"ry"], k.Ry, 0⟩]

/-- Volumes accepted as denominator of an energy density, reference cubic metre. -/
noncomputable def densityVolumes (k : Consts) : List Scale :=
  [⟨[c!"angstrom", c!"a", c!"a^3"], k.Angstrom ^ 3, 0⟩,
   ⟨[c!"bohr", c!"bohr^3"], k.Bohr ^ 3, 0⟩]

end Verif.Units.Spec
