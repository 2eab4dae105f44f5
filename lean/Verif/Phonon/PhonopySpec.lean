/-
Specification of the files of a phonopy calculation, in terms of the trees they denote.
-/
import Mathlib.LinearAlgebra.Matrix.NonsingularInverse
import Verif.Chemistry.Props
import Verif.Phonon.Spec

namespace Verif.Phonon.Spec
open Verif.Py Verif.IO.Spec

/-- A number. -/
def IsNumber (x : Node) (q : ℚ) : Prop := x = .float q ∨ ∃ n : ℤ, x = .int n ∧ q = n

/-- A vector of three numbers. -/
def IsVector (x : Node) (v : Fin 3 → ℚ) : Prop :=
  ∃ a b c, x = .list [a, b, c] ∧ IsNumber a (v 0) ∧ IsNumber b (v 1) ∧ IsNumber c (v 2)

/-- A matrix given by its rows. -/
def IsMatrix (x : Node) (M : Matrix (Fin 3) (Fin 3) ℚ) : Prop :=
  ∃ a b c, x = .list [a, b, c] ∧ IsVector a (M 0) ∧ IsVector b (M 1) ∧ IsVector c (M 2)

/-- An atom: its chemical symbol and its coordinates. -/
def AtomGiven (x : Node) (a : ℕ × (Fin 3 → ℚ)) : Prop :=
  (∃ s, Entry x c!"symbol" (.str s) ∧ Chemistry.Spec.Known s a.1) ∧
  ∃ c, Entry x c!"coordinates" c ∧ IsVector c a.2

/-- A q-point of phonopy: position, weight and frequencies in THz. -/
structure PPoint where
  position : Fin 3 → ℚ
  weight : ℚ
  freqs : List ℚ

/-- An item of the list of q-points. -/
def PPointGiven (x : Node) (p : PPoint) : Prop :=
  (∃ v, Entry x c!"q-position" v ∧ IsVector v p.position) ∧
  (∃ w, Entry x c!"weight" w ∧ IsNumber w p.weight) ∧
  ∃ bs, Entry x c!"band" (.list bs) ∧
    List.Forall₂ (fun b q => ∃ v, Entry b c!"frequency" v ∧ IsNumber v q) bs p.freqs

/-- The phonopy output: the atoms of the cell, its lattice and the phonons, three for each atom. -/
structure PhonopyOutput (doc : Node) (atoms : List (ℕ × (Fin 3 → ℚ)))
    (lattice : Matrix (Fin 3) (Fin 3) ℚ) (points : List PPoint) : Prop where
  natom : Entry doc c!"natom" (.int atoms.length)
  nqpoint : Entry doc c!"nqpoint" (.int points.length)
  cell : ∃ v, Entry doc c!"lattice" v ∧ IsMatrix v lattice
  sites : ∃ l, Entry doc c!"points" (.list l) ∧ List.Forall₂ AtomGiven l atoms
  phonon : ∃ l, Entry doc c!"phonon" (.list l) ∧ List.Forall₂ PPointGiven l points
  bands : ∀ p ∈ points, p.freqs.length = 3 * atoms.length

/-- The displacement file: the expansion matrix, the atoms and the lattice of the supercell. -/
structure Displacements (doc : Node) (expansion : Matrix (Fin 3) (Fin 3) ℚ)
    (atoms : List (ℕ × (Fin 3 → ℚ))) (lattice : Matrix (Fin 3) (Fin 3) ℚ) : Prop where
  matrix : ∃ v, Entry doc c!"supercell_matrix" v ∧ IsMatrix v expansion
  cell : ∃ sc, Entry doc c!"supercell" sc ∧ (∃ v, Entry sc c!"lattice" v ∧ IsMatrix v lattice) ∧
    ∃ l, Entry sc c!"points" (.list l) ∧ List.Forall₂ AtomGiven l atoms

/-- The energy without entropy of a VASP output with the given names and texts: the last one. -/
def LastEnergy (es : List (Str × Str)) (e : ℚ) : Prop :=
  ∃ a t b, es = a ++ (c!"e_wo_entrp", t) :: b ∧ Numeral t e ∧
    (∀ p ∈ b, p.1 ≠ c!"e_wo_entrp") ∧ ∀ p ∈ a, p.1 = c!"e_wo_entrp" → ∃ x, Numeral p.2 x

end Verif.Phonon.Spec
