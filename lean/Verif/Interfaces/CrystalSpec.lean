/-
Specification of CRYSTAL outputs for phonon calculations, in terms of the lines of the file.
-/
import Mathlib.LinearAlgebra.Matrix.NonsingularInverse
import Verif.IO.EoSProps

namespace Verif.Interfaces.Spec
open Verif.Py Verif.IO Verif.IO.Spec

/-- A decimal integer with optional sign. -/
def Integer (s : Str) (z : ℤ) : Prop :=
  ∃ sg ds f, s = sg ++ ds ∧ Sign sg f ∧ Digits ds ∧ ds ≠ [] ∧ z = f * natOf ds

/-- Line `i` is the first one that contains `p`. -/
def First (p : Str) (ls : List Str) (i : ℕ) : Prop :=
  (∃ l, ls[i]? = some l ∧ p <:+: l) ∧ ∀ j, j < i → ∀ l, ls[j]? = some l → ¬ p <:+: l

/-- Some line contains `p`. -/
def Contains (p : Str) (ls : List Str) : Prop := ∃ l ∈ ls, p <:+: l

/-- The line ends with the integer `z`. -/
def EndsWith (l : Str) (z : ℤ) : Prop := ∃ ws t, Words (ws ++ [t]) l ∧ Integer t z

/-- An atom line: serial number, T or F, atomic number, symbol and coordinates. -/
def AtomLine (l : Str) (a : ℤ × (Fin 3 → ℚ)) : Prop :=
  ∃ t0 t1 t2 t3 t4 t5 t6 rest, Words (t0 :: t1 :: t2 :: t3 :: t4 :: t5 :: t6 :: rest) l ∧
    Integer t2 a.1 ∧ Numeral t4 (a.2 0) ∧ Numeral t5 (a.2 1) ∧ Numeral t6 (a.2 2)

/-- The atoms stand in the lines from `k` on. -/
def AtomsAt (ls : List Str) (k : ℕ) (atoms : List (ℤ × (Fin 3 → ℚ))) : Prop :=
  ∀ i a, atoms[i]? = some a → ∃ l, ls[k + i]? = some l ∧ AtomLine l a

/-- A matrix printed in three lines from `k` on, without and with a label in front of each row. -/
def MatrixAt (ls : List Str) (k : ℕ) (M : Matrix (Fin 3) (Fin 3) ℚ) : Prop :=
  ∀ i : Fin 3, ∃ l, ls[k + (i : ℕ)]? = some l ∧ Numbers (List.ofFn (M i)) l

/-- The same with a label in front of each row. -/
def LabelledMatrixAt (ls : List Str) (k : ℕ) (M : Matrix (Fin 3) (Fin 3) ℚ) : Prop :=
  ∀ i : Fin 3, ∃ l t0 t1 t2 t3, ls[k + (i : ℕ)]? = some l ∧ Words [t0, t1, t2, t3] l ∧
    Numeral t1 (M i 0) ∧ Numeral t2 (M i 1) ∧ Numeral t3 (M i 2)

/-- The geometry printed below line `g`: the number of atoms, the atoms, and the lattice vectors two
lines below the first title that follows them. -/
def GeometryAt (ls : List Str) (g : ℕ) (atoms : List (ℤ × (Fin 3 → ℚ)))
    (lattice : Matrix (Fin 3) (Fin 3) ℚ) : Prop :=
  (∃ l, ls[g + 8]? = some l ∧ EndsWith l atoms.length) ∧ AtomsAt ls (g + 11) atoms ∧
  ∃ p, First c!"DIRECT LATTICE VECTORS CARTESIAN COMPONENTS" (ls.drop (g + 11 + atoms.length)) p ∧
    MatrixAt ls (g + 11 + atoms.length + p + 2) lattice

/-- The energy printed for the central point: the third word of the first such line. -/
def EnergyPrinted (ls : List Str) (e : ℚ) : Prop :=
  ∃ i l t0 t1 t2 rest, First c!"    CENTRAL POINT" ls i ∧ ls[i]? = some l ∧
    Words (t0 :: t1 :: t2 :: rest) l ∧ Numeral t2 e

/-- A line `n1- n2 eigenvalue frequency …` of the table of frequencies. -/
def ModeLine (l : Str) (m : ℤ × ℤ × ℚ) : Prop :=
  ∃ t1 t2 t3 t4 rest, Words ((t1 ++ ['-']) :: t2 :: t3 :: t4 :: rest) l ∧ Integer t1 m.1 ∧
    Integer t2 m.2.1 ∧ Numeral t4 m.2.2

/-- The frequencies of a table: each one repeated for all its modes `n1, …, n2`. -/
def expand (modes : List (ℤ × ℤ × ℚ)) : List ℚ :=
  modes.flatMap fun m => List.replicate (m.2.1 - m.1 + 1).toNat m.2.2

/-- A table of frequencies from line `k` on, closed by an empty line. -/
def ModesAt (ls : List Str) (k : ℕ) (modes : List (ℤ × ℤ × ℚ)) : Prop :=
  ∃ rows blank post, ls.drop k = rows ++ blank :: post ∧ List.Forall₂ ModeLine rows modes ∧ Blank blank

/-- A line of a table, as far as it is looked at: the first word without its last character and the
second word are the first and the last of `k` modes; if there is any, the fourth word is a number. -/
def RowCount (l : Str) (k : ℕ) : Prop :=
  ∃ t1 c t2 more n1 n2, Words ((t1 ++ [c]) :: t2 :: more) l ∧ Integer t1 n1 ∧ Integer t2 n2 ∧
    k = (n2 - n1 + 1).toNat ∧ (k = 0 ∨ ∃ t3 t4 rest q, more = t3 :: t4 :: rest ∧ Numeral t4 q)

/-- A table that ends, with an empty line, before `n` modes have been listed. -/
def ShortAt (ls : List Str) (k n : ℕ) : Prop :=
  ∃ rows blank post counts, ls.drop k = rows ++ blank :: post ∧ Blank blank ∧
    List.Forall₂ RowCount rows counts ∧ counts.sum < n

/-- The only white space of the lines are blanks and tabs. -/
def Plain (ls : List Str) : Prop := ∀ l ∈ ls, ∀ c ∈ l, c ∈ whitespace → c = ' ' ∨ c = '\t'

/-- The title of a table of frequencies. -/
def frequencyTitle : Str := c!"MODES         EIGV          FREQUENCIES     IRREP"

/-- The output of a frequency calculation. -/
def IsFrequency (ls : List Str) : Prop :=
  Contains c!"EIGENVALUES (EIGV) OF THE MASS WEIGHTED HESSIAN MATRIX AND HARMONIC" ls

/-- The calculation used a supercell. -/
def IsSupercell (ls : List Str) : Prop := Contains c!" * SUPERCELL OPTION" ls

/-- The calculation sampled phonon dispersion. -/
def IsDispersion (ls : List Str) : Prop :=
  Contains c!"PHONON FREQUENCIES AT A SET OF K POINTS BY USING A SUPERCELL" ls

/-- The geometry used for the wave function. -/
def WaveGeometry (ls : List Str) (atoms : List (ℤ × (Fin 3 → ℚ)))
    (lattice : Matrix (Fin 3) (Fin 3) ℚ) : Prop :=
  ∃ g, First c!"GEOMETRY FOR WAVE FUNCTION - " ls g ∧ GeometryAt ls g atoms lattice

/-- The output of a frequency calculation at the zone centre, without supercell, up to the
frequencies. -/
def GammaCell (ls : List Str) (atoms : List (ℤ × (Fin 3 → ℚ)))
    (lattice : Matrix (Fin 3) (Fin 3) ℚ) (energy : ℚ) : Prop :=
  IsFrequency ls ∧ ¬ IsSupercell ls ∧ WaveGeometry ls atoms lattice ∧ EnergyPrinted ls energy

/-- The atoms of the input geometry: below the message that the geometry is consistent. -/
def InitialAtoms (ls : List Str) (atoms : List (ℤ × (Fin 3 → ℚ))) : Prop :=
  ∃ g, First c!"GEOMETRY NOW FULLY CONSISTENT WITH THE GROUP" ls g ∧
    (∃ l, ls[g + 7]? = some l ∧ EndsWith l atoms.length) ∧ AtomsAt ls (g + 10) atoms

/-- The expansion matrix. -/
def Expansion (ls : List Str) (E : Matrix (Fin 3) (Fin 3) ℚ) : Prop :=
  ∃ x, First c!"EXPANSION MATRIX OF PRIMITIVE CELL" ls x ∧ LabelledMatrixAt ls (x + 1) E

/-- A line of the table of k points: two labels, the weight and the coordinates. -/
def PointLine (l : Str) (q : ℚ × (Fin 3 → ℚ)) : Prop :=
  ∃ t0 t1 t2 t3 t4 t5 rest, Words (t0 :: t1 :: t2 :: t3 :: t4 :: t5 :: rest) l ∧
    Numeral t2 q.1 ∧ Numeral t3 (q.2 0) ∧ Numeral t4 (q.2 1) ∧ Numeral t5 (q.2 2)

/-- The line below the table of k points: the shrinking factors are its words 6, 9 and 12. -/
def ShrinkLine (l : Str) (s : Fin 3 → ℚ) : Prop :=
  ∃ ws t6 t9 t12, Words ws l ∧ ws[6]? = some t6 ∧ ws[9]? = some t9 ∧ ws[12]? = some t12 ∧
    Numeral t6 (s 0) ∧ Numeral t9 (s 1) ∧ Numeral t12 (s 2)

/-- The number of points is the last but three word of the line. -/
def CountLine (l : Str) (n : ℤ) : Prop :=
  ∃ ws t u v w, Words (ws ++ [t, u, v, w]) l ∧ Integer t n

/-- The table of k points at line `k`. -/
def PointsAt (ls : List Str) (k : ℕ) (pts : List (ℚ × (Fin 3 → ℚ))) (shrink : Fin 3 → ℚ) : Prop :=
  (∀ i p, pts[i]? = some p → ∃ l, ls[k + i]? = some l ∧ PointLine l p) ∧
  ∃ l, ls[k + pts.length]? = some l ∧ ShrinkLine l shrink

/-- The sampled points: with interpolation of the Hessian, nine lines below its message; otherwise
below the last title of a table of k points. -/
def Sampled (ls : List Str) (pts : List (ℚ × (Fin 3 → ℚ))) (shrink : Fin 3 → ℚ) : Prop :=
  (∃ s l, First c!"ACTIVATED INTERPOLATION OF THE HESSIAN UP TO" ls s ∧ ls[s]? = some l ∧
    CountLine l pts.length ∧ PointsAt ls (s + 9) pts shrink) ∨
  ¬ Contains c!"ACTIVATED INTERPOLATION OF THE HESSIAN UP TO" ls ∧
  ∃ s l k l', First c!"THAT PERMITS THE CALCULATION OF MODES AT" ls s ∧ ls[s]? = some l ∧
    CountLine l pts.length ∧ ls[k]? = some l' ∧ c!"K       WEIGHT       COORD" <:+: l' ∧
    (∀ j l, k < j → ls[j]? = some l → ¬ c!"K       WEIGHT       COORD" <:+: l) ∧
    PointsAt ls (k + 1) pts shrink

/-- The output of a phonon dispersion calculation with a supercell. -/
structure Dispersion (ls : List Str) where
  /-- supercell -/
  superAtoms : List (ℤ × (Fin 3 → ℚ))
  superLattice : Matrix (Fin 3) (Fin 3) ℚ
  /-- atoms of the unit cell -/
  atoms : List (ℤ × (Fin 3 → ℚ))
  expansion : Matrix (Fin 3) (Fin 3) ℚ
  points : List (ℚ × (Fin 3 → ℚ))
  shrink : Fin 3 → ℚ
  energy : ℚ
  frequency : IsFrequency ls
  supercell : IsSupercell ls
  wave : WaveGeometry ls superAtoms superLattice
  initial : InitialAtoms ls atoms
  expanded : Expansion ls expansion
  sampled : Sampled ls points shrink
  printed : EnergyPrinted ls energy

/-- The titles of the tables of frequencies stand in the lines `ks`, in order. -/
def Titles (ls : List Str) (ks : List ℕ) : Prop :=
  ks.Pairwise (· < ·) ∧ ∀ k, k ∈ ks ↔ ∃ l, ls[k]? = some l ∧ frequencyTitle <:+: l

/-- The first tables of frequencies, in order. -/
def FirstTables (ls : List Str) (tables : List (List (ℤ × ℤ × ℚ))) : Prop :=
  ∃ ks, Titles ls ks ∧ tables.length ≤ ks.length ∧
    ∀ (i k : ℕ) t, ks[i]? = some k → tables[i]? = some t → ModesAt ls (k + 2) t

/-- All tables of frequencies, in order. -/
def AllTables (ls : List Str) (tables : List (List (ℤ × ℤ × ℚ))) : Prop :=
  ∃ ks, Titles ls ks ∧ tables.length = ks.length ∧
    ∀ (i k : ℕ) t, ks[i]? = some k → tables[i]? = some t → ModesAt ls (k + 2) t

end Verif.Interfaces.Spec
