/-
Specification of CRYSTAL outputs of quasi-harmonic calculations, in terms of the lines of the file.
-/
import Verif.Interfaces.CrystalSpec

namespace Verif.Interfaces.Spec
open Verif.Py Verif.IO Verif.IO.Spec

/-- The first word of the line is `w`. -/
def FirstWord (l w : Str) : Prop :=
  ∃ g rest, (∀ c ∈ g, c ∈ whitespace) ∧ l = g ++ w ++ rest ∧ ∀ c, rest.head? = some c → c ∈ whitespace

/-- A row of the table of volumes and energies. -/
def VolumeLine (l : Str) (p : ℚ × ℚ) : Prop :=
  ∃ t u, Words [t, u] l ∧ Numeral t p.1 ∧ Numeral u p.2

/-- The table of volumes and energies: four lines below its title; the line after it does not have
two words. -/
def VolumesPrinted (ls : List Str) (table : List (ℚ × ℚ)) : Prop :=
  ∃ s, First c!"SORTING VOLUMES/ENERGIES" ls s ∧
    (∀ i p, table[i]? = some p → ∃ l, ls[s + 4 + i]? = some l ∧ VolumeLine l p) ∧
    ∃ l ws, ls[s + 4 + table.length]? = some l ∧ Words ws l ∧ ws.length ≠ 2

/-- The optimised geometries, in the order of the output. -/
def CellsPrinted (ls : List Str)
    (cells : List (List (ℤ × (Fin 3 → ℚ)) × Matrix (Fin 3) (Fin 3) ℚ)) : Prop :=
  ∃ ks : List ℕ, ks.length = cells.length ∧ ks.Pairwise (· < ·) ∧
    (∀ k, k ∈ ks ↔ ∃ l, ls[k]? = some l ∧ c!"FINAL OPTIMIZED GEOMETRY" <:+: l) ∧
    ∀ (i k : ℕ) c, ks[i]? = some k → cells[i]? = some c → GeometryAt ls k c.1 c.2

/-- The frequencies, each one at all volumes: three lines below a title that begins with FREQUENCY,
the second word of each line. -/
def FrequenciesPrinted (ls : List Str) (freqs : List (List ℚ)) : Prop :=
  ∃ ks : List ℕ, ks.length = freqs.length ∧ ks.Pairwise (· < ·) ∧
    (∀ k, k ∈ ks ↔ ∃ l, ls[k]? = some l ∧ c!"FREQUENCY #" <:+: l ∧ FirstWord l c!"FREQUENCY") ∧
    ∀ (i k : ℕ) row, ks[i]? = some k → freqs[i]? = some row →
      ∀ (j : ℕ) q, row[j]? = some q → ∃ l t0 t1 rest, ls[k + 3 + j]? = some l ∧
        Words (t0 :: t1 :: rest) l ∧ Numeral t1 q

/-- A complete output of a quasi-harmonic calculation: at least four and less than a hundred volumes,
the optimised geometry of each, and all frequencies at all volumes. -/
structure QhaOutput (ls : List Str) where
  table : List (ℚ × ℚ)
  cells : List (List (ℤ × (Fin 3 → ℚ)) × Matrix (Fin 3) (Fin 3) ℚ)
  freqs : List (List ℚ)
  header : Contains c!"QUASI-HARMONIC APPROXIMATION" ls
  fresh : ¬ Contains c!"READING DATA FROM RESTART UNIT" ls
  volumes : VolumesPrinted ls table
  many : 4 ≤ table.length ∧ table.length < 100
  geometries : CellsPrinted ls cells
  same : cells.length = table.length
  frequencies : FrequenciesPrinted ls freqs
  full : ∀ row ∈ freqs, row.length = table.length

/-- Two volumes agree within the tolerance used to recognise them. -/
def Close (a b : ℚ) : Prop := |a - b| ≤ 1 / 100000000 + 1 / 100000 * |b|

/-- Every optimised cell is recognised by its volume: cell `i` agrees with the volume of row `p i` of
the table and with no other. -/
structure Recognised {ls : List Str} (o : QhaOutput ls) (p : ℕ → ℕ) : Prop where
  range : ∀ i < o.cells.length, p i < o.cells.length
  injective : ∀ i < o.cells.length, ∀ j < o.cells.length, p i = p j → i = j
  close : ∀ (i j : ℕ) c v, o.cells[i]? = some c → o.table[j]? = some v → (Close c.2.det v.1 ↔ j = p i)

end Verif.Interfaces.Spec
