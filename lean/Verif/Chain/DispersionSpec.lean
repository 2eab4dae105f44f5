/-
Specification of the data of phonon calculations on several points of the Brillouin zone, as CRYSTAL prints them.
-/
import Verif.Chain.PhononSpec
import Verif.Interfaces.CrystalQHASpec

noncomputable section

namespace Verif.Chain.Spec
open Verif.Py Verif.IO Verif.IO.Spec Verif.Interfaces Verif.Interfaces.Spec Verif.Units

/-- The data of a phonon dispersion calculation for one unit cell: the sampled points (weight and coordinates in units of the
reciprocal of the shrinking factors) and the frequencies at each of them. -/
structure Sampling where
  natom : ℕ
  dim : Fin 3 → Fin 3 → ℤ
  volume : ℚ
  energy : ℚ
  shrink : Fin 3 → ℚ
  points : List (ℤ × (Fin 3 → ℚ))
  freqs : List (List ℚ)

/-- The text is a CRYSTAL output of a dispersion calculation with a supercell and these data: energy and volume printed are
those of the supercell; every point has a table with three frequencies per atom, printed with at most ten decimals. -/
def DispersionOutput (text : Str) (o : Sampling) : Prop :=
  ∃ (ls : List Str) (d : Dispersion ls) (n : ℤ) (tables : List (List (ℤ × ℤ × ℚ))),
    IsText ls text ∧ IsDispersion ls ∧ d.expansion.det = n ∧ 0 < n ∧ d.energy ≠ 0 ∧ d.superLattice ≠ 0 ∧
    FirstTables ls tables ∧ tables.length = d.points.length ∧ d.points ≠ [] ∧
    o.natom = d.atoms.length ∧ (∀ i j, d.expansion i j = o.dim i j) ∧ n * o.volume = d.superLattice.det ∧
    n * o.energy = d.energy ∧ o.shrink = d.shrink ∧ d.points = o.points.map (fun p => ((p.1 : ℚ), p.2)) ∧
    o.freqs = tables.map expand ∧ (∀ f ∈ o.freqs, f.length = 3 * o.natom) ∧
    ∀ f ∈ o.freqs, ∀ ν ∈ f, ∃ m : ℤ, ν = m / 10 ^ 10

/-- The data of a quasi-harmonic calculation for one unit cell: volumes in the order of the table with their energies, and the
frequencies of each of `n` points, each one at all volumes. -/
structure Expanded where
  natom : ℕ
  volumes : List ℚ
  energies : List ℚ
  bands : List (List (List ℚ))

/-- The text is a CRYSTAL output of a quasi-harmonic calculation with these data, on a supercell of `n` unit cells or (with
`n = 1`) on the unit cell: every optimised cell agrees with one volume of the table; the frequencies of a supercell are those
of `n` points, in the order of the output. -/
def QuasiOutput (text : Str) (x : Expanded) : Prop :=
  ∃ (ls : List Str) (o : QhaOutput ls) (p : ℕ → ℕ) (E : Fin 3 → Fin 3 → ℤ) (n : ℕ),
    IsText ls text ∧ Recognised o p ∧
    (IsSupercell ls ∧ Expansion ls (Matrix.of fun i j => (E i j : ℚ)) ∨
      ¬ IsSupercell ls ∧ E = fun i j => if i = j then 1 else 0) ∧
    (Matrix.of fun i j => (E i j : ℚ)).det = n ∧ 0 < n ∧ (∀ c ∈ o.cells, c.1.length = n * x.natom) ∧
    o.freqs.length = n * (3 * x.natom) ∧ x.volumes.length = o.table.length ∧
    (∀ i c, o.cells[i]? = some c → ∃ v, x.volumes[p i]? = some v ∧ n * v = c.2.det) ∧
    List.Forall₂ (fun v (e : ℚ) => n * e = v.2) o.table x.energies ∧ x.bands.length = n ∧
    (∀ b ∈ x.bands, b.length = 3 * x.natom) ∧ x.bands.flatten = o.freqs ∧
    ∀ b ∈ x.bands, ∀ f ∈ b, ∀ ν ∈ f, ∃ m : ℤ, ν = m / 10 ^ 10

end Verif.Chain.Spec
