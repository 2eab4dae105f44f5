/-
Specification of the data of phonopy calculations and of what an analysis should make of them.
-/
import Verif.Chain.PhononSpec
import Verif.Phonon.PhonopyProps

noncomputable section

namespace Verif.Chain.Spec
open Verif.Py Verif.Phonon Verif.Phonon.Spec Verif.Units

/-- The data of a phonopy calculation: volume of the unit cell (cubic angstrom), energy (electronvolt), expansion matrix, and the
sampled points with their weights and frequencies (terahertz). -/
structure Spectrum where
  natom : ℕ
  dim : Fin 3 → Fin 3 → ℤ
  volume : ℚ
  energy : ℚ
  points : List PPoint

/-- The three files of a phonopy calculation with these data: the phonopy output, the displacements and the VASP output.  The
entries of the expansion matrix and the weights are integers. -/
def PhonopyCalculation (f : PhonopyFiles) (o : Spectrum) : Prop :=
  ∃ out disp atoms satoms lattice slattice expansion, f.output = some (.tree out) ∧ f.disp = some (.tree disp) ∧
    PhonopyOutput out atoms lattice o.points ∧ Displacements disp expansion satoms slattice ∧
    Phonon.Spec.EnergyOf f.vasprun o.energy ∧ o.natom = atoms.length ∧ o.volume = lattice.det ∧
    (∀ i j, expansion i j = o.dim i j) ∧ o.points ≠ [] ∧ ∀ p ∈ o.points, ∃ n : ℤ, p.weight = n

/-- `pts` are the points of `r` with their weights and, in wavenumbers, the frequencies of `o` up to ten decimals: they differ by
at most half a unit of the tenth decimal of a wavenumber (about 1.5 hertz). -/
def Sampled (k : Consts) (r o : Spectrum) (pts : List (ℚ × List ℚ)) : Prop :=
  List.Forall₂ (fun x (pq : PPoint × PPoint) => x.1 = pq.1.weight ∧
    List.Forall₂ (fun (ν f : ℚ) => |100 * k.c * ν - 10 ^ 12 * f| ≤ 100 * k.c / (2 * 10 ^ 10)) x.2 pq.2.freqs)
    pts (r.points.zip o.points)

end Verif.Chain.Spec
