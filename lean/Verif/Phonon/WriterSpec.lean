/-
Specification of what a generated phonon input has to contain.
-/
import Verif.IO.TextLemmas
import Verif.Phonon.Writer
import Verif.Phonon.YamlSpec

namespace Verif.Phonon.Spec
open Verif.Py Verif.IO Verif.IO.Spec

/-- A q-point: fractional coordinates, weight, and for each band the frequencies at the volumes. -/
structure Point where
  coords : Fin 3 → ℚ
  weight : ℤ
  bands : List (List ℚ)

/-- The data that an input has to contain. -/
structure Content where
  natom : ℕ
  dim : Fin 3 → Fin 3 → ℤ
  volumes : List ℚ
  energies : List ℚ
  points : List Point

/-- Data of at least one volume, of at least one atom and q-point, with three bands per atom and one
frequency and one energy per volume. -/
structure Complete (d : Content) : Prop where
  atoms : 0 < d.natom
  some_volume : d.volumes ≠ []
  energies : d.energies.length = d.volumes.length
  some_point : d.points ≠ []
  bands : ∀ p ∈ d.points, p.bands.length = 3 * d.natom
  freqs : ∀ p ∈ d.points, ∀ f ∈ p.bands, f.length = d.volumes.length

/-- The data that the calculations `cs` provide: volumes, energies and frequencies of all of them in this
order, everything else from the calculation `ref`. -/
structure Provides (cs : List Calc) (ref : Calc) (d : Content) : Prop where
  natom : ref.natom = d.natom
  dim : ∀ i j, ref.dim i j = d.dim i j
  volumes : d.volumes = cs.map fun c => c.volume
  energies : d.energies = cs.map fun c => c.energy
  qpoints : ref.qpoints = d.points.length
  coords : ∀ (i : ℕ) (p : Point), d.points[i]? = some p → ∃ x, ref.qcoords[i]? = some x ∧
    ∀ k, p.coords k = x k / ref.shrinkf k
  weights : ∀ (i : ℕ) (p : Point), d.points[i]? = some p → ref.weights[i]? = some (p.weight : ℚ)
  nphonon : ∀ p ∈ d.points, p.bands.length = ref.nphonon
  freqs : ∀ (i : ℕ) (p : Point), d.points[i]? = some p → ∀ (j : ℕ) (f : List ℚ), p.bands[j]? = some f →
    List.Forall₂ (fun (c : Calc) y => ∃ row, c.phonons[i]? = some row ∧ row[j]? = some y) cs f

/-- The data that one quasi-harmonic calculation provides. -/
structure ProvidesQha (c : QhaCalc) (d : Content) : Prop where
  natom : c.natom = d.natom
  dim : ∀ i j, c.dim i j = d.dim i j
  points : c.points = d.volumes.length
  volumes : c.volume = d.volumes
  energies : c.energy = d.energies
  qpoints : c.qpoints = d.points.length
  coords : ∀ (i : ℕ) (p : Point), d.points[i]? = some p → ∃ x, c.qcoords[i]? = some x ∧
    ∀ k, p.coords k = x k / c.shrinkf k
  weights : ∀ (i : ℕ) (p : Point), d.points[i]? = some p → c.weights[i]? = some (p.weight : ℚ)
  nphonon : ∀ p ∈ d.points, p.bands.length = c.nphonon
  freqs : ∀ (i : ℕ) (p : Point), d.points[i]? = some p → c.phonons[i]? = some p.bands

/-- A list of floats, each within half a unit of the `d`-th decimal. -/
def FloatsFixed (d : ℕ) (qs : List ℚ) (x : Node) : Prop :=
  ∃ ys : List ℚ, x = .list (ys.map Node.float) ∧ List.Forall₂ (Rounded d) qs ys

/-- A list of floats with `d + 1` significant digits. -/
def FloatsSci (d : ℕ) (qs : List ℚ) (x : Node) : Prop :=
  ∃ ys : List ℚ, x = .list (ys.map Node.float) ∧ List.Forall₂ (Significant d) qs ys

/-- The tree of a q-point. -/
def IsPoint (p : Point) (x : Node) : Prop :=
  (∃ v, Entry x c!"q-position" v ∧ FloatsFixed 7 [p.coords 0, p.coords 1, p.coords 2] v) ∧
  Entry x c!"weight" (.int p.weight) ∧
  ∃ bs, Entry x c!"band" (.list bs) ∧ List.Forall₂ (fun f b => ∃ v, Entry b c!"frequency" v ∧
    FloatsFixed 10 f v) p.bands bs

/-- The tree is the input for the data, with the description `job`: volumes have 8 decimals, energies 13
significant digits, frequencies 10 decimals. -/
structure IsInput (job : Node) (d : Content) (doc : Node) : Prop where
  job : Entry doc c!"job" job
  natom : Entry doc c!"natom" (.int d.natom)
  supercell : Entry doc c!"supercell"
    (.list [.list [.int (d.dim 0 0), .int (d.dim 0 1), .int (d.dim 0 2)],
      .list [.int (d.dim 1 0), .int (d.dim 1 1), .int (d.dim 1 2)],
      .list [.int (d.dim 2 0), .int (d.dim 2 1), .int (d.dim 2 2)]])
  qpoints : Entry doc c!"qpoints" (.int d.points.length)
  volume : ∃ v, Entry doc c!"volume" v ∧ FloatsFixed 8 d.volumes v
  energy : ∃ v, Entry doc c!"energy" v ∧ FloatsSci 12 d.energies v
  phonon : ∃ ps, Entry doc c!"phonon" (.list ps) ∧ List.Forall₂ IsPoint d.points ps

end Verif.Phonon.Spec
