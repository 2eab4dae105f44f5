/-
Model of `quantas inpgen ha` on phonopy calculations (/repo/quantas/IO/qha_writer.py with the reader of `Verif.Phonon.Phonopy`).
-/
import Verif.Chain.PhononModel
import Verif.Export.Exporter

noncomputable section

namespace Verif.Chain
open Verif.Py Verif.IO Verif.Interfaces Verif.Phonon Verif.Units

/-- A directory: what the YAML library makes of each file, the names and texts of the elements `calculation/energy/i` of each XML
file, and the texts of the lists of files. -/
structure Folder where
  yaml : Str → Option YamlFile
  xml : Str → Option (List (Str × Str))
  text : Str → Option Str

/-- The files of the calculation whose phonopy output is `file` (phonopy.py:84, 93, 101). -/
def calculationFiles (d : Folder) (file : Str) : PhonopyFiles where
  disp := d.yaml (Export.splitext file ++ c!"_disp.yaml")
  vasprun := d.xml (Export.splitext file ++ c!".xml")
  output := d.yaml file

/-- A rational number among the reals; zero for the others.  Simplification: the numbers of the generator are exact rationals, and
the wavenumbers are, because the speed of light is. -/
def rational (x : ℝ) : ℚ := open Classical in if h : ∃ q : ℚ, (q : ℝ) = x then h.choose else 0

/-- The three coordinates of a point (qha_writer.py:137-139). -/
def vector3 : Node → Except PyErr (Fin 3 → ℚ)
  | .list [a, b, c] => (number a).bind fun x => (number b).bind fun y => (number c).map fun z => ![x, y, z]
  | _ => .error .typeError

/-- The properties of the phonopy reader that the generator uses (phonopy.py:152-203; qha_writer.py:112-153): the matrix of the
displacement file is identity when it was not set (phonopy.py:71), the shrinking factors are ones (phonopy.py:79). -/
def phonopyCalcOf (r : Phonopy) : Except PyErr Calc :=
  r.natom.bind fun n => r.volume.bind fun v =>
  ((r.expansion.map matrix3).getD (.ok 1)).bind fun dim =>
  (each number r.weights).bind fun ws => (each vector3 r.qcoords).map fun xs =>
    { natom := n, dim := fun i j => dim i j, qpoints := r.qpoints, volume := v, energy := r.energy, qcoords := xs,
      shrinkf := fun _ => 1, weights := ws, nphonon := r.nphonon, phonons := r.phonons.map fun f => f.map rational }

/-- What `PhonopyReader(file)` delivers (qha_writer.py:64-73). -/
def readPhonopy (k : Consts) (d : Folder) (file : Str) : Except PyErr (Phonon.Outcome (Option PhonopyError) Calc) :=
  (phonopyLoad k (calculationFiles d file)).bind fun r =>
    if r.completed then (phonopyCalcOf r).map .done else .ok (.failed r.error)

/-- A directory read with the interface `phonopy`.  The other interfaces are not used here. -/
def phonopyFiles (k : Consts) (d : Folder) : Files (Option PhonopyError) where
  existing := fun f => (d.yaml f).isSome
  single := fun _ f => readPhonopy k d f
  qha := fun _ => .error .valueError
  lines := fun f => readlines ((d.text f).getD [])

end Verif.Chain
