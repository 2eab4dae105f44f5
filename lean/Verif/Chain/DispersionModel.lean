/-
Model of `quantas inpgen ha` on one CRYSTAL quasi-harmonic output (/repo/quantas/IO/qha_writer.py with the reader of
`Verif.Interfaces.CrystalQHA`).
-/
import Verif.Chain.PhononModel
import Verif.Interfaces.CrystalQHA

noncomputable section

namespace Verif.Chain
open Verif.Py Verif.IO Verif.Interfaces Verif.Phonon

/-- The properties of the quasi-harmonic reader that the generator uses (crystal.py:972-1112; qha_writer.py:159-206).
`shrinkf` is never written, and `nphonon` is three times `natom` (crystal.py:1035-1042). -/
def quasiCalcOf (d : QhaData) : Except PyErr QhaCalc :=
  d.natom.bind fun n => d.volumes.map fun vs =>
    { points := d.points, natom := n, dim := fun i j => d.dim i j, qpoints := d.qpoints.toNat, volume := vs,
      energy := d.energies, qcoords := d.qcoords, shrinkf := fun _ => 1, weights := d.weights,
      nphonon := (n * 3).toNat, phonons := d.phonons }

/-- What `CrystalQHAReader(file)` delivers when the dictionary of the class holds `d` (qha_writer.py:48-57).  -/
def readQuasi (d : QhaData) (text : Str) : Except PyErr (Phonon.Outcome (Option QhaError) QhaCalc) :=
  match qhaLoad text d with
  | (_, .error e) => .error e
  | (_, .ok (some e)) => .ok (.failed (some e))
  | (d', .ok none) => (quasiCalcOf d').map .done

/-- A directory of texts, read with the interface `crystal-qha` in a new process.  The other interfaces are not used here. -/
def quasiFiles (disk : Str → Option Str) : Files (Option QhaError) where
  existing := fun f => (disk f).isSome
  single := fun _ _ => .error .valueError
  qha := fun f => match disk f with
    | some text => readQuasi QhaData.initial text
    | none => .error .valueError
  lines := fun f => readlines ((disk f).getD [])

end Verif.Chain
