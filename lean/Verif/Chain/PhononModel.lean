/-
Model of the two commands of a harmonic analysis: `quantas inpgen ha` on CRYSTAL outputs (the generator of
`Verif.Phonon.Writer` with the reader of `Verif.Interfaces.Crystal`), and `quantas ha` on the generated input
(/repo/quantas/harmonic/harmonic.py: `read_input` and `run`).
-/
import Verif.Phonon.Reader
import Verif.Phonon.Writer
import Verif.HA.Model

noncomputable section

namespace Verif.Chain
open Verif.Py Verif.IO Verif.Interfaces Verif.Phonon Verif.Units

/-- The properties of the CRYSTAL reader that the generator uses (crystal.py:267-337, 384-460; qha_writer.py:112-153). -/
def calcOf (r : PhononReader) : Except PyErr Calc :=
  r.energy.map fun e =>
    { natom := r.natom, dim := fun i j => r.dim i j, qpoints := r.qpoints, volume := r.volume, energy := e,
      qcoords := r.mesh.coords, shrinkf := r.mesh.shrink, weights := r.mesh.weights, nphonon := r.nphonon,
      phonons := r.phonons }

/-- What `CrystalPhononReader(file)` delivers (qha_writer.py:64-73).  Reading may never end (C59): at most `fuel` steps of
its loop are made, and when they are not enough the outcome is shown as an exception. -/
def readCrystal (fuel : ℕ) (text : Str) : Except PyErr (Phonon.Outcome (Option PhononError) Calc) :=
  match loadPhonon fuel text with
  | none => .error .notImplemented
  | some (.error e) => .error e
  | some (.ok r) => if r.completed then (calcOf r).map .done else .ok (.failed r.error)

/-- A directory of texts, read with the interface `crystal`.  The other interfaces are not used here. -/
def crystalFiles (fuel : ℕ) (disk : Str → Option Str) : Files (Option PhononError) where
  existing := fun f => (disk f).isSome
  single := fun _ f => match disk f with
    | some text => readCrystal fuel text
    | none => .error .valueError
  qha := fun _ => .error .valueError
  lines := fun f => readlines ((disk f).getD [])

/-- An element of an array of the input.  Simplifications: nan counts as 0, and so do elements that are missing because the
arrays of the input have different lengths (Cython does not check); the theorems exclude both. -/
def element (l : List Fl) (i : ℕ) : ℝ := (((l[i]?).getD none).getD 0 : ℚ)

/-- The elements of an array of one dimension. -/
def elements : Arr → List Fl
  | .scalar x => [x]
  | .vec l => l

/-- `HACalculator.read_input` and `run` in a new process (harmonic.py:139-158, 211-294): the error of the reader, or the number
of volumes and the results. -/
def harmonic {nt : ℕ} (k : Consts) (s : HA.Settings nt) (input : Loaded) :
    Except PyErr (Except (Option InputError) (Σ nv, HA.Results nt nv)) := do
  let r ← Reader.load {} input
  if r.completed then
    let w ← r.weights
    let f ← r.frequencies
    let n ← r.natoms
    let nv ← r.nvol
    let e ← r.energy
    let x : HA.Input w.length (3 * n.toNat) nv :=
      { U0 := fun i => element (elements e) i
        freq := fun j m i => element (((f[(j : ℕ)]?).getD [])[(m : ℕ)]?.getD []) i
        weights := fun j => element w j }
    let res ← HA.run k s x
    pure (.ok ⟨nv, res⟩)
  else pure (.error r.error)

end Verif.Chain
