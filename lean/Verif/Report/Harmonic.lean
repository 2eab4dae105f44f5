/-
Report of the input of a harmonic run (/repo/quantas/harmonic/harmonic.py) and acceptance of the input of a
quasi-harmonic run (/repo/quantas/qha/qha.py).  Numbers are exact rationals.
-/
import Verif.Phonon.Reader
import Verif.Report.Concise
import Verif.Report.EosFit

noncomputable section

namespace Verif.Report
open Verif.Py Verif.IO Verif.Phonon Verif.Export Verif.Interfaces

/-- The determinant of an array of three rows of three numbers, `np.linalg.det`: ValueError for other shapes (LinAlgError is a
ValueError). -/
def det3 : List (List ℚ) → Except PyErr ℚ
  | [[a, b, c], [d, e, f], [g, h, i]] => .ok (a * (e * i - f * h) - b * (d * i - f * g) + c * (d * h - e * g))
  | _ => .error .valueError

/-- A number of a matrix. -/
def entryOf : Node → Except PyErr ℚ
  | .int n => .ok n
  | .float q => .ok q
  | _ => .error .typeError

/-- The matrix behind a list of lists of numbers. -/
def matrixOf (x : Node) : Except PyErr (List (List ℚ)) :=
  (iterate x).bind (each fun row => (iterate row).bind (each entryOf))

/-- `kpoints` (qha_reader.py:119-121). -/
def kpoints (r : Reader) : Except PyErr ℤ :=
  (get r.data c!"supercell").bind fun x => (matrixOf x).bind fun m => (det3 m).bind fun d => .ok (roundHalfEven d)

/-- `int(x)`: towards zero. -/
def truncate (x : ℚ) : ℤ := if x < 0 then ⌈x⌉ else ⌊x⌋

/-- `int(natoms * 3 * total_q_points)` (harmonic.py:173-175). -/
def frequencyCount (n : ℤ) : Fl → Except PyErr ℤ
  | some w => .ok (truncate (n * 3 * w))
  | none => .error .valueError

/-- `'- {0:40} {1}'`. -/
def itemLine (label : Str) (n : ℤ) : Str := c!"- " ++ alignLeft 40 label ++ c!" " ++ showInt n

/-- `x[i]`: a number cannot be indexed (NumPy raises IndexError). -/
def Arr.at (i : ℕ) : Arr → Except PyErr Fl
  | .scalar _ => .error .indexError
  | .vec l => at_ l i

/-- A number or `nan` in a field of width `w`. -/
def cellNum (w : ℕ) (f : ℚ → Str) : Fl → Str
  | some q => center w (f q)
  | none => center w c!"nan"

/-- The line of one volume (harmonic.py:180-182). -/
def volumeLine (v e : Arr) (i : ℕ) : Except PyErr Str := do
  let x ← Arr.at i v
  let y ← Arr.at i e
  .ok (c!" " ++ cellNum 15 (formatFixed 6) x ++ c!" " ++ cellNum 30 (sciLower 12) y)

/-- `report_input_data` of the harmonic calculator (harmonic.py:158-184). -/
def reportHarmonicInput (eunit vunit : Str) (r : Reader) : Except PyErr (List Str) := do
  let job ← r.jobname
  let nvol ← r.nvol
  let natoms ← r.natoms
  let kpts ← kpoints r
  let w ← r.totalQPoints
  let nfreq ← frequencyCount natoms w
  let v ← r.volume
  let e ← r.energy
  let rows ← collect ((List.range nvol).map (volumeLine v e))
  .ok ([[], c!"Job: " ++ job, [], c!"System:", itemLine c!"Number of volumes" nvol,
    itemLine c!"Number of atoms" natoms, itemLine c!"Number of sampled k-points" kpts,
    itemLine c!"Number of frequencies" nfreq, [], c!"Volume and energy values:\n",
    c!" " ++ center 15 (c!"Volume (" ++ vunit ++ c!"^3)") ++ c!" " ++ center 30 (c!"Energy (" ++ eunit ++ c!")"),
    c!" " ++ dashes 15 ++ c!" " ++ dashes 30] ++ rows ++ [[]])

/-- What `QHACalculator.read_input` tells (qha.py:335-344): an error of the reader, too few volumes, or nothing. -/
inductive Refusal
  | input (e : Option Phonon.InputError)
  | volumes

/-- `read_input` of the quasi-harmonic calculator (qha.py:316-344) after the file has been read; `len` of a number is a
TypeError. -/
def acceptInput (r : Reader) : Except PyErr (Option Refusal) :=
  if r.completed = false then .ok (some (.input r.error))
  else r.volume.bind fun v =>
    match v with
    | .scalar _ => .error .typeError
    | .vec l => .ok (if l.length < 4 then some .volumes else none)

end Verif.Report
