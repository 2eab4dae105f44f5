/-
The result file of the seismic calculator (quantas/seismic/seismic.py), its exporter
(quantas/seismic/utils/export.py) and the four commands of the exporters (…/commands/cmd_export.py).

Numbers are exact rationals (no nan, no inf, no negative zero).
-/
import Verif.Export.Elastic

noncomputable section

namespace Verif.Export
open Verif.Py Verif.IO Verif.Interfaces Verif.Phonon

/-! ### The result file -/

/-- `info` (seismic.py:260-285). -/
def seismicInfo (punit : Str) : Str :=
  c!"\nThis file was created with Quantas.\n\nIt contains the results of the Christoffel equation appliet to the second-order\nelastic constants (SOECs, matrix in Voigt's notation), performed with the\nfollowing settings:\n  - pressure scale:    " ++
  punit ++ c!"\n  - density: kg m^-3\n\nThis file contains three datasets:\n  - slow secondary data (ssecondary)\n  - fast secondary data (fsecondary)\n  - primary data (primary)\n\nEach dataset contains the following results (measurement unit):\n  - Column 1     : Theta angle (rad)\n  - Column 2     : Phi angle (rad)\n  - Column 3     : Phase velocity (km s^-1)\n  - Column 4     : Relative phase velocity (%)\n  - Columns 5-7  : Phase polarization (x,y,z)\n  - Column 8     : Group velocity (km s^-1)\n  - Column 9     : Relative group velocity (%)\n  - Columns 10-12: x, y, and z coordinates of the ray surface\n  - Column 13    : Powerflow angle (degree)\n  - Column 14    : Enhancement factor (log_10A)\n"

/-- `export_hdf5` of the seismic calculator (seismic.py:259-298), as h5py lists it. -/
def saveSeismic (punit : Str) (slow fast primary : List (List ℚ)) : H5 :=
  ⟨[(c!"info", seismicInfo punit)],
    byName [(c!"ssecondary", ⟨.mat slow, []⟩), (c!"fsecondary", ⟨.mat fast, []⟩), (c!"primary", ⟨.mat primary, []⟩)]⟩

/-! ### Loading -/

/-- The dictionary `data` of the class: the values, once they have been read. -/
abbrev WaveData := List (Str × Option Values)

/-- The loop over the data sets (seismic/utils/export.py:55-57). -/
def loadWaves : List (Str × Dataset) → WaveData → WaveData × Except PyErr Unit
  | [], d => (d, .ok ())
  | (key, ds) :: rest, d =>
    let d := assign d key none
    match ds.values.slice with
    | .error e => (d, .error e)
    | .ok v => loadWaves rest (assign d key (some v))

/-- `load` (seismic/utils/export.py:35-59); `notHa` stands for the text of lines 51-52. -/
def loadSeismic (d : WaveData) (filename : Str) (f : H5) : WaveData × Except PyErr Exporter :=
  let e : Exporter := { basename := splitext filename }
  match item f.attrs c!"info" with
  | .error _ => (d, .ok { e with error := some .notQuantas })
  | .ok info =>
    let e := { e with info := info }
    match valuesOf f c!"primary" with
    | .error .keyError => (d, .ok { e with error := some .notHa })
    | .error err => (d, .error err)
    | .ok _ =>
      let e := { e with keys := [c!"ssecondary", c!"fsecondary", c!"primary"] }
      let (d, r) := loadWaves f.sets d
      (d, r.map fun _ => e)

/-! ### The text -/

/-- `str.splitlines()`.  Simplification: the newline is the only line boundary. -/
def splitlines : Str → List Str
  | [] => []
  | c :: cs =>
    if c = '\n' then [] :: splitlines cs
    else match splitlines cs with
      | [] => [[c]]
      | l :: ls => (c :: l) :: ls

/-- Aligned to the right in a field of `w` characters: `'{: >w}'`. -/
def alignRight (w : ℕ) (s : Str) : Str := List.replicate (w - s.length) ' ' ++ s

/-- The widths and the decimals of `dl` (seismic/utils/export.py:21-22). -/
def waveFormats : List (ℕ × ℕ) :=
  [(8, 6), (8, 6), (9, 5), (8, 3), (8, 4), (8, 4), (8, 4), (9, 5), (8, 3), (9, 5), (9, 5), (9, 5), (9, 4), (9, 4)]

/-- `dl.format(*line)`: numbers in excess are ignored. -/
def waveLine (row : List ℚ) : Except PyErr Str :=
  if row.length < 14 then .error .indexError
  else .ok (List.intercalate [' '] (List.zipWith (fun f x => alignRight f.1 (formatFixed f.2 x)) waveFormats row) ++ ['\n'])

/-- The header (seismic/utils/export.py:83-92). -/
def waveHeader (info selection : Str) : Except PyErr Str :=
  let lines := splitlines info
  if lines.length ≤ 9 then .error .indexError
  else .ok <| ((lines.set 9 c!"This file contains the following dataset:").filter fun line =>
    !(hasSub c!" data " line && !hasSub selection line)).flatMap (· ++ ['\n'])

/-! ### The dialogue -/

/-- The loop over the dictionary (seismic/utils/export.py:73-75): the last key that contains the selection.
KeyError when its values could not be read. -/
def pick (selection : Str) : WaveData → Option Values → Except PyErr (Option Values)
  | [], l => .ok l
  | (key, v) :: rest, l =>
    if hasSub selection key then (known v).bind fun v => pick selection rest (some v)
    else pick selection rest l

/-- `data.shape` with two numbers, and the rows. -/
def twoDimensional : Option Values → Except PyErr (List (List ℚ))
  | none => .error .unboundLocal
  | some (.mat rows) => .ok rows
  | some _ => .error .valueError

/-- `run` (seismic/utils/export.py:61-106), from the value that `data` has.  `click.Choice` asks again for a
selection that is not offered. -/
def runSeismic (d : WaveData) (e : Exporter) : Option Values → List Answer → Disk → Disk × Ended
  | _, [], disk => (disk, .waiting)
  | l, a :: rest, disk =>
    if a.selection ∈ e.keys then
      match pick a.selection d l with
      | .error err => (disk, .crashed err)
      | .ok l =>
        match (waveHeader e.info a.selection).bind fun h => (twoDimensional l).map fun rows => (h, rows) with
        | .error err => (disk, .crashed err)
        | .ok (h, rows) =>
          let w := writeAll (.ok h :: .ok c!"\n\n" :: rows.map waveLine)
          let disk' := Function.update disk (outfileOf e disk a) (some w.text)
          match w.error with
          | some err => (disk', .crashed err)
          | none => if a.more then runSeismic d e l rest disk' else (disk', .finished)
    else runSeismic d e l rest disk

/-! ### The commands -/

/-- How a command of an exporter ends: with an error message, by an exception, or with the dialogue. -/
inductive Outcome
  | refused (e : LoadError)
  | crashed (e : PyErr)
  | dialogue (e : Ended)

/-- The commands of the exporters (e.g. soec/commands/cmd_export.py:35-65), after the file has been opened: they
stop when `load` has set `error`. -/
def exportCommand (loaded : Except PyErr Exporter) (run : Exporter → Disk → Disk × Ended) (disk : Disk) : Disk × Outcome :=
  match loaded with
  | .error e => (disk, .crashed e)
  | .ok e =>
    match e.error with
    | some err => (disk, .refused err)
    | none => let (disk, ended) := run e disk; (disk, .dialogue ended)

/-- `quantas export ha` (harmonic/commands/cmd_export.py:37-65). -/
def exportHa (answers : List Answer) (filename : Str) (f : H5) (disk : Disk) : Disk × Outcome :=
  let (s, r) := load harmonic {} filename f
  exportCommand r (fun e => run harmonic s e answers) disk

/-- `quantas export qha` (qha/commands/cmd_export.py:37-64). -/
def exportQha (answers : List Answer) (filename : Str) (f : H5) (disk : Disk) : Disk × Outcome :=
  let (s, r) := load quasiHarmonic {} filename f
  exportCommand r (fun e => run quasiHarmonic s e answers) disk

/-- `quantas export soec` (soec/commands/cmd_export.py:35-65). -/
def exportElastic (answers : List Answer) (filename : Str) (f : H5) (disk : Disk) : Disk × Outcome :=
  let (d, r) := loadElastic [] filename f
  exportCommand r (fun e => runElastic d e none answers) disk

/-- The command of the seismic exporter (seismic/commands/cmd_export.py:37-65). -/
def exportSeismic (answers : List Answer) (filename : Str) (f : H5) (disk : Disk) : Disk × Outcome :=
  let (d, r) := loadSeismic [] filename f
  exportCommand r (fun e => runSeismic d e none answers) disk

end Verif.Export
