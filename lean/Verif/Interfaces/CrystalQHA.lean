/-
CrystalQHAReader (quantas/interfaces/crystal.py:775-1409) on the lines of an output file.

The dictionary `_data` belongs to the class, so that every reader starts from what earlier readers
left there: the model passes it from load to load.  Numbers are exact rationals.
-/
import Verif.Interfaces.Crystal

noncomputable section

namespace Verif.Interfaces
open Verif.Py Verif.IO

/-- `qha_header` (crystal.py:33). -/
def qhaHeader : Str := c!"QUASI-HARMONIC APPROXIMATION"
/-- `qha_freq` (crystal.py:34). -/
def qhaFreq : Str := c!"FREQUENCY #"
/-- `qha_ev` (crystal.py:35). -/
def qhaEv : Str := c!"SORTING VOLUMES/ENERGIES"
/-- `qha_opt` (crystal.py:36). -/
def qhaOpt : Str := c!"FINAL OPTIMIZED GEOMETRY"
/-- `qha_restart` (crystal.py:37). -/
def qhaRestart : Str := c!"READING DATA FROM RESTART UNIT"

/-- The dictionary shared by all readers of the class (crystal.py:794-807).  The dictionaries
`qcoords`, `weights` and `phonons` have the keys 0, 1, … and are lists here; `nphonon`, `supercell`
and `shrinkf` are never written. -/
structure QhaData where
  points : ℕ
  cells : List Cell
  dim : Matrix (Fin 3) (Fin 3) ℚ
  energy : List ℚ
  qpoints : ℤ
  qcoords : List (Fin 3 → ℚ)
  weights : List ℚ
  phonons : List (List (List ℚ))

/-- The dictionary when the module is imported.  Simplification: the initial energy 0. is an empty
list. -/
def QhaData.initial : QhaData := ⟨0, [], 1, [], 1, [], [], []⟩

/-- The errors reported by the reader (crystal.py:818, 824, 829, 836). -/
inductive QhaError | notOutput | noVolumes | fewVolumes | restarted
  deriving DecidableEq

/-- `_get_start_line` of this class (crystal.py:1408-1416): the number of lines when no line
matches. -/
def startOrEnd (p : Str) (data : List Str) : ℕ := data.findIdx (hasSub p)

/-- `set_qha_points` (crystal.py:1122-1153): the number of lines with two words, at most 100. -/
def countPoints : ℕ → List Str → Except PyErr ℕ
  | 0, _ => .ok 0
  | _ + 1, [] => .error .indexError
  | n + 1, l :: ls =>
    if (words l).length ≠ 2 then .ok 0 else (countPoints n ls).map (· + 1)

/-- The first line of the table of volumes and energies. -/
def tableStart (data : List Str) : ℕ := startOrEnd qhaEv data + 4

/-- `set_volume` (column 0) and `set_energy` (column 1; crystal.py:1192-1250). -/
def tableColumn (data : List Str) (points col : ℕ) : Except PyErr (List ℚ) :=
  each (fun i => (at_ data (tableStart data + i)).bind fun l => floatAt (words l) col)
    (List.range points)

/-- `set_unit_cells` (crystal.py:1252-1282) from line `i` on. -/
def unitCellsFrom (data : List Str) : ℕ → List Str → Except PyErr (List Cell)
  | _, [] => .ok []
  | i, l :: ls =>
    if hasSub qhaOpt l then
      (geometryAt data i).bind fun c => (unitCellsFrom data (i + 1) ls).bind fun cs => .ok (c :: cs)
    else unitCellsFrom data (i + 1) ls

/-- `np.isclose(a, b)` with its default tolerances. -/
def isClose (a b : ℚ) : Bool := decide (|a - b| ≤ 1 / 100000000 + 1 / 100000 * |b|)

/-- The list `indexes` (crystal.py:1306-1311). -/
def cellIndexes (cells : List Cell) (vols : List ℚ) : List ℕ :=
  cells.flatMap fun c => (List.range cells.length).filter fun j =>
    (vols[j]?.map (isClose c.lattice.det)).getD false

/-- `set_ordered_cells` (crystal.py:1284-1317). -/
def orderedCells (cells : List Cell) (vols : List ℚ) : Except PyErr (List Cell) :=
  if vols.length < cells.length then .error .indexError
  else each (fun i => match (cellIndexes cells vols).idxOf? i with
      | none => .error .valueError
      | some k => at_ cells k) (List.range cells.length)

/-- The lines where the values of a frequency start (crystal.py:1379-1383). -/
def freqIdx (data : List Str) : List ℕ :=
  ((List.range data.length).filter fun i =>
    (data[i]?.map fun l => hasSub qhaFreq l && ((words l)[0]? == some c!"FREQUENCY")).getD false).map
    (· + 3)

/-- `kpoints` (crystal.py:1009-1015). -/
def QhaData.kpoints (d : QhaData) : ℤ := kpointsOf d.dim

/-- `natom` (crystal.py:1002-1007): `int` truncates the quotient. -/
def QhaData.natom (d : QhaData) : Except PyErr ℤ :=
  (at_ d.cells 0).bind fun c =>
    if d.kpoints = 0 then .error .zeroDivision else .ok ((c.natom : ℤ).tdiv d.kpoints)

/-- `energy` (crystal.py:1017-1023).  Simplification: dividing an array by zero gives zeros instead
of infinities; `load` fails then (`natom`). -/
def QhaData.energies (d : QhaData) : List ℚ := d.energy.map (· / d.kpoints)

/-- `volume` (crystal.py:1025-1033). -/
def QhaData.volumes (d : QhaData) : Except PyErr (List ℚ) :=
  each (fun i => (at_ d.cells i).bind fun c => .ok (c.lattice.det / d.kpoints)) (List.range d.points)

/-- One frequency at all volumes (crystal.py:1386-1388). -/
def freqRow (data : List Str) (points : ℕ) (idx : List ℕ) (i : ℕ) : Except PyErr (List ℚ) :=
  each (fun j => (at_ idx i).bind fun k => (at_ data (k + j)).bind fun l => floatAt (words l) 1)
    (List.range points)

/-- `reshape(q, n, points)` of the rows. -/
def bandsOf (q n : ℕ) (rows : List (List ℚ)) : List (List (List ℚ)) :=
  (List.range q).map fun i => (rows.drop (i * n)).take n

/-- `set_phonons` (crystal.py:1369-1395).  `np.zeros` and `reshape` refuse negative sizes. -/
def qhaPhonons (data : List Str) (d : QhaData) : Except PyErr (List (List (List ℚ))) :=
  d.natom.bind fun n =>
  (size (n * d.qpoints * 3)).bind fun nfreq =>
  (each (freqRow data d.points (freqIdx data)) (List.range nfreq)).bind fun rows =>
    if d.qpoints < 0 then .error .valueError
    else .ok (bandsOf d.qpoints.toNat (n * 3).toNat rows)

/-- Setting the entries 0, 1, … of a dictionary that may hold more (crystal.py:1067-1074,
1083-1090). -/
def overlay {α : Type} (new old : List α) : List α := new ++ old.drop new.length

/-- The part of `load` after the checks (crystal.py:840-854): the dictionary afterwards, also after
an exception, and the exception. -/
def qhaCollect (data : List Str) (d : QhaData) : QhaData × Except PyErr Unit :=
  match (if data.any (hasSub supercellOption) then setExpansion data else .ok d.dim) with
  | .error e => (d, .error e)
  | .ok dim =>
    let d := { d with dim := dim }
    let d := { d with
      qpoints := d.kpoints
      qcoords := overlay (List.replicate d.kpoints.toNat 0) d.qcoords
      weights := overlay (List.replicate d.kpoints.toNat 1) d.weights }
    match (tableColumn data d.points 0).bind fun vols =>
        (unitCellsFrom data 0 data).bind fun cells => orderedCells cells vols with
    | .error e => (d, .error e)
    | .ok cells =>
      let d := { d with cells := cells }
      match tableColumn data d.points 1 with
      | .error e => (d, .error e)
      | .ok energy =>
        let d := { d with energy := energy }
        match qhaPhonons data d with
        | .error e => (d, .error e)
        | .ok bands => ({ d with phonons := bands }, .ok ())

/-- `load` (crystal.py:813-854): the dictionary afterwards, and the error reported (`none`:
completed) or the exception. -/
def qhaLoadLines (data : List Str) (d : QhaData) : QhaData × Except PyErr (Option QhaError) :=
  if !data.any (hasSub qhaHeader) then (d, .ok (some .notOutput))
  else match countPoints 100 (data.drop (tableStart data)) with
    | .error e => (d, .error e)
    | .ok points =>
      let d := { d with points := points }
      if points < 1 then (d, .ok (some .noVolumes))
      else if points < 4 then (d, .ok (some .fewVolumes))
      else if data.any (hasSub qhaRestart) then (d, .ok (some .restarted))
      else match qhaCollect data d with
        | (d, .error e) => (d, .error e)
        | (d, .ok ()) => (d, .ok none)

/-- The same on the text of the file. -/
def qhaLoad (text : Str) (d : QhaData) : QhaData × Except PyErr (Option QhaError) :=
  qhaLoadLines (readlines text) d

end Verif.Interfaces
