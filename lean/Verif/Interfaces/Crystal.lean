/-
CrystalPhononReader (quantas/interfaces/crystal.py:44-772) on the lines of an output file.

Every helper of the class opens the file again; the model passes the lines.  `_data` is created anew
by `load`, so the reader has no state from earlier files.  Numbers are exact rationals.  The `while`
loop of `set_phonons` may run for ever; it is modelled with a bound `fuel` on the number of its
iterations, and the result `none` means that the bound was reached.
-/
import Mathlib.LinearAlgebra.Matrix.NonsingularInverse
import Mathlib.Data.Rat.Floor
import Verif.Interfaces.Soec

noncomputable section

namespace Verif.Interfaces
open Verif.Py Verif.IO

/-! ### Python operations -/

/-- `int(s)`; `none` is ValueError.  Simplification: digits separated by underscores, which Python
accepts, are refused. -/
def parseInt (s : Str) : Option ℤ :=
  let (neg, ds) := takeSign (strip s)
  if ds ≠ [] ∧ ds.all isDigit then some (if neg then -(digitsVal ds : ℤ) else digitsVal ds)
  else none

/-- `l[n]` for `n ≥ 0`. -/
def at_ {α : Type} (l : List α) (n : ℕ) : Except PyErr α :=
  match l[n]? with
  | some x => .ok x
  | none => .error .indexError

/-- `l[-n]` for `n ≥ 1`. -/
def atEnd {α : Type} (l : List α) (n : ℕ) : Except PyErr α :=
  match l.reverse[n - 1]? with
  | some x => .ok x
  | none => .error .indexError

/-- `int(s)`. -/
def toInt (s : Str) : Except PyErr ℤ :=
  match parseInt s with
  | some z => .ok z
  | none => .error .valueError

/-- `float(s)`. -/
def toFloat (s : Str) : Except PyErr ℚ :=
  match parseFloat s with
  | some q => .ok q
  | none => .error .valueError

/-- `int(l[n])` for a list of words. -/
def intAt (ws : List Str) (n : ℕ) : Except PyErr ℤ := (at_ ws n).bind toInt

/-- `float(l[n])` for a list of words. -/
def floatAt (ws : List Str) (n : ℕ) : Except PyErr ℚ := (at_ ws n).bind toFloat

/-- `np.zeros(n)` succeeds for `n ≥ 0` only. -/
def size (n : ℤ) : Except PyErr ℕ := if n < 0 then .error .valueError else .ok n.toNat

/-- A loop over a list that collects results and stops at the first exception. -/
def each {α β : Type} (f : α → Except PyErr β) : List α → Except PyErr (List β)
  | [] => .ok []
  | x :: xs => (f x).bind fun y => (each f xs).bind fun ys => .ok (y :: ys)

/-- `_get_start_line` (crystal.py:759-772); `none` is None. -/
def startLine (p : Str) (data : List Str) : Option ℕ := data.findIdx? (hasSub p)

/-- Arithmetic on `None` raises TypeError. -/
def notNone (n : Option ℕ) : Except PyErr ℕ :=
  match n with
  | some n => .ok n
  | none => .error .typeError

/-! ### Strings (crystal.py:16-31) -/

/-- `geometry_wf`. -/
def geometryWf : Str := c!"GEOMETRY FOR WAVE FUNCTION - "
/-- `supercell_option`. -/
def supercellOption : Str := c!" * SUPERCELL OPTION"
/-- `supercell_expansion`. -/
def supercellExpansion : Str := c!"EXPANSION MATRIX OF PRIMITIVE CELL"
/-- `lattice_vectors`. -/
def latticeVectors : Str := c!"DIRECT LATTICE VECTORS CARTESIAN COMPONENTS"
/-- `frequency_calculation`. -/
def frequencyCalculation : Str :=
  c!"EIGENVALUES (EIGV) OF THE MASS WEIGHTED HESSIAN MATRIX AND HARMONIC"
/-- `scelphono_option`. -/
def scelphonoOption : Str := c!"PHONON FREQUENCIES AT A SET OF K POINTS BY USING A SUPERCELL"
/-- `hess_interpolation`. -/
def hessInterpolation : Str := c!"ACTIVATED INTERPOLATION OF THE HESSIAN UP TO"
/-- `scelphono_qpoints`. -/
def scelphonoQpoints : Str := c!"THAT PERMITS THE CALCULATION OF MODES AT"
/-- `central_energy`. -/
def centralEnergy : Str := c!"    CENTRAL POINT"
/-- `frequency_header`. -/
def frequencyHeader : Str := c!"MODES         EIGV          FREQUENCIES     IRREP"
/-- The title of the table of k points (crystal.py:675). -/
def kTable : Str := c!"K       WEIGHT       COORD"

/-! ### Cells -/

/-- A crystal cell: atomic numbers, fractional coordinates and lattice vectors (rows).  The number
of atoms is the length of the lists. -/
structure Cell where
  numbers : List ℤ
  positions : List (Fin 3 → ℚ)
  lattice : Matrix (Fin 3) (Fin 3) ℚ

/-- The number of atoms. -/
def Cell.natom (c : Cell) : ℕ := c.numbers.length

/-- One atom line (crystal.py:521-524, 574-577, 1355-1358). -/
def atomLine (line : Str) : Except PyErr (ℤ × (Fin 3 → ℚ)) :=
  (intAt (words line) 2).bind fun z =>
  (floatAt (words line) 4).bind fun x =>
  (floatAt (words line) 5).bind fun y =>
  (floatAt (words line) 6).bind fun w => .ok (z, ![x, y, w])

/-- The atom lines `k, …, k + n - 1` (crystal.py:520-524). -/
def atomLines (data : List Str) (k n : ℕ) : Except PyErr (List (ℤ × (Fin 3 → ℚ))) :=
  each (fun i => (at_ data (k + i)).bind atomLine) (List.range n)

/-- Assignment of an array to a row of a 3×3 array: three numbers, or one number repeated
(numpy broadcasting; crystal.py:582-583, 622). -/
def row3 (ws : List Str) : Except PyErr (Fin 3 → ℚ) :=
  (each toFloat ws).bind fun qs =>
    match qs with
    | [x, y, z] => .ok ![x, y, z]
    | [x] => .ok ![x, x, x]
    | _ => .error .valueError

/-- Three consecutive rows. -/
def rows3 (data : List Str) (k : ℕ) (drop : ℕ) : Except PyErr (Matrix (Fin 3) (Fin 3) ℚ) :=
  ((at_ data k).bind fun l => row3 ((words l).drop drop)).bind fun a =>
  ((at_ data (k + 1)).bind fun l => row3 ((words l).drop drop)).bind fun b =>
  ((at_ data (k + 2)).bind fun l => row3 ((words l).drop drop)).bind fun c =>
    .ok (Matrix.of ![a, b, c])

/-- The lattice vectors below the first title at line `k` or later; zero when there is none
(crystal.py:572, 579-584). -/
def latticeFrom (data : List Str) (k : ℕ) : Except PyErr (Matrix (Fin 3) (Fin 3) ℚ) :=
  match startLine latticeVectors (data.drop k) with
  | none => .ok 0
  | some i => rows3 data (k + i + 2) 0

/-- The geometry printed below line `sline`: number of atoms at the end of line `sline + 8`, atoms
from `sline + 11` on, then the lattice vectors (crystal.py:568-586, 1349-1367). -/
def geometryAt (data : List Str) (sline : ℕ) : Except PyErr Cell :=
  ((at_ data (sline + 8)).bind fun l => (atEnd (words l) 1).bind toInt).bind fun n =>
  (size n).bind fun n =>
  (atomLines data (sline + 11) n).bind fun atoms =>
  (latticeFrom data (sline + 11 + n)).bind fun lat =>
    .ok ⟨atoms.map (·.1), atoms.map (·.2), lat⟩

/-- `set_wf_cell` (crystal.py:528-586). -/
def setWfCell (data : List Str) : Except PyErr Cell :=
  (notNone (startLine geometryWf data)).bind (geometryAt data)

/-- `set_init_cell` (crystal.py:485-526): the offsets are one less, the lattice is zero. -/
def setInitCell (data : List Str) : Except PyErr Cell :=
  (notNone (startLine geometryConsistent data)).bind fun sline =>
  ((at_ data (sline + 7)).bind fun l => (atEnd (words l) 1).bind toInt).bind fun n =>
  (size n).bind fun n =>
  (atomLines data (sline + 10) n).bind fun atoms =>
    .ok ⟨atoms.map (·.1), atoms.map (·.2), 0⟩

/-- A row of the expansion matrix: the first word is removed; `del` on an empty list raises
IndexError (crystal.py:620-622). -/
def labelledRow (line : Str) : Except PyErr (Fin 3 → ℚ) :=
  match words line with
  | [] => .error .indexError
  | _ :: ws => row3 ws

/-- `set_expansion` (crystal.py:588-623, 1155-1190). -/
def setExpansion (data : List Str) : Except PyErr (Matrix (Fin 3) (Fin 3) ℚ) :=
  (notNone (startLine supercellExpansion data)).bind fun sline =>
    ((at_ data (sline + 1)).bind labelledRow).bind fun a =>
    ((at_ data (sline + 2)).bind labelledRow).bind fun b =>
    ((at_ data (sline + 3)).bind labelledRow).bind fun c => .ok (Matrix.of ![a, b, c])

/-! ### Mesh, energy -/

/-- What `set_q_mesh` returns; the number of points is the length of the lists. -/
structure Mesh where
  coords : List (Fin 3 → ℚ)
  weights : List ℚ
  shrink : Fin 3 → ℚ

/-- One line of the table of k points (crystal.py:679-682). -/
def qLine (line : Str) : Except PyErr (ℚ × (Fin 3 → ℚ)) :=
  (floatAt (words line) 2).bind fun w =>
  (floatAt (words line) 3).bind fun x =>
  (floatAt (words line) 4).bind fun y =>
  (floatAt (words line) 5).bind fun z => .ok (w, ![x, y, z])

/-- The last line with the title of the table of k points, if any (crystal.py:674-676). -/
def lastTable (data : List Str) : Option ℕ :=
  ((List.range data.length).filter fun i => (data[i]?.map (hasSub kTable)).getD false).getLast?

/-- The line where the table of k points starts (crystal.py:671-676). -/
def meshStart (data : List Str) (hess : Bool) (sline : ℕ) : ℕ :=
  if hess then sline + 9
  else match lastTable data with
    | some i => i + 1
    | none => sline

/-- `set_q_mesh` (crystal.py:625-690). -/
def setQMesh (data : List Str) : Except PyErr Mesh :=
  let hess := (startLine hessInterpolation data).isSome
  let sline := if hess then startLine hessInterpolation data else startLine scelphonoQpoints data
  (notNone sline).bind fun sline =>
  ((at_ data sline).bind fun l => (atEnd (words l) 4).bind toInt).bind fun n =>
  (size n).bind fun n =>
    let k := meshStart data hess sline
    (each (fun i => (at_ data (k + i)).bind qLine) (List.range n)).bind fun pts =>
    (at_ data (k + n)).bind fun l =>
    (floatAt (words l) 6).bind fun a =>
    (floatAt (words l) 9).bind fun b =>
    (floatAt (words l) 12).bind fun c =>
      .ok ⟨pts.map (·.2), pts.map (·.1), ![a, b, c]⟩

/-- `set_energy` (crystal.py:692-715).  `data[None]` raises TypeError. -/
def setEnergy (data : List Str) : Except PyErr ℚ :=
  (notNone (startLine centralEnergy data)).bind fun sline =>
  (at_ data sline).bind fun l => floatAt (words l) 2

/-! ### Phonons -/

/-- Variables of the `while` loop (crystal.py:730-733): the flag, the line counter and the part of
the band filled so far, whose length is `freq_counter`. -/
structure BandState where
  finished : Bool
  line : ℕ
  band : List ℚ

/-- The loop over the degenerate modes of a line (crystal.py:745-747): the number is read again for
every mode, and writing past the end of the band raises IndexError. -/
def addModes (n : ℕ) (ws : List Str) : ℕ → List ℚ → Except PyErr (List ℚ)
  | 0, band => .ok band
  | k + 1, band =>
    (floatAt ws 3).bind fun q =>
      if band.length < n then addModes n ws k (band ++ [q]) else .error .indexError

/-- A line of the table (crystal.py:742-747). -/
def modeLine (n : ℕ) (ws : List Str) (band : List ℚ) : Except PyErr (List ℚ) :=
  ((at_ ws 0).bind fun w => toInt w.dropLast).bind fun n1 =>
  (intAt ws 1).bind fun n2 => addModes n ws (n2 - n1 + 1).toNat band

/-- The `while` loop (crystal.py:735-749) with at most `fuel` iterations; `none` when that is not
enough. -/
def bandLoop (data : List Str) (i n : ℕ) : ℕ → BandState → Option (Except PyErr (List ℚ))
  | 0, _ => none
  | fuel + 1, s =>
    if s.finished = true ∧ s.band.length = n then some (.ok s.band)
    else match at_ data (i + s.line + 2) with
      | .error e => some (.error e)
      | .ok l =>
        if words l = [] then bandLoop data i n fuel { s with finished := true }
        else match modeLine n (words l) s.band with
          | .error e => some (.error e)
          | .ok band => bandLoop data i n fuel { s with line := s.line + 1, band := band }

/-- The `for` loop of `set_phonons` (crystal.py:726-755) from line `i` on. -/
def phononsFrom (fuel : ℕ) (data : List Str) (n qpoints : ℕ) :
    ℕ → List Str → List (List ℚ) → Option (Except PyErr (List (List ℚ)))
  | _, [], bands => some (.ok bands)
  | i, l :: ls, bands =>
    if hasSub frequencyHeader l then
      match bandLoop data i n fuel ⟨false, 0, []⟩ with
      | none => none
      | some (.error e) => some (.error e)
      | some (.ok band) =>
        if (bands ++ [band]).length = qpoints then some (.ok (bands ++ [band]))
        else phononsFrom fuel data n qpoints (i + 1) ls (bands ++ [band])
    else phononsFrom fuel data n qpoints (i + 1) ls bands

/-- `set_phonons` (crystal.py:717-757). -/
def setPhonons (fuel : ℕ) (data : List Str) (n qpoints : ℕ) :
    Option (Except PyErr (List (List ℚ))) :=
  phononsFrom fuel data n qpoints 0 data []

/-! ### The reader -/

/-- The errors reported by the reader (crystal.py:90, 123, 126, 129). -/
inductive PhononError | notOutput | noEnergy | noLattice | noPhonons
  deriving DecidableEq

/-- The reader after `load` (crystal.py:75-87 and the flags). -/
structure PhononReader where
  supercellOn : Bool
  scelphonoOn : Bool
  unitcell : Cell
  supercell : Cell
  dim : Matrix (Fin 3) (Fin 3) ℚ
  rawEnergy : ℚ
  mesh : Mesh
  qpoints : ℕ
  phonons : List (List ℚ)
  completed : Bool
  error : Option PhononError

/-- The cell the properties refer to (crystal.py:267-308, 324-337). -/
def PhononReader.cell (r : PhononReader) : Cell :=
  if r.supercellOn ∧ ¬ r.scelphonoOn then r.supercell else r.unitcell

/-- `natom` (crystal.py:267-280). -/
def PhononReader.natom (r : PhononReader) : ℕ := r.cell.natom

/-- `nphonon` (crystal.py:324-337). -/
def PhononReader.nphonon (r : PhononReader) : ℕ := r.cell.natom * 3

/-- `volume` (crystal.py:296-308). -/
def PhononReader.volume (r : PhononReader) : ℚ := r.cell.lattice.det

/-- `kpoints` (crystal.py:400-406): the determinant of the expansion matrix, rounded. -/
def kpointsOf (dim : Matrix (Fin 3) (Fin 3) ℚ) : ℤ := roundHalfEven dim.det

/-- `energy` (crystal.py:310-322). -/
def PhononReader.energy (r : PhononReader) : Except PyErr ℚ :=
  if r.supercellOn ∧ ¬ r.scelphonoOn then .ok r.rawEnergy
  else if kpointsOf r.dim = 0 then .error .zeroDivision
  else .ok (r.rawEnergy / kpointsOf r.dim)

/-- A reader after the initialisation of `_data` (crystal.py:75-87). -/
def PhononReader.empty : PhononReader :=
  { supercellOn := false, scelphonoOn := false, unitcell := ⟨[], [], 0⟩, supercell := ⟨[], [], 0⟩,
    dim := 1, rawEnergy := 0, mesh := ⟨[], [], 1⟩, qpoints := 1, phonons := [], completed := false,
    error := none }

/-- The geometry and mesh of a supercell calculation (crystal.py:98-105).  The lattice of the unit
cell is the lattice of the supercell times the inverse of the expansion matrix; a singular matrix
raises LinAlgError (a ValueError). -/
def loadSupercell (data : List Str) (r : PhononReader) : Except PyErr PhononReader :=
  (setWfCell data).bind fun sc =>
  (setInitCell data).bind fun uc =>
  (setExpansion data).bind fun dim =>
    if dim.det = 0 then .error .valueError
    else (setQMesh data).bind fun mesh =>
      .ok { r with
        supercell := sc
        unitcell := { uc with lattice := sc.lattice * dim⁻¹ }
        dim := dim
        mesh := mesh
        qpoints := mesh.weights.length }

/-- The geometry and mesh of other calculations (crystal.py:107-111). -/
def loadUnitcell (data : List Str) (r : PhononReader) : Except PyErr PhononReader :=
  (setWfCell data).bind fun c =>
    .ok { r with unitcell := c, supercell := c, mesh := Mesh.mk [![0, 0, 0]] [1] r.mesh.shrink }

/-- `_check` (crystal.py:119-132). -/
def PhononReader.check (r : PhononReader) : Except PyErr PhononReader :=
  r.energy.bind fun e =>
    if e = 0 then .ok { r with error := some .noEnergy }
    else if r.cell.lattice = 0 then .ok { r with error := some .noLattice }
    else if r.phonons = [] then .ok { r with error := some .noPhonons }
    else .ok { r with completed := true }

/-- `load` (crystal.py:64-117) up to the phonons. -/
def loadCell (data : List Str) : Except PyErr PhononReader :=
  let r := { PhononReader.empty with
    supercellOn := data.any (hasSub supercellOption)
    scelphonoOn := data.any (hasSub scelphonoOption) }
  ((if r.supercellOn then loadSupercell data r else loadUnitcell data r)).bind fun r =>
  (setEnergy data).bind fun e => .ok { r with rawEnergy := e }

/-- `load` (crystal.py:64-117) on the lines of a file. -/
def loadPhononLines (fuel : ℕ) (data : List Str) : Option (Except PyErr PhononReader) :=
  if !data.any (hasSub frequencyCalculation) then
    some (.ok { PhononReader.empty with error := some .notOutput })
  else match loadCell data with
    | .error e => some (.error e)
    | .ok r =>
      match setPhonons fuel data r.nphonon r.qpoints with
      | none => none
      | some (.error e) => some (.error e)
      | some (.ok bands) => some ({ r with phonons := bands }.check)

/-- The same on the text of the file. -/
def loadPhonon (fuel : ℕ) (text : Str) : Option (Except PyErr PhononReader) :=
  loadPhononLines fuel (readlines text)

end Verif.Interfaces
