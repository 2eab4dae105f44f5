/-
QHAInputCreator (quantas/IO/qha_writer.py): the generator of phonon inputs.

The readers are parameters: a calculation is what the properties of a reader return.  Numbers are exact
rationals.
-/
import Mathlib.Data.Int.Log
import Verif.Chemistry.Model
import Verif.Phonon.Phonopy

noncomputable section

namespace Verif.Phonon
open Verif.Py Verif.IO Verif.Interfaces

/-! ### Formats -/

/-- `'%d' % n`. -/
def showInt (n : ℤ) : Str := (if n < 0 then ['-'] else []) ++ showNat n.natAbs

/-- Left alignment in a field of `w` characters. -/
def alignLeft (w : ℕ) (s : Str) : Str := s ++ List.replicate (w - s.length) ' '

/-- The exponent of a number in scientific notation: a sign and at least two digits. -/
def showExp (e : ℤ) : Str :=
  'E' :: (if e < 0 then '-' else '+') :: (if e.natAbs < 10 then ['0'] else []) ++ showNat e.natAbs

/-- The digits, as one integer, and the exponent of `'{:.dE}'.format(x)`: `d + 1` significant digits
correctly rounded, ties to even. -/
def sciParts (d : ℕ) (x : ℚ) : ℕ × ℤ :=
  if x = 0 then (0, 0)
  else
    let e := Int.log 10 |x|
    let m := (roundHalfEven (|x| * (10 : ℚ) ^ ((d : ℤ) - e))).toNat
    if m = 10 ^ (d + 1) then (10 ^ d, e + 1) else (m, e)

/-- `'{: .dE}'.format(x)`, with a space in place of the sign of a non-negative number. -/
def formatSci (d : ℕ) (x : ℚ) : Str :=
  let (m, e) := sciParts d x
  (if x < 0 then ['-'] else [' ']) ++ showNat (m / 10 ^ d) ++ '.' :: lastDigits d m ++ showExp e

/-! ### Calculations -/

/-- The properties of a reader of one calculation that the generator uses.  Simplification: the
properties of an input that was read completely do not raise. -/
structure Calc where
  natom : ℤ
  dim : Fin 3 → Fin 3 → ℚ
  qpoints : ℕ
  volume : ℚ
  energy : ℚ
  qcoords : List (Fin 3 → ℚ)
  shrinkf : Fin 3 → ℚ
  weights : List ℚ
  nphonon : ℕ
  phonons : List (List ℚ)

/-- The properties of the reader of quasi-harmonic outputs: one file with several volumes. -/
structure QhaCalc where
  points : ℕ
  natom : ℤ
  dim : Fin 3 → Fin 3 → ℚ
  qpoints : ℕ
  volume : List ℚ
  energy : List ℚ
  qcoords : List (Fin 3 → ℚ)
  shrinkf : Fin 3 → ℚ
  weights : List ℚ
  nphonon : ℕ
  phonons : List (List (List ℚ))

/-! ### Writing -/

/-- A row of the expansion matrix (qha_writer.py:115-122, 167-174); `%d` truncates. -/
def dimLine (row : Fin 3 → ℚ) : Str :=
  c!"- [ " ++ alignRight 6 (showInt (truncate (row 0))) ++ c!", " ++
    alignRight 6 (showInt (truncate (row 1))) ++ c!", " ++
    alignRight 6 (showInt (truncate (row 2))) ++ c!" ]"

/-- The items of a line, the last one followed by the closing bracket (qha_writer.py:126-132, 147-151,
178-184, 198-202). -/
def items (f : ℚ → Str) (sep : Str) : List ℚ → Str
  | [] => []
  | [x] => f x ++ c!" ]"
  | x :: y :: rest => f x ++ sep ++ items f sep (y :: rest)

/-- `'{:16.8f}'`. -/
def volumeItem (x : ℚ) : Str := alignRight 16 (formatFixed 8 x)

/-- `'{: 20.12E}'`. -/
def energyItem (x : ℚ) : Str := alignRight 20 (formatSci 12 x)

/-- `'{:16.10f}'`. -/
def freqItem (x : ℚ) : Str := alignRight 16 (formatFixed 10 x)

/-- The first lines (qha_writer.py:112-123, 164-175). -/
def headLines (jobname : Str) (natom : ℤ) (dim : Fin 3 → Fin 3 → ℚ) (qpoints : ℕ) : List Str :=
  [c!"job: " ++ jobname, c!"natom:   " ++ alignLeft 7 (showInt natom), c!"supercell:",
    dimLine (dim 0), dimLine (dim 1), dimLine (dim 2), c!"qpoints: " ++ showNat qpoints]

/-- The lines of volumes and energies (qha_writer.py:124-135, 176-187). -/
def volumeLines (volumes energies : List ℚ) : List Str :=
  [c!"volume: [ " ++ items volumeItem c!"," volumes, c!"energy: [ " ++ items energyItem c!"," energies,
    c!"phonon:"]

/-- A coordinate of a q-point.  Simplification: a shrinking factor of zero, for which NumPy gives inf or
nan, gives zero. -/
def coordItem (x s : ℚ) : Str := alignRight 12 (formatFixed 7 (x / s))

/-- The first lines of a q-point (qha_writer.py:137-140, 189-193); `%d` truncates the weight. -/
def pointHead (x s : Fin 3 → ℚ) (weight : ℚ) : List Str :=
  [c!"- q-position: [ " ++ coordItem (x 0) (s 0) ++ c!", " ++ coordItem (x 1) (s 1) ++ c!", " ++
      coordItem (x 2) (s 2) ++ c!" ]",
    c!"  weight: " ++ alignLeft 5 (showInt (truncate weight)), c!"  band:"]

/-- The lines of band `j` (qha_writer.py:142-152, 195-203). -/
def bandLines (j : ℕ) (freqs : List ℚ) : List Str :=
  [c!"  - # " ++ showNat (j + 1), c!"    frequency: [ " ++ items freqItem c!", " freqs]

/-- The body of the loop over the q-points (qha_writer.py:136-153): `band j` gives the frequencies of a
band. -/
def pointLines (qcoords : List (Fin 3 → ℚ)) (shrinkf : Fin 3 → ℚ) (weights : List ℚ) (nphonon : ℕ)
    (band : ℕ → ℕ → Except PyErr (List ℚ)) (i : ℕ) : Except PyErr (List Str) :=
  (at_ qcoords i).bind fun x => (at_ weights i).bind fun w =>
  (each (fun j => (band i j).map (bandLines j)) (List.range nphonon)).map fun bs =>
  pointHead x shrinkf w ++ bs.flatten ++ [[]]

/-- `write_from_multiple_files` (qha_writer.py:105-157): the text of the file. -/
def writeMultiple (phondata : List Calc) (jobname : Str) (ref : ℤ) : Except PyErr Str :=
  (Chemistry.pyIndex phondata ref).bind fun reference =>
  (each (pointLines reference.qcoords reference.shrinkf reference.weights reference.nphonon
    fun i j => each (fun c : Calc => (at_ c.phonons i).bind fun b => at_ b j) phondata)
    (List.range reference.qpoints)).map fun ps =>
  joinLines (headLines jobname reference.natom reference.dim reference.qpoints ++
    volumeLines (phondata.map Calc.volume) (phondata.map Calc.energy) ++ ps.flatten)

/-- `'… {} …'.format(*values)` with `n` fields: too few values raise IndexError, others are ignored. -/
def formatArgs (n : ℕ) (values : List ℚ) : Except PyErr (List ℚ) :=
  if values.length < n then .error .indexError else .ok (values.take n)

/-- `write_from_single_file` (qha_writer.py:159-208). -/
def writeSingle (c : QhaCalc) (jobname : Str) : Except PyErr Str :=
  (formatArgs c.points c.volume).bind fun vs => (formatArgs c.points c.energy).bind fun es =>
  (each (pointLines c.qcoords c.shrinkf c.weights c.nphonon
    fun i j => (at_ c.phonons i).bind fun b => (at_ b j).bind (formatArgs c.points))
    (List.range c.qpoints)).map fun ps =>
  joinLines (headLines jobname c.natom c.dim c.qpoints ++ volumeLines vs es ++ ps.flatten)

/-! ### Reading -/

/-- The interfaces that `interface_filter` knows (qha_writer.py:27-31). -/
inductive Interface | crystal | crystalQha | phonopy
  deriving DecidableEq

/-- A lookup in `interface_filter` (qha_writer.py:27-31, 64). -/
def interfaceOf (flag : Str) : Except PyErr Interface :=
  if flag = c!"crystal" then .ok .crystal
  else if flag = c!"crystal-qha" then .ok .crystalQha
  else if flag = c!"phonopy" then .ok .phonopy
  else .error .keyError

/-- What a reader delivers for an existing file: an error text (`completed` false), or data.  `ε` are the
error texts of the readers. -/
inductive Outcome (ε α : Type)
  | failed (error : ε)
  | done (data : α)

/-- The file system and the readers: which files exist, what the readers make of a file, and the lines of
a file.  The readers of one calculation are used with `crystal` and `phonopy` only. -/
structure Files (ε : Type) where
  existing : Str → Bool
  single : Interface → Str → Except PyErr (Outcome ε Calc)
  qha : Str → Except PyErr (Outcome ε QhaCalc)
  lines : Str → List Str

/-- The error texts of `read` (qha_writer.py:47, 60, 68). -/
inductive GenError (ε : Type)
  | oneFileOnly
  | missing (file : Str)
  | reader (e : ε)

/-- A generator: its interface and, for `crystal-qha`, the attribute of the instance
(qha_writer.py:40, 71). -/
structure Generator where
  flag : Str
  own : Option QhaCalc := none

/-- The state of the process: `shared` is the list `QHAInputCreator.phondata` of the class
(qha_writer.py:34), to which all generators append (qha_writer.py:73). -/
structure State where
  shared : List Calc

/-- The loop over the files for the interfaces of one calculation per file (qha_writer.py:57-82): the new
state and the outcome. -/
def readEach {ε : Type} (fs : Files ε) (flag : Str) :
    List Str → State → State × Except PyErr (Option (GenError ε))
  | [], s => (s, .ok none)
  | f :: rest, s =>
    if fs.existing f then
      match (interfaceOf flag).bind fun i => fs.single i f with
      | .error e => (s, .error e)
      | .ok (.failed e) => (s, .ok (some (.reader e)))
      | .ok (.done c) => readEach fs flag rest ⟨s.shared ++ [c]⟩
    else (s, .ok (some (.missing f)))

/-- `get_files_from_list` (qha_writer.py:84-91). -/
def filesFromList {ε : Type} (fs : Files ε) (list : Str) : List Str := (fs.lines list).map rstrip

/-- `read` (qha_writer.py:43-82).  The outcome `none` is `(True, None)`, an error is `(False, error)`.
Simplification: the messages on the terminal are left out, and the file of the list exists. -/
def Generator.read {ε : Type} (fs : Files ε) (g : Generator) (s : State) (filename : Str) (isList : Bool) :
    Generator × State × Except PyErr (Option (GenError ε)) :=
  if g.flag = c!"crystal-qha" then
    if isList then (g, s, .ok (some .oneFileOnly))
    else if fs.existing filename then
      match fs.qha filename with
      | .error e => (g, s, .error e)
      | .ok (.failed e) => (g, s, .ok (some (.reader e)))
      | .ok (.done d) => ({ g with own := some d }, s, .ok none)
    else (g, s, .ok (some (.missing filename)))
  else
    let (s', r) := readEach fs g.flag (if isList then filesFromList fs filename else [filename]) s
    (g, s', r)

/-- `write` (qha_writer.py:93-103), for the description typed by the user.  Writing for `crystal-qha`
before a successful reading uses the list of the class, which has no attribute `points`. -/
def Generator.write (g : Generator) (s : State) (jobname : Str) (ref : ℤ) : Except PyErr Str :=
  if g.flag = c!"crystal-qha" then
    match g.own with
    | some d => writeSingle d jobname
    | none => .error .attributeError
  else writeMultiple s.shared jobname ref

/-! ### The command -/

/-- What the user sees of the command: a file was written, an error was reported, or an exception ended
the command. -/
inductive Result (ε : Type)
  | written (outfile text : Str)
  | reported (e : GenError ε)
  | notValid
  | invalidReference
  | crashed (e : PyErr)

/-- The end of the command, once the files are read (cmd_inpgen.py:92-100). -/
def finish (ε : Type) (g : Generator) (s : State) (outfile jobname : Str) (ref : ℤ) : Result ε :=
  if g.flag ≠ c!"crystal-qha" ∧ (s.shared.length : ℤ) < ref then .invalidReference
  else match g.write s jobname (if g.flag = c!"crystal-qha" then 0 else ref) with
    | .ok text => .written outfile text
    | .error e => .crashed e

/-- `quantas inpgen ha` (harmonic/commands/cmd_inpgen.py:52-106) on an existing file.  Simplification: files
that are not text are left out. -/
def inpgen {ε : Type} (fs : Files ε) (s : State) (filename outfile : Str) (isList : Bool) (ref : ℤ)
    (interface jobname : Str) : State × Result ε :=
  match Generator.read fs { flag := interface } s filename isList with
  | (_, s, .error .keyError) => (s, .notValid)
  | (_, s, .error e) => (s, .crashed e)
  | (_, s, .ok (some e)) => (s, .reported e)
  | (g, s, .ok none) => (s, finish ε g s (outfile ++ c!".yaml") jobname ref)

end Verif.Phonon
