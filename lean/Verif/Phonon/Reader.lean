/-
QHAInputFileReader (quantas/IO/qha_reader.py) on the tree loaded from the input file.
-/
import Verif.Phonon.Yaml

noncomputable section

namespace Verif.Phonon
open Verif.Py Verif.IO Verif.Interfaces

/-- What becomes of the input file (qha_reader.py:54-67): PyYAML returns a tree, raises YAMLError, or
the text cannot be decoded. -/
inductive Loaded
  | tree (x : Node)
  | badYaml
  | notText

/-- The texts put in `error` (qha_reader.py:59-67, 75-81). -/
inductive InputError | badYaml | notText | volume | energy | phonon
  deriving DecidableEq

/-- The attributes of the reader; the values of a new reader are those of the class
(core/reader.py:52-54). -/
structure Reader where
  completed : Bool := false
  error : Option InputError := none
  data : Node := .null

/-- The successive tests of `_check` (qha_reader.py:74-84). -/
def checkKeys (r : Reader) : List (Str × InputError) → Except PyErr Reader
  | [] => .ok { r with completed := true }
  | (key, e) :: rest => (contains r.data key).bind fun b =>
      if b then checkKeys r rest else .ok { r with error := some e }

/-- `_check` (qha_reader.py:71-84). -/
def check (r : Reader) : Except PyErr Reader :=
  match r.data with
  | .null => .ok r
  | _ => checkKeys r
      [(c!"volume", .volume), (c!"energy", .energy), (c!"phonon", .phonon)]

/-- `load` (qha_reader.py:43-69). -/
def Reader.load (r : Reader) (input : Loaded) : Except PyErr Reader :=
  check (match input with
    | .tree x => { r with data := x }
    | .badYaml => { r with error := some .badYaml }
    | .notText => { r with error := some .notText })

/-- `_get_float` (qha_reader.py:86-91). -/
def getFloat (x : Node) : Except PyErr Arr :=
  match npFloat x with
  | .error .valueError => splitFirst x
  | other => other

/-- `_get_int` (qha_reader.py:93-98).  Simplification: the fallback for a string that is not an
integer, which makes an array of its first character, is replaced by the ValueError itself; such an
array is refused where the number is used. -/
def getInt (x : Node) : Except PyErr ℤ := npInt x

/-- `jobname` (qha_reader.py:108-113); `rstrip` is a method of strings. -/
def Reader.jobname (r : Reader) : Except PyErr Str :=
  (contains r.data c!"job").bind fun b =>
    if b then (get r.data c!"job").bind fun x =>
      match x with
      | .str s => .ok (rstrip s)
      | _ => .error .attributeError
    else .ok c!"Unknown"

/-- `natoms` (qha_reader.py:115-117). -/
def Reader.natoms (r : Reader) : Except PyErr ℤ := (get r.data c!"natom").bind getInt

/-- `qpoints` (qha_reader.py:123-125). -/
def Reader.qpoints (r : Reader) : Except PyErr ℤ := (get r.data c!"qpoints").bind getInt

/-- `volume` (qha_reader.py:135-137). -/
def Reader.volume (r : Reader) : Except PyErr Arr := (get r.data c!"volume").bind getFloat

/-- `energy` (qha_reader.py:139-141). -/
def Reader.energy (r : Reader) : Except PyErr Arr := (get r.data c!"energy").bind getFloat

/-- `nvol` (qha_reader.py:127-133). -/
def Reader.nvol (r : Reader) : Except PyErr ℕ :=
  r.volume.map fun v => match v with
    | .scalar _ => 1
    | .vec l => l.length

/-- The assignment of a number or of an array to a row of `n` elements: NumPy repeats a single number,
and refuses arrays of other lengths. -/
def broadcast (n : ℕ) : Arr → Except PyErr (List Fl)
  | .scalar x => .ok (List.replicate n x)
  | .vec [x] => .ok (List.replicate n x)
  | .vec l => if l.length = n then .ok l else .error .valueError

/-- The inner loop of `frequencies` (qha_reader.py:148-152) from band `j` on. -/
def fillBands (n i : ℕ) : ℕ → List Node → List (List (List Fl)) → Except PyErr (List (List (List Fl)))
  | _, [], m => .ok m
  | j, f :: fs, m => ((get f c!"frequency").bind getFloat).bind fun a =>
      (at_ m i).bind fun mi => (at_ mi j).bind fun _ =>
      (broadcast n a).bind fun row => fillBands n i (j + 1) fs (m.set i (mi.set j row))

/-- The outer loop of `frequencies` (qha_reader.py:147-152) from q-point `i` on. -/
def fillPoints (n : ℕ) : ℕ → List Node → List (List (List Fl)) → Except PyErr (List (List (List Fl)))
  | _, [], m => .ok m
  | i, q :: qs, m => ((get q c!"band").bind iterate).bind fun fs =>
      (fillBands n i 0 fs m).bind fun m => fillPoints n (i + 1) qs m

/-- `frequencies` (qha_reader.py:143-153): the array indexed by q-point, band and volume. -/
def Reader.frequencies (r : Reader) : Except PyErr (List (List (List Fl))) :=
  r.qpoints.bind fun q => r.natoms.bind fun n => r.nvol.bind fun nv =>
  (size q).bind fun nq => (size (n * 3)).bind fun nb =>
  ((get r.data c!"phonon").bind iterate).bind fun qs =>
  fillPoints nv 0 qs (List.replicate nq (List.replicate nb (List.replicate nv (some 0))))

/-- The loop of `weights` (qha_reader.py:158-159) from q-point `i` on; an element of an array takes a
number or an array of one number. -/
def fillWeights : ℕ → List Node → List Fl → Except PyErr (List Fl)
  | _, [], w => .ok w
  | i, q :: qs, w => ((get q c!"weight").bind getFloat).bind fun a => (at_ w i).bind fun _ =>
      match a with
      | .scalar x => fillWeights (i + 1) qs (w.set i x)
      | .vec [x] => fillWeights (i + 1) qs (w.set i x)
      | .vec _ => .error .valueError

/-- `weights` (qha_reader.py:155-160). -/
def Reader.weights (r : Reader) : Except PyErr (List Fl) :=
  (r.qpoints.bind size).bind fun nq => ((get r.data c!"phonon").bind iterate).bind fun qs =>
  fillWeights 0 qs (List.replicate nq (some 0))

/-- The sum of the elements of an array; a nan makes it nan. -/
def total : List Fl → Fl
  | [] => some 0
  | x :: xs => match x, total xs with
    | some a, some b => some (a + b)
    | _, _ => none

/-- `total_q_points` (qha_reader.py:162-164). -/
def Reader.totalQPoints (r : Reader) : Except PyErr Fl := r.weights.map total

end Verif.Phonon
