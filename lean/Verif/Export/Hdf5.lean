/-
QuantasHDF5Reader (quantas/IO/hdf5_reader.py), the reader of result files, and the selection of
QuantasHDF5Export (quantas/IO/hdf5_export.py).

A result file is its attributes and its data sets with their attributes, in the order in which h5py lists
them; names have no slashes, so that `key in f.keys()` and `f[key]` agree.  Strings and numbers come back
from h5py as they were stored.
-/
import Verif.Export.Table

noncomputable section

namespace Verif.Export
open Verif.Py Verif.IO Verif.Interfaces Verif.Phonon

/-- A data set. -/
structure Dataset where
  values : Values
  attrs : List (Str × Str)

/-- A result file. -/
structure H5 where
  attrs : List (Str × Str)
  sets : List (Str × Dataset)

/-- What the methods of the reader return: a value, or a message in its place. -/
inductive Reply (α : Type) where
  | value (a : α)
  | message (s : Str)

/-- A Python value that is `True` or a text. -/
inductive Check where
  | true
  | text (s : Str)
  deriving DecidableEq

/-- The truth value. -/
def Check.truthy : Check → Bool
  | .true => Bool.true
  | .text s => !s.isEmpty

/-- `d[key]`. -/
def item {α : Type} (d : List (Str × α)) (key : Str) : Except PyErr α :=
  match d.lookup key with
  | some a => .ok a
  | none => .error .keyError

/-- `__has_dataset` (hdf5_reader.py:80-85). -/
def hasDataset (f : H5) (key : Str) : Check :=
  match f.sets.lookup key with
  | none => .text (c!"Dataset '" ++ key ++ c!"' not found")
  | some _ => .true

/-- `__has_attribute` (hdf5_reader.py:87-93). -/
def hasAttribute (f : H5) (key attr : Str) : Except PyErr Check :=
  (item f.sets key).map fun d =>
    match d.attrs.lookup attr with
    | none => .text (c!"Dataset '" ++ key ++ c!"' does not have '" ++ attr ++ c!"' attribute")
    | some _ => .true

/-- `has_data` (hdf5_reader.py:48-49). -/
def hasData (f : H5) (key : Str) : Check := hasDataset f key

/-- `get_data` (hdf5_reader.py:41-46). -/
def getData (f : H5) (key : Str) : Except PyErr (Reply Values) :=
  match hasDataset f key with
  | .text s => .ok (.message s)
  | .true => (item f.sets key).map fun d => .value d.values

/-- `get_attribute` (hdf5_reader.py:71-78); `not` of a message is False. -/
def getAttribute (f : H5) (key attr : Str) : Except PyErr (Reply Str) :=
  if !(hasDataset f key).truthy then
    .ok (match hasDataset f key with | .text s => .message s | .true => .message [])
  else (hasAttribute f key attr).bind fun c =>
    if !c.truthy then .ok (match c with | .text s => .message s | .true => .message [])
    else (item f.sets key).bind fun d => (item d.attrs attr).map .value

/-- An index from the beginning, or from the end when it is negative. -/
def position (n : ℕ) (i : ℤ) : Option ℕ :=
  if 0 ≤ i then (if i < n then some i.toNat else none)
  else if 0 ≤ n + i then some (n + i).toNat else none

/-- The exceptions of h5py for an index that is out of range and for too many indices; they depend on
the version of h5py. -/
structure H5Errors where
  range : PyErr
  rank : PyErr

/-- `f[key][:, column]`. -/
def Values.column (errs : H5Errors) : Values → ℤ → Except PyErr (List ℚ)
  | .mat rows, c => each (fun r : List ℚ =>
      match position r.length c with
      | some k => at_ r k
      | none => .error errs.range) rows
  | _, _ => .error errs.rank

/-- `f[key][row]`. -/
def Values.row (errs : H5Errors) : Values → ℤ → Except PyErr Values
  | .mat rows, i =>
    match position rows.length i with
    | some k => (at_ rows k).map .vec
    | none => .error errs.range
  | .vec xs, i =>
    match position xs.length i with
    | some k => (at_ xs k).map .scalar
    | none => .error errs.range
  | .scalar _, _ => .error errs.rank

/-- `str(n)` for the message. -/
def indexMessage (n : ℤ) : Str := c!"Index " ++ showInt n ++ c!" not available"

/-- `except ValueError: return message`. -/
def exceptValueError {α : Type} (m : Str) : Except PyErr α → Except PyErr (Reply α)
  | .ok a => .ok (.value a)
  | .error .valueError => .ok (.message m)
  | .error e => .error e

/-- `get_data_column` (hdf5_reader.py:51-59). -/
def getDataColumn (errs : H5Errors) (f : H5) (key : Str) (column : ℤ) : Except PyErr (Reply (List ℚ)) :=
  match hasDataset f key with
  | .text s => .ok (.message s)
  | .true => exceptValueError (indexMessage column)
      ((item f.sets key).bind fun d => d.values.column errs column)

/-- `get_data_row` (hdf5_reader.py:61-69). -/
def getDataRow (errs : H5Errors) (f : H5) (key : Str) (row : ℤ) : Except PyErr (Reply Values) :=
  match hasDataset f key with
  | .text s => .ok (.message s)
  | .true => exceptValueError (indexMessage row)
      ((item f.sets key).bind fun d => d.values.row errs row)

/-- `{: >15}`. -/
def listed (key : Str) : Str := alignRight 15 key ++ c!": "

/-- `read` (hdf5_reader.py:24-35): the text `info`. -/
def readInfo (f : H5) : Except PyErr Str :=
  (item f.attrs c!"info").map fun info =>
    info ++ c!"\nAvailable data:\n" ++ f.sets.flatMap fun (key, d) =>
      listed key ++ (d.attrs.flatMap fun (a, v) =>
        if a = c!"unit" then '(' :: v ++ [')'] else v ++ [' ']) ++ ['\n']

/-- What the interactive export does with an answer (hdf5_export.py:38-50). -/
inductive Selected where
  | help
  | quit
  | refused (message : Str)
  | exporting (name : Str)
  deriving DecidableEq

/-- The branches on the answer (hdf5_export.py:39-50). -/
def select (f : H5) (var : Str) : Selected :=
  if lower var = c!"help" then .help
  else if lower var = c!"quit" then .quit
  else if !(hasData f var).truthy then
    .refused (match hasData f var with | .text s => s | .true => c!"True")
  else .exporting var

/-- The data collected for the table of a name (hdf5_export.py:99-111): the values, the description and
the unit. -/
def collect (f : H5) (name : Str) : Except PyErr (Reply Values × Reply Str × Reply Str) :=
  (getData f name).bind fun v => (getAttribute f name c!"desc").bind fun d =>
  (getAttribute f name c!"unit").map fun u => (v, d, u)

end Verif.Export
