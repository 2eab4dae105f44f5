/-
The result files of the harmonic and quasi-harmonic calculators and their exporters
(quantas/harmonic/harmonic.py, quantas/qha/qha.py, quantas/harmonic/utils/export.py and
quantas/qha/utils/export.py; the two exporters differ in the name of the second variable and in the
table).
-/
import Mathlib.Logic.Function.Basic
import Verif.Export.Hdf5

noncomputable section

namespace Verif.Export
open Verif.Py Verif.IO Verif.Interfaces Verif.Phonon

/-! ### The result files -/

/-- The units in force. -/
structure Scales where
  energy : Str
  volume : Str
  temperature : Str
  pressure : Str

/-- A data set with a description and a unit. -/
def dataset (v : Values) (desc unit : Str) : Dataset := ⟨v, [(c!"desc", desc), (c!"unit", unit)]⟩

/-- What a harmonic run saves: `results` is indexed by the names of harmonic.py:313. -/
structure HaRun where
  volume : List ℚ
  temperature : List ℚ
  energy : List ℚ
  results : Str → Values

/-- `properties` (harmonic.py:313). -/
def haProperties : List Str := [c!"Uzp", c!"Uth", c!"Utot", c!"S", c!"Fvib", c!"F", c!"Cv"]

/-- The unit of a property (harmonic.py:331-334). -/
def haUnit (u : Scales) (prop : Str) : Str :=
  if prop = c!"Cv" ∨ prop = c!"S" then 'm' :: u.energy else u.energy

/-- `export_hdf5` of the harmonic calculator (harmonic.py:296-336); `info` is the text of lines 297-312 and
`descriptions` the dictionary of the class.  The data sets are listed in the order of their creation,
h5py lists them by name. -/
def saveHa (u : Scales) (info : Str) (descriptions : Str → Str) (r : HaRun) : H5 :=
  ⟨[(c!"info", info)],
    (c!"V", dataset (.vec r.volume) c!"Unit cell volume" u.volume) ::
    (c!"T", dataset (.vec r.temperature) c!"Temperature" u.temperature) ::
    (c!"U0", dataset (.vec r.energy) c!"Static (electronic) energies" u.energy) ::
    haProperties.map fun p => (p, dataset (r.results p) (descriptions p) (haUnit u p))⟩

/-- What a quasi-harmonic run saves. -/
structure QhaRun where
  temperature : List ℚ
  pressure : List ℚ
  results : Str → Values

/-- `properties` (qha.py:1253-1270). -/
def qhaProperties : List Str := [c!"Uzp", c!"Uth", c!"Utot", c!"S", c!"Fvib", c!"F", c!"Cv", c!"VT",
  c!"Cp", c!"Cp-Cv", c!"KT", c!"KS", c!"Kp", c!"H", c!"G", c!"alphaV", c!"gruneisen"]

/-- The unit of a property (qha.py:1283-1294). -/
def qhaUnit (u : Scales) (prop : Str) : Str :=
  if prop = c!"Cv" ∨ prop = c!"S" then 'm' :: u.energy
  else if prop = c!"VT" then u.volume
  else if prop = c!"KT" ∨ prop = c!"KS" then u.pressure
  else if prop = c!"Kp" ∨ prop = c!"gruneisen" then []
  else if prop = c!"alphaV" then c!"K^-1"
  else u.energy

/-- `export_hdf5` of the quasi-harmonic calculator (qha.py:1229-1298). -/
def saveQha (u : Scales) (info : Str) (descriptions : Str → Str) (r : QhaRun) : H5 :=
  ⟨[(c!"info", info)],
    (c!"T", dataset (.vec r.temperature) c!"Temperature" u.temperature) ::
    (c!"P", dataset (.vec r.pressure) c!"Pressure" u.pressure) ::
    qhaProperties.map fun p => (p, dataset (r.results p) (descriptions p) (qhaUnit u p))⟩

/-! ### Loading -/

/-- What distinguishes the two exporters. -/
structure Kind where
  second : Str
  types : List (Str × Quantity)
  adimensional : Bool

/-- QuantasHarmonicExport. -/
def harmonic : Kind := ⟨c!"V", haTypes, false⟩

/-- QuantasQHAExport. -/
def quasiHarmonic : Kind := ⟨c!"P", qhaTypes, true⟩

/-- The dictionaries `x`, `y` and `data` of the class (export.py:23-25), which all exporters of the class
share. -/
structure Shared where
  x : Option Values := none
  xunit : Option Str := none
  y : Option Values := none
  yunit : Option Str := none
  data : List (Str × Values × Str) := []

/-- The texts of the attribute `error` (export.py:40, 49-50). -/
inductive LoadError | notQuantas | notHa
  deriving DecidableEq

/-- The attributes of an exporter. -/
structure Exporter where
  basename : Str
  info : Str := []
  keys : List Str := []
  error : Option LoadError := none

/-- `os.path.splitext(filename)[0]`: without the part from the last point on, if it is not among the
points the last component of the path begins with. -/
def splitext (filename : Str) : Str :=
  let ext := filename.reverse.takeWhile fun c => c ≠ '.' ∧ c ≠ '/'
  match filename.reverse.drop ext.length with
  | '.' :: before =>
    if (before.takeWhile (· ≠ '/')).all (· = '.') then filename else before.reverse
  | _ => filename

/-- `f[key][:]`: h5py refuses to slice a scalar. -/
def Values.slice : Values → Except PyErr Values
  | .scalar _ => .error .valueError
  | v => .ok v

/-- The dictionary with a value for the key. -/
def insert {α : Type} (d : List (Str × α)) (key : Str) (a : α) : List (Str × α) :=
  (key, a) :: d.filter fun p => p.1 ≠ key

/-- The loop over the data sets (export.py:53-61): the exception that ended it, and the keys. -/
def loadData (k : Kind) : List (Str × Dataset) → Shared → Shared × Except PyErr (List Str)
  | [], s => (s, .ok [])
  | (key, d) :: rest, s =>
    if key = c!"T" ∨ key = k.second then loadData k rest s
    else match d.values.slice, item d.attrs c!"unit" with
      | .error e, _ => (s, .error e)
      | _, .error e => (s, .error e)
      | .ok v, .ok u =>
        let (s', r) := loadData k rest { s with data := insert s.data key (v, u) }
        (s', r.map (key :: ·))

/-- `f[key][:]` and `f[key].attrs['unit']`. -/
def valuesOf (f : H5) (key : Str) : Except PyErr Values :=
  (item f.sets key).bind fun d => d.values.slice

/-- `f[key].attrs['unit']`. -/
def unitOf (f : H5) (key : Str) : Except PyErr Str :=
  (item f.sets key).bind fun d => item d.attrs c!"unit"

/-- The assignments of export.py:44-47; each is done before the next value is looked up. -/
def loadAxes (k : Kind) (f : H5) (s : Shared) : Shared × Except PyErr Unit :=
  match valuesOf f c!"T" with
  | .error e => (s, .error e)
  | .ok v =>
    let s := { s with x := some v }
    match unitOf f c!"T" with
    | .error e => (s, .error e)
    | .ok u =>
      let s := { s with xunit := some u }
      match valuesOf f k.second with
      | .error e => (s, .error e)
      | .ok v =>
        let s := { s with y := some v }
        match unitOf f k.second with
        | .error e => (s, .error e)
        | .ok u => ({ s with yunit := some u }, .ok ())

/-- `load` (export.py:32-62). -/
def load (k : Kind) (s : Shared) (filename : Str) (f : H5) : Shared × Except PyErr Exporter :=
  let e : Exporter := { basename := splitext filename }
  match item f.attrs c!"info" with
  | .error _ => (s, .ok { e with error := some .notQuantas })
  | .ok info =>
    let e := { e with info := info }
    match loadAxes k f s with
    | (s, .error .keyError) => (s, .ok { e with error := some .notHa })
    | (s, .error err) => (s, .error err)
    | (s, .ok ()) =>
      let (s, r) := loadData k f.sets s
      (s, r.map fun keys => { e with keys := keys })

/-! ### The dialogue -/

/-- The answers of one round (export.py:70-79, 92): the selection, whether an existing file may be
overwritten, the name typed if not, and whether to go on. -/
structure Answer where
  selection : Str
  overwrite : Bool
  name : Str
  more : Bool

/-- The texts of the files. -/
abbrev Disk := Str → Option Str

/-- How the dialogue ends: it is over, an exception ended it, or it waits for further answers. -/
inductive Ended
  | finished
  | waiting
  | crashed (e : PyErr)

/-- The name of the file (export.py:73-79). -/
def outfileOf (e : Exporter) (disk : Disk) (a : Answer) : Str :=
  let outfile := e.basename ++ '_' :: a.selection ++ c!".dat"
  if (disk outfile).isSome then (if a.overwrite then outfile else a.name) else outfile

/-- The numbers of an axis.  Simplification: an axis of two dimensions, on whose rows the format raises
TypeError later, raises it at once. -/
def axis : Option Values → Except PyErr (List ℚ)
  | some (.vec xs) => .ok xs
  | some _ => .error .typeError
  | none => .error .keyError

/-- A value of a dictionary of the class. -/
def known {α : Type} : Option α → Except PyErr α
  | some a => .ok a
  | none => .error .keyError

/-- `tabled_data.write(…)` (export.py:81-89): the arguments, and what is written. -/
def tableOf (k : Kind) (s : Shared) (selection : Str) : Except PyErr Written :=
  (axis s.x).bind fun xs => (known s.xunit).bind fun xu => (axis s.y).bind fun ys =>
  (known s.yunit).bind fun yu => (item s.data selection).map fun (z, zu) =>
  writeTable k.types k.adimensional ⟨xs, c!"T", xu⟩ ⟨ys, k.second, yu⟩ z selection zu

/-- `run` (export.py:64-93).  `click.Choice` asks again for a selection that is not offered. -/
def run (k : Kind) (s : Shared) (e : Exporter) : List Answer → Disk → Disk × Ended
  | [], disk => (disk, .waiting)
  | a :: rest, disk =>
    if a.selection ∈ e.keys then
      match tableOf k s a.selection with
      | .error err => (disk, .crashed err)
      | .ok w =>
        let disk' := Function.update disk (outfileOf e disk a) (some w.text)
        match w.error with
        | some err => (disk', .crashed err)
        | none => if a.more then run k s e rest disk' else (disk', .finished)
    else run k s e rest disk

end Verif.Export
