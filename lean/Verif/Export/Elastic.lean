/-
The exporter of elastic results (quantas/soec/utils/export.py) and its tables (quantas/soec/utils/table.py).

Numbers are exact rationals (no nan, no inf, no negative zero).
-/
import Verif.Export.Exporter
import Verif.Polar.Model

noncomputable section

namespace Verif.Export
open Verif.Py Verif.IO Verif.Interfaces Verif.Phonon

/-! ### The file as h5py lists it -/

/-- The order of the names in a file: by the characters. -/
def strLe : Str → Str → Bool
  | [], _ => true
  | _ :: _, [] => false
  | a :: as, b :: bs => if a = b then strLe as bs else decide (a.toNat ≤ b.toNat)

/-- A data set in its place in the order of the names. -/
def insertByName {α : Type} (p : Str × α) : List (Str × α) → List (Str × α)
  | [] => [p]
  | q :: l => if strLe p.1 q.1 then p :: q :: l else q :: insertByName p l

/-- The data sets in the order of the names: h5py does not keep the order of creation. -/
def byName {α : Type} (l : List (Str × α)) : List (Str × α) := l.foldr insertByName []

/-- An array as it is stored. -/
def arrValues : Polar.Arr ℚ → Values
  | .vec xs => .vec xs
  | .mat rows => .mat rows

/-- The file written by the elastic calculator, as h5py lists it. -/
def elasticFile (f : Polar.File ℚ) : H5 :=
  ⟨[(c!"info", f.info)], byName (f.sets.map fun (name, a, unit) => (name, ⟨arrValues a, [(c!"unit", unit)]⟩))⟩

/-! ### Loading -/

/-- A value of the dictionary `data`, itself a dictionary with the keys `values` and `unit`. -/
structure Entry where
  values : Option Values := none
  unit : Option Str := none

/-- The dictionary `data` of the class, which all exporters of the class share, in order of insertion. -/
abbrev Data := List (Str × Entry)

/-- `d[key] = a`: a key that is there keeps its place. -/
def assign {α : Type} (d : List (Str × α)) (key : Str) (a : α) : List (Str × α) :=
  if key ∈ d.map Prod.fst then d.map fun p => if p.1 = key then (key, a) else p else d ++ [(key, a)]

/-- The loop over the data sets (soec/utils/export.py:49-58): the dictionary afterwards, and the keys offered or
the exception that ended the loop. -/
def loadSections : List (Str × Dataset) → List Str → Data → Data × Except PyErr (List Str)
  | [], keys, d => (d, .ok keys)
  | (key, ds) :: rest, keys, d =>
    if hasSub c!"polar_" key then
      let keys := if hasSub c!"waves" key && !keys.contains c!"waves" then keys ++ [c!"waves"] else keys
      let d := assign d key {}
      match ds.values.slice with
      | .error e => (d, .error e)
      | .ok v =>
        let d := assign d key { values := some v }
        match item ds.attrs c!"unit" with
        | .error e => (d, .error e)
        | .ok u => loadSections rest keys (assign d key { values := some v, unit := some u })
    else loadSections rest keys d

/-- `load` (soec/utils/export.py:31-59); `notHa` stands for the text of lines 46-47. -/
def loadElastic (d : Data) (filename : Str) (f : H5) : Data × Except PyErr Exporter :=
  let e : Exporter := { basename := splitext filename }
  match item f.attrs c!"info" with
  | .error _ => (d, .ok { e with error := some .notQuantas })
  | .ok info =>
    let e := { e with info := info }
    match valuesOf f c!"stiffness" with
    | .error .keyError => (d, .ok { e with error := some .notHa })
    | .error err => (d, .error err)
    | .ok _ =>
      let (d, r) := loadSections f.sets [c!"E", c!"LC", c!"G", c!"Nu"] d
      (d, r.map fun keys => { e with keys := keys })

/-! ### Tables -/

/-- `types` (soec/utils/table.py:69-95): the description and the labels of a plane, which are the same for the
three planes. -/
def elasticTypes : List (Str × Str × List Str) := [
  (c!"E", c!"Young's modulus", [c!""]),
  (c!"LC", c!"Linear compressibility", [c!"positive", c!"negative"]),
  (c!"G", c!"Shear modulus", [c!"minimum", c!"maximum"]),
  (c!"Nu", c!"Poisson's ratio", [c!"negative", c!"positive", c!"measurement"]),
  (c!"waves", c!"Seismic wave velocities", [c!"v_s1", c!"vs_2", c!"v_l"])]

/-- The planes (soec/utils/table.py:70-74). -/
def planes : List Str := [c!"(xy)", c!"(xz)", c!"(yz)"]

/-- A line of numbers (soec/utils/table.py:133-137). -/
def elasticRow (t : ℚ) (vs : List ℚ) : Str :=
  center 10 (formatFixed 1 t) ++ vs.flatMap fun v => center 15 (formatFixed 4 v)

/-- `header` (soec/utils/table.py:34-35). -/
def elasticHeader (n : ℕ) (tag1 tag2 : Str) : Str :=
  ' ' :: center 10 tag1 ++ ' ' :: center (n * 15) tag2 ++ [' ']

/-- `write` (soec/utils/table.py:100-139).  The number of columns is that of the first row.  Simplification: an
array without rows counts as one without columns. -/
def writeElastic (degrees : List ℚ) (value : List (List ℚ)) (name unit : Str) : Written :=
  let n := (value.head?.getD []).length
  writeAll <|
    [.ok fileHeader, .ok ['\n'], (item elasticTypes name).map fun q => q.1, .ok ['\n'],
      .ok (unitLine true unit), .ok ['\n'], .ok ['\n'],
      .ok (separator (n * 15 + 10) '+' '-'), .ok ['\n'],
      (item elasticTypes name).map fun q => elasticHeader n c!"Degrees" q.1, .ok ['\n'],
      .ok (center 10 [] ++ planes.flatMap fun p => center (n / 3 * 15) p), .ok ['\n'],
      (item elasticTypes name).map fun q =>
        center 10 [] ++ planes.flatMap fun _ => q.2.flatMap fun l => center 15 l,
      .ok ['\n'], .ok (separator (n * 15 + 10) '+' '='), .ok ['\n']] ++
    (List.zip degrees value).flatMap (fun (t, vs) => [.ok (elasticRow t vs), .ok ['\n']]) ++
    [.ok (separator (n * 15 + 10) '+' '=')]

/-! ### The dialogue -/

/-- The variables `degree`, `data` and `unit` of `run`, which keep their values from one round to the next. -/
structure Locals where
  degree : List ℚ
  data : List (List ℚ)
  unit : Str

/-- `values[:,0]` and `values[:,1:]`: IndexError unless there are two dimensions and a column. -/
def splitColumns : Values → Except PyErr (List ℚ × List (List ℚ))
  | .mat rows =>
    if rows.any (·.isEmpty) then .error .indexError
    else .ok (rows.map fun r => r.headD 0, rows.map fun r => r.tail)
  | _ => .error .indexError

/-- `values[:,1:]`. -/
def dropColumn : Values → Except PyErr (List (List ℚ))
  | .mat rows => .ok (rows.map fun r => r.tail)
  | _ => .error .indexError

/-- `np.hstack((a, b))`. -/
def hstack (a b : List (List ℚ)) : Except PyErr (List (List ℚ)) :=
  if a.length = b.length then .ok (List.zipWith (· ++ ·) a b) else .error .valueError

/-- The loop over the dictionary (soec/utils/export.py:72-81). -/
def gather (selection : Str) : Data → Bool → Option Locals → Except PyErr (Option Locals)
  | [], _, l => .ok l
  | (key, e) :: rest, first, l =>
    if hasSub selection key then
      (known e.values).bind fun v =>
        if first then
          (splitColumns v).bind fun (degree, data) => (known e.unit).bind fun u =>
            gather selection rest false (some ⟨degree, data, u⟩)
        else
          match l with
          | none => .error .unboundLocal
          | some l => (dropColumn v).bind fun b => (hstack l.data b).bind fun data =>
            gather selection rest false (some { l with data := data })
    else gather selection rest first l

/-- `run` (soec/utils/export.py:61-95), from the values that the variables have.  `click.Choice` asks again for a
selection that is not offered. -/
def runElastic (d : Data) (e : Exporter) : Option Locals → List Answer → Disk → Disk × Ended
  | _, [], disk => (disk, .waiting)
  | l, a :: rest, disk =>
    if a.selection ∈ e.keys then
      match gather a.selection d true l with
      | .error err => (disk, .crashed err)
      | .ok none => (disk, .crashed .unboundLocal)
      | .ok (some l) =>
        let w := writeElastic l.degree l.data a.selection l.unit
        let disk' := Function.update disk (outfileOf e disk a) (some w.text)
        match w.error with
        | some err => (disk', .crashed err)
        | none => if a.more then runElastic d e (some l) rest disk' else (disk', .finished)
    else runElastic d e l rest disk

end Verif.Export
