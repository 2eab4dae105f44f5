/-
QuantasHDF5Export (quantas/IO/hdf5_export.py), the exporter that takes the result files of all modules.

`input` reads one line per prompt.  The exporter has no state but the attributes set by `read_input`; the
attributes `_type`, `_x1` and `_x2` are either all set or all missing.
-/
import Verif.Export.Exporter
import Verif.Interfaces.Soec

noncomputable section

namespace Verif.Export.Generic
open Verif.Py Verif.IO Verif.Interfaces Verif.Phonon Verif.Export

/-! ### The texts of the result files -/

/-- The text of a harmonic result file (harmonic.py:297-312). -/
def haInfo (job energy volume frequency temperature : Str) : Str :=
  c!"\nThis file was created with Quantas.\n\nJob: " ++ job ++
  c!"\n\nIt contains the results of the harmonic approximation (HA) calculations\nperformed with the following settings:\n  - energy scale: " ++
  energy ++ c!"\n  - volume scale: " ++ volume ++ c!"\n  - frequency scale: " ++ frequency ++
  c!"\n  - temperature scale: " ++ temperature ++
  c!"\n\nThermodynamics properties were calculated as a function of volume and\ntemperature.\n"

/-- The text of a quasi-harmonic result file (qha.py:1230-1251). -/
def qhaInfo (job energy volume frequency temperature pressure : Str) (freqs poly : Bool) : Str :=
  c!"\nThis file was created with Quantas.\n\nJob: " ++ job ++
  c!"\n\nIt contains the results of the quasi-harmonic approximation (QHA)\ncalculations performed with the following settings:\n  - energy scale:      " ++
  energy ++ c!"\n  - volume scale:      " ++ volume ++ c!"\n  - frequency scale:   " ++ frequency ++
  c!"\n  - temperature scale: " ++ temperature ++ c!"\n  - pressure scale:    " ++ pressure ++
  c!"\n  - calculation of thermodynamics: " ++ (if freqs then c!"frequency" else c!"thermodynamic") ++
  c!" interpolation\n  - volume minimizazion:           " ++ (if poly then c!"polynomial" else c!"EoS") ++
  c!" fitting\n\nThermodynamics and mechanical properties were calculated as a function of\npressure and temperature.\n"

/-- The text of an elastic result file (soec.py:531-539). -/
def elasticInfo (punit : Str) : Str :=
  c!"\nThis file was created with Quantas.\n\nIt contains the results of the analysis of the second-order elastic constants\n(SOECs) matrix in Voigt's notation, performed with the following settings:\n  - pressure scale:    " ++
  punit ++ c!"\n  - density: kg m^-3\n\n"

/-- The text of a seismic result file (seismic.py:260-285). -/
def seismicInfo (punit : Str) : Str :=
  c!"\nThis file was created with Quantas.\n\nIt contains the results of the Christoffel equation appliet to the second-order\nelastic constants (SOECs, matrix in Voigt's notation), performed with the\nfollowing settings:\n  - pressure scale:    " ++
  punit ++
  c!"\n  - density: kg m^-3\n\nThis file contains three datasets:\n  - slow secondary data (ssecondary)\n  - fast secondary data (fsecondary)\n  - primary data (primary)\n\nEach dataset contains the following results (measurement unit):\n  - Column 1     : Theta angle (rad)\n  - Column 2     : Phi angle (rad)\n  - Column 3     : Phase velocity (km s^-1)\n  - Column 4     : Relative phase velocity (%)\n  - Columns 5-7  : Phase polarization (x,y,z)\n  - Column 8     : Group velocity (km s^-1)\n  - Column 9     : Relative group velocity (%)\n  - Columns 10-12: x, y, and z coordinates of the ray surface\n  - Column 13    : Powerflow angle (degree)\n  - Column 14    : Enhancement factor (log_10A)\n"

/-- `descriptions` of the harmonic calculator (harmonic.py:89-97). -/
def haDescriptions : List (Str × Str) := [
  (c!"Uzp", c!"Zero-point energy"), (c!"Uth", c!"Thermal internal energy"),
  (c!"Utot", c!"Total (vibrational + static) energy"), (c!"S", c!"Entropy"),
  (c!"Fvib", c!"Vibrational Helmholtz free energy"), (c!"F", c!"Helmholtz free energy"),
  (c!"Cv", c!"Isochoric heat capacity")]

/-- `descriptions` of the quasi-harmonic calculator (qha.py:124-142). -/
def qhaDescriptions : List (Str × Str) := [
  (c!"Uzp", c!"Zero-point energy"), (c!"Uth", c!"Thermal energy"),
  (c!"Utot", c!"Total (vibrational + static) internal energy"), (c!"S", c!"Entropy"),
  (c!"Fvib", c!"Vibrational Helmholtz free energy"), (c!"F", c!"Helmholtz free energy"),
  (c!"Cv", c!"Isochoric heat capacity"), (c!"VT", c!"Unit cell volume"),
  (c!"Cp", c!"Isobaric heat capacity"), (c!"Cp-Cv", c!"Correction for isobaric heat capacity"),
  (c!"KT", c!"Isothermal bulk modulus"), (c!"KS", c!"Adiabatic bulk modulus"),
  (c!"Kp", c!"First-derivative of bulk modulus"),
  (c!"alphaV", c!"Volumetric coefficient of thermal expansion"), (c!"H", c!"Enthalpy"),
  (c!"G", c!"Gibbs free energy"), (c!"gruneisen", c!"Grüneisen parameters")]

/-- `descriptions[prop]` for the names the calculators save, which all have one. -/
def described (d : List (Str × Str)) (prop : Str) : Str := (d.lookup prop).getD []

/-! ### Reading a file -/

/-- `_type`. -/
inductive Approx | ha | qha
  deriving DecidableEq

/-- `get_file_data` (hdf5_export.py:81-90); `none` when the attributes are not set. -/
def fileData (info : Str) : Option Approx :=
  let t := if hasSub c!"(HA)" info then some .ha else none
  if hasSub c!"(QHA)" info then some .qha else t

/-- `_x2`. -/
def Approx.second : Approx → Str
  | .ha => c!"V"
  | .qha => c!"P"

/-- The exporter after `read_input`. -/
structure State where
  outbase : Str
  info : Str
  approx : Option Approx

/-- `read_input` (hdf5_export.py:64-75): the error, if any, and the exporter. -/
def readInput (filename : Str) (f : H5) : Except PyErr (Option Str × State) :=
  (readInfo f).map fun info =>
    if !hasSub c!"This file was created with Quantas." info then
      (some c!"The selected file does not appear as a Quantas output", ⟨splitext filename, info, none⟩)
    else (none, ⟨splitext filename, info, fileData info⟩)

/-! ### The table -/

/-- `_set_style` (hdf5_export.py:249-262).  `lower` changes the letters of the English alphabet, all
descriptions are in English but for a small `ü`. -/
def setStyle (name unit : Str) : NumStyle × Str :=
  if name = c!"Temperature" then (.temperature, c!"T (" ++ unit ++ c!")")
  else if hasSub c!"volume" (lower name) then (.fixed, c!"Volume (" ++ unit ++ c!")")
  else if hasSub c!"bulk modulus" (lower name) ∨ name = c!"Pressure" then
    (.fixed, c!"Pressure (" ++ unit ++ c!")")
  else (.energy, name ++ c!" (" ++ unit ++ c!")")

/-- `write` (hdf5_export.py:264-294) of a table with a description: the sequence of the writes of
the tables of the other exporters (Table.lean), with the styles and labels that `__init__` sets
(hdf5_export.py:219-247); the three series are called `x`, `y` and `z` here.  The test of line 244 compares
with None, so that an empty description is written like any other. -/
def writeFile (x : List ℚ) (xname xunit : Str) (y : List ℚ) (yname yunit : Str) (z : Values)
    (zname zunit description : Str) : Written :=
  let qx := setStyle xname xunit
  let qy := setStyle yname yunit
  let qz := setStyle zname zunit
  writeTable [(c!"x", ⟨[], (qx.2, []), qx.1⟩), (c!"y", ⟨[], (qy.2, []), qy.1⟩),
      (c!"z", ⟨description, (qz.2, []), qz.1⟩)] false
    ⟨x, c!"x", []⟩ ⟨y, c!"y", []⟩ z c!"z" zunit

/-- The text among the arguments of the table: a message in its place is a text too. -/
def Reply.text : Reply Str → Str
  | .value s => s
  | .message s => s

/-- The numbers of an axis: with a message, or an array of another number of dimensions, an operation of
`write` raises TypeError.  Simplification: it is raised before the file is opened. -/
def axisOf : Reply Values → Except PyErr (List ℚ)
  | .value (.vec xs) => .ok xs
  | _ => .error .typeError

/-- The array of the results; indexing a message gives a text, on which the format raises TypeError. -/
def resultOf : Reply Values → Except PyErr Values
  | .value v => .ok v
  | .message _ => .error .typeError

/-- `export_data` after the prompt (hdf5_export.py:98-112): the arguments in their order, then the table. -/
def tableOf (e : State) (f : H5) (varname : Str) : Except PyErr Written :=
  match e.approx with
  | none => .error .attributeError
  | some a =>
    (collect f c!"T").bind fun (x, xname, xunit) =>
    (collect f a.second).bind fun (y, yname, yunit) =>
    (collect f varname).bind fun (z, zname, zunit) =>
    (axisOf x).bind fun xs => (axisOf y).bind fun ys => (resultOf z).map fun zs =>
    writeFile xs (Reply.text xname) (Reply.text xunit) ys (Reply.text yname) (Reply.text yunit) zs
      (Reply.text zname) (Reply.text zunit) (Reply.text zname)

/-! ### The dialogue -/

/-- What the next line of the input answers: the quantity (hdf5_export.py:38), the name of the file
(hdf5_export.py:93-97) or whether to go on (hdf5_export.py:56). -/
inductive Prompt
  | quantity
  | file (varname : Str)
  | more

/-- `run` (hdf5_export.py:28-62) on the lines of the input; the loop of lines 54-61 asks until the answer
is empty, `n` or `y`. -/
def run (e : State) (f : H5) : Prompt → List Str → Disk → Disk × Ended
  | _, [], disk => (disk, .waiting)
  | .quantity, var :: rest, disk =>
    match select f var with
    | .help => run e f .quantity rest disk
    | .quit => (disk, .finished)
    | .refused _ => run e f .quantity rest disk
    | .exporting name => run e f (.file name) rest disk
  | .file name, tmpfile :: rest, disk =>
    let outfile := if tmpfile ≠ [] then tmpfile else e.outbase ++ '_' :: name ++ c!".dat"
    match tableOf e f name with
    | .error err => (disk, .crashed err)
    | .ok w =>
      let disk' := Function.update disk outfile (some w.text)
      match w.error with
      | some err => (disk', .crashed err)
      | none => run e f .more rest disk'
  | .more, choice :: rest, disk =>
    if choice = [] ∨ lower choice = c!"n" then (disk, .finished)
    else if lower choice = c!"y" then run e f .quantity rest disk
    else run e f .more rest disk

end Verif.Export.Generic
