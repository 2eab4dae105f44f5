/-
The text tables of the harmonic and quasi-harmonic exporters (quantas/harmonic/utils/table.py and
quantas/qha/utils/table.py).  The two modules are the same but for the dictionary of the quantities and
the line of the units.

Numbers are exact rationals (no nan, no inf, no negative zero).
-/
import Verif.Phonon.Writer

noncomputable section

namespace Verif.Export
open Verif.Py Verif.IO Verif.Interfaces Verif.Phonon

/-- The arrays stored in the files: by number of dimensions. -/
inductive Values where
  | scalar (x : ℚ)
  | vec (xs : List ℚ)
  | mat (rows : List (List ℚ))

/-- The numeric formats (table.py:22-25): `'%.2f'`, `'%.8f'` and `'%.12E'`. -/
inductive NumStyle where
  | temperature
  | fixed
  | energy
  deriving DecidableEq

/-- An entry of the dictionary `types`; the label holds the text before and after the unit. -/
structure Quantity where
  desc : Str
  label : Str × Str
  numstyle : NumStyle

/-- `types` (harmonic/utils/table.py:110-127). -/
def haTypes : List (Str × Quantity) := [
  (c!"T", ⟨c!"Temperature", (c!"T (", c!")"), .temperature⟩),
  (c!"V", ⟨c!"Volume", (c!"V (", c!"^3)"), .fixed⟩),
  (c!"U0", ⟨c!"Static energy", (c!"E0 (", c!")"), .energy⟩),
  (c!"Uzp", ⟨c!"Zero-point energy", (c!"Ezp (", c!")"), .energy⟩),
  (c!"Uth", ⟨c!"Thermal energy", (c!"Eth (", c!")"), .energy⟩),
  (c!"Utot", ⟨c!"Internal energy", (c!"E (", c!")"), .energy⟩),
  (c!"S", ⟨c!"Entropy", (c!"S (", c!")"), .energy⟩),
  (c!"Cv", ⟨c!"Isochoric heat capacity", (c!"Cv (", c!")"), .energy⟩),
  (c!"Fvib", ⟨c!"Vibrational Helmholtz free energy", (c!"Fvib (", c!")"), .energy⟩),
  (c!"F", ⟨c!"Helmholtz free energy", (c!"F (", c!")"), .energy⟩)]

/-- `types` (qha/utils/table.py:110-147). -/
def qhaTypes : List (Str × Quantity) := [
  (c!"T", ⟨c!"Temperature", (c!"T (", c!")"), .temperature⟩),
  (c!"P", ⟨c!"Pressure", (c!"P (", c!")"), .fixed⟩),
  (c!"Uzp", ⟨c!"Zero-point energy", (c!"Ezp (", c!")"), .energy⟩),
  (c!"Uth", ⟨c!"Thermal energy", (c!"Eth (", c!")"), .energy⟩),
  (c!"Utot", ⟨c!"Internal energy", (c!"E (", c!")"), .energy⟩),
  (c!"F", ⟨c!"Helmholtz free energy", (c!"F (", c!")"), .energy⟩),
  (c!"S", ⟨c!"Entropy", (c!"S (", c!")"), .energy⟩),
  (c!"Fvib", ⟨c!"Vibrational Helmholtz free energy", (c!"Fvib (", c!")"), .energy⟩),
  (c!"Cv", ⟨c!"Isochoric heat capacity", (c!"Cv (", c!")"), .energy⟩),
  (c!"VT", ⟨c!"Unit cell volume", (c!"V (", c!"^3)"), .fixed⟩),
  (c!"Cp", ⟨c!"Isobaric heat capacity", (c!"Cp (", c!")"), .energy⟩),
  (c!"Cp-Cv", ⟨c!"Correction for isobaric heat capacity", (c!"Cp-Cv (", c!")"), .energy⟩),
  (c!"KT", ⟨c!"Isothermal bulk modulus", (c!"KT (", c!")"), .fixed⟩),
  (c!"KS", ⟨c!"Adiabatic bulk modulus", (c!"KS (", c!")"), .fixed⟩),
  (c!"Kp", ⟨c!"First-derivative of bulk modulus", (c!"K'", c!""), .fixed⟩),
  (c!"alphaV", ⟨c!"Volumetric coefficient of thermal expansion", (c!"alphaV (", c!")"), .energy⟩),
  (c!"H", ⟨c!"Enthalpy", (c!"H (", c!")"), .energy⟩),
  (c!"G", ⟨c!"Gibbs free energy", (c!"G (", c!")"), .energy⟩),
  (c!"gruneisen", ⟨c!"Gruneisen parameters", (c!"gamma", c!""), .energy⟩)]

/-! ### Formats -/

/-- Centred in a field of `w` characters: `'{: ^w}'`. -/
def center (w : ℕ) (s : Str) : Str :=
  List.replicate ((w - s.length) / 2) ' ' ++ s ++
    List.replicate ((w - s.length) - (w - s.length) / 2) ' '

/-- `'%.12E' % x`, in upper case and with no space in place of the sign. -/
def sciE (d : ℕ) (x : ℚ) : Str :=
  let (m, e) := sciParts d x
  (if x < 0 then ['-'] else []) ++ showNat (m / 10 ^ d) ++ '.' :: lastDigits d m ++ showExp e

/-- `dtype % x`. -/
def formatted : NumStyle → ℚ → Str
  | .temperature, x => formatFixed 2 x
  | .fixed, x => formatFixed 8 x
  | .energy, x => sciE 12 x

/-- The first width of `calc_space` (table.py:34-35). -/
def totw (n : ℕ) : ℕ := n * 20 + 10 + (n + 1)

/-- `separator` (table.py:40-41): `'{s:{c}<{w}}{s}'` with a symbol of one character. -/
def separator (w : ℕ) (sym char : Char) : Str :=
  sym :: List.replicate (w - 1) char ++ [sym]

/-- `header` (table.py:44-45) with the second width of `calc_space` (table.py:36).  With no columns the
width is negative and the format raises ValueError. -/
def header (n : ℕ) (tag1 tag2 : Str) : Except PyErr Str :=
  if n = 0 then .error .valueError
  else .ok (' ' :: center 10 tag1 ++ ' ' :: center (n * 20 + (n - 1)) tag2 ++ [' '])

/-- `put_data` for a number (table.py:52-61). -/
def putData (x : ℚ) : NumStyle → Str
  | .temperature => ' ' :: center 10 (formatted .temperature x)
  | s => ' ' :: center 20 (formatted s x)

/-- `put_data('', …)` (table.py:53-54). -/
def putEmpty : Str := ' ' :: center 10 []

/-- `newrow` (table.py:64-65). -/
def newrow : Str := [' ', '\n']

/-- `fileHeader` (table.py:28). -/
def fileHeader : Str := c!"*- This file was created using Quantas -*\n"

/-! ### Writing -/

/-- `types[name]`. -/
def quantity (types : List (Str × Quantity)) (name : Str) : Except PyErr Quantity :=
  match types.lookup name with
  | some q => .ok q
  | none => .error .keyError

/-- `z[i][j]`: NumPy raises IndexError when there are not enough dimensions or entries. -/
def Values.entry : Values → ℕ → ℕ → Except PyErr ℚ
  | .mat rows, i, j => (at_ rows i).bind fun r => at_ r j
  | _, _, _ => .error .indexError

/-- What a file holds, and the exception that ended the writing. -/
structure Written where
  text : Str
  error : Option PyErr

/-- A sequence of `f.write(…)`: each argument is evaluated before it is written, and the first exception
ends the sequence and closes the file. -/
def writeAll : List (Except PyErr Str) → Written
  | [] => ⟨[], none⟩
  | .error e :: _ => ⟨[], some e⟩
  | .ok s :: rest => let w := writeAll rest; ⟨s ++ w.text, w.error⟩

/-- A series of numbers with its name and unit. -/
structure Series where
  values : List ℚ
  name : Str
  unit : Str

/-- The line of the units: harmonic/utils/table.py:143, qha/utils/table.py:163-166. -/
def unitLine (adimensional : Bool) (unit : Str) : Str :=
  if adimensional && unit.isEmpty then c!"Adimensional data" else c!"Data in " ++ unit ++ c!" units"

/-- A line of the table (table.py:159-162): the entry of the first column, and one per column. -/
def rowSteps (types : List (Str × Quantity)) (x y : Series) (z : Values) (zname : Str) (i : ℕ) (t : ℚ) :
    List (Except PyErr Str) :=
  [(quantity types x.name).map fun q => putData t q.numstyle] ++
  (List.range y.values.length).map (fun j =>
    (z.entry i j).bind fun v => (quantity types zname).map fun q => putData v q.numstyle) ++
  [.ok newrow]

/-- `write` (harmonic/utils/table.py:131-164, qha/utils/table.py:151-187). -/
def writeTable (types : List (Str × Quantity)) (adimensional : Bool) (x y : Series) (z : Values)
    (zname zunit : Str) : Written :=
  writeAll <|
    [.ok fileHeader, .ok ['\n'], (quantity types zname).map Quantity.desc, .ok ['\n'],
      .ok (unitLine adimensional zunit), .ok ['\n'], .ok ['\n'],
      .ok (separator (totw y.values.length) '+' '-'), .ok ['\n'],
      (quantity types x.name).bind fun qx => (quantity types y.name).bind fun qy =>
        header y.values.length (qx.label.1 ++ x.unit ++ qx.label.2) (qy.label.1 ++ y.unit ++ qy.label.2),
      .ok ['\n'], (quantity types x.name).map fun _ => putEmpty] ++
    y.values.map (fun v => (quantity types y.name).map fun q => putData v q.numstyle) ++
    [.ok newrow, .ok (separator (totw y.values.length) '+' '='), .ok ['\n']] ++
    (x.values.zipIdx.flatMap fun (t, i) => rowSteps types x y z zname i t) ++
    [.ok (separator (totw y.values.length) '+' '=')]

end Verif.Export
