/-
PhonopyReader (quantas/interfaces/phonopy.py) on the trees loaded from the phonopy files.  The file
system, PyYAML and the XML library are represented by what they deliver.
-/
import Verif.Units.Model
import Verif.Chemistry.Model
import Verif.Phonon.Yaml

noncomputable section

namespace Verif.Phonon
open Verif.Py Verif.IO Verif.Interfaces Verif.Units

/-- What `yaml.safe_load` makes of an existing file: a tree, or YAMLError. -/
inductive YamlFile
  | tree (x : Node)
  | broken

/-- The three files of a calculation (phonopy.py:84, 93, 101); `none` is a file that does not exist.
`vasprun` lists the `name` attribute and the text of the elements `calculation/energy/i`, in the order
of the file. -/
structure PhonopyFiles where
  disp : Option YamlFile
  vasprun : Option (List (Str × Str))
  output : Option YamlFile

/-- The texts put in `error` (phonopy.py:86-88, 107). -/
inductive PhonopyError | noDisp | noOutput
  deriving DecidableEq

/-- A cell as the reader stores it (phonopy.py:130-150): the lattice is stored as it was loaded, the
coordinates in an array of integers. -/
structure PCell where
  natom : ℕ
  numbers : List ℕ
  positions : List (List ℤ)
  lattice : Node

/-- The attributes of the reader after `load` (phonopy.py:68-80); `none` is a cell that was not set. -/
structure Phonopy where
  completed : Bool := false
  error : Option PhonopyError := none
  energy : ℚ := 0
  unitcell : Option PCell := none
  supercell : Option PCell := none
  expansion : Option Node := none
  qpoints : ℕ := 1
  nphonon : ℕ := 0
  qcoords : List Node := []
  weights : List Node := []
  phonons : List (List ℝ) := []

/-- The loop over the energies of the VASP output (phonopy.py:97-99). -/
def readEnergy : List (Str × Str) → ℚ → Except PyErr ℚ
  | [], e => .ok e
  | (name, text) :: rest, e =>
    if name = c!"e_wo_entrp" then (toFloat text).bind (readEnergy rest) else readEnergy rest e

/-- The energy (phonopy.py:93-99): zero without a VASP output. -/
def vaspEnergy : Option (List (Str × Str)) → Except PyErr ℚ
  | none => .ok 0
  | some es => readEnergy es 0

/-- `load_yaml` (phonopy.py:205-214).  The name bound by `except … as exception` is deleted at the end
of the handler, so that the return statement raises UnboundLocalError. -/
def loadYaml : YamlFile → Except PyErr Node
  | .tree x => .ok x
  | .broken => .error .unboundLocal

/-- A number used as a size or in `range`. -/
def toSize : Node → Except PyErr ℕ
  | .int n => size n
  | _ => .error .typeError

/-- `range(n)`: a negative number gives no iterations. -/
def toRange : Node → Except PyErr ℕ
  | .int n => .ok n.toNat
  | _ => .error .typeError

/-- Truncation towards zero: the conversion of a float to an element of an array of integers. -/
def truncate (q : ℚ) : ℤ := if q < 0 then ⌈q⌉ else ⌊q⌋

/-- A number assigned to an element of an array of integers.  Simplification: only numbers are
accepted. -/
def itemInt : Node → Except PyErr ℤ
  | .int n => .ok n
  | .float q => .ok (truncate q)
  | _ => .error .typeError

/-- `positions[i] = coordinates`: three numbers, or one that is repeated. -/
def intRow : Node → Except PyErr (List ℤ)
  | .list [x] => (itemInt x).map (List.replicate 3)
  | .list l => (each itemInt l).bind fun r => if r.length = 3 then .ok r else .error .valueError
  | x => (itemInt x).map (List.replicate 3)

/-- `s2n(symbol)`. -/
def symbolNumber : Node → Except PyErr ℕ
  | .str s => Chemistry.symbol2number s
  | _ => .error .keyError

/-- The body of the loops over the atoms (phonopy.py:226-229, 241-244), for the list `points`. -/
def atomAt (points : Except PyErr Node) (i : ℕ) : Except PyErr (ℕ × List ℤ) :=
  points.bind fun ps => (item ps i).bind fun a => (get a c!"symbol").bind fun s =>
  (symbolNumber s).bind fun z => (get a c!"coordinates").bind fun c => (intRow c).map fun r => (z, r)

/-- `set_unit_cell` (phonopy.py:233-246). -/
def setUnitCell (idata : Node) : Except PyErr PCell :=
  (get idata c!"natom").bind fun n => (toSize n).bind fun natom =>
  (get idata c!"lattice").bind fun lattice =>
  (each (atomAt (get idata c!"points")) (List.range natom)).map fun atoms =>
  ⟨natom, atoms.map Prod.fst, atoms.map Prod.snd, lattice⟩

/-- `len(x)`. -/
def len : Node → Except PyErr ℕ
  | .list l => .ok l.length
  | .str s => .ok s.length
  | .map l => .ok l.length
  | _ => .error .typeError

/-- `set_displacements` (phonopy.py:216-231). -/
def setDisplacements (idata : Node) : Except PyErr (Node × PCell) :=
  (get idata c!"supercell_matrix").bind fun dim => (get idata c!"supercell").bind fun sc =>
  (get sc c!"points").bind fun points => (len points).bind fun natom =>
  (get sc c!"lattice").bind fun lattice =>
  (each (atomAt (.ok points)) (List.range natom)).map fun atoms =>
  (dim, ⟨natom, atoms.map Prod.fst, atoms.map Prod.snd, lattice⟩)

/-- A number given to `cf` (phonopy.py:263).  Simplification: only numbers are accepted. -/
def number : Node → Except PyErr ℚ
  | .int n => .ok n
  | .float q => .ok q
  | _ => .error .typeError

/-- `cf(x, 'THz', 'cm^-1')` (phonopy.py:263, units.py:451-506) on one number. -/
def wavenumber (k : Consts) (q : ℚ) : Except PyErr ℝ :=
  (convertFrequency k [(q : ℝ)] c!"THz" c!"cm^-1").bind fun l => at_ l 0

/-- The inner loop of `set_phonons` (phonopy.py:261-263). -/
def bandAt (k : Consts) (nf : ℕ) (qdata : Node) : Except PyErr (List ℝ) :=
  each (fun j => (get qdata c!"band").bind fun b => (item b j).bind fun f =>
    (get f c!"frequency").bind fun x => (number x).bind (wavenumber k)) (List.range nf)

/-- The body of the outer loop of `set_phonons` (phonopy.py:257-264): coordinates, weight and
frequencies of q-point `i`. -/
def pointAt (k : Consts) (nf : ℕ) (idata : Node) (i : ℕ) : Except PyErr (Node × Node × List ℝ) :=
  (get idata c!"phonon").bind fun ph => (item ph i).bind fun qdata =>
  (get qdata c!"q-position").bind fun x => (get qdata c!"weight").bind fun w =>
  (bandAt k nf qdata).map fun b => (x, w, b)

/-- `set_phonons` (phonopy.py:248-265). -/
def setPhonons (k : Consts) (r : Phonopy) (idata : Node) : Except PyErr Phonopy :=
  (get idata c!"natom").bind fun n => (toRange n).bind fun natom =>
  (get idata c!"nqpoint").bind fun q => (toRange q).bind fun nq =>
  (each (pointAt k (3 * natom) idata) (List.range nq)).map fun ps =>
  { r with
    nphonon := 3 * natom, qpoints := nq, qcoords := ps.map fun p => p.1,
    weights := ps.map fun p => p.2.1, phonons := ps.map fun p => p.2.2 }

/-- `load` (phonopy.py:56-121); `_data` is created anew.  An exception leaves no reader, because `load`
is called by the constructor. -/
def phonopyLoad (k : Consts) (f : PhonopyFiles) : Except PyErr Phonopy :=
  match f.disp with
  | none => .ok { error := some .noDisp }
  | some disp =>
    (vaspEnergy f.vasprun).bind fun energy =>
    match f.output with
    | none => .ok { error := some .noOutput, energy := energy }
    | some out =>
      (loadYaml out).bind fun idata => (setUnitCell idata).bind fun uc =>
      (loadYaml disp).bind fun ddata => (setDisplacements ddata).bind fun sc =>
      (setPhonons k { energy := energy, unitcell := some uc, supercell := some sc.2, expansion := some sc.1 }
        idata).map fun r => { r with completed := true }

/-- A matrix of 3 × 3 numbers; everything else is refused by `np.linalg.det`. -/
def matrix3 : Node → Except PyErr (Matrix (Fin 3) (Fin 3) ℚ)
  | .list [.list [a, b, c], .list [d, e, f], .list [g, h, i]] =>
    (each number [a, b, c, d, e, f, g, h, i]).bind fun l =>
      match l with
      | [a, b, c, d, e, f, g, h, i] => .ok (Matrix.of ![![a, b, c], ![d, e, f], ![g, h, i]])
      | _ => .error .typeError
  | _ => .error .typeError

/-- `volume` (phonopy.py:169-171); without a cell the key is missing. -/
def Phonopy.volume (r : Phonopy) : Except PyErr ℚ :=
  match r.unitcell with
  | none => .error .keyError
  | some c => (matrix3 c.lattice).map Matrix.det

/-- `natom` (phonopy.py:161-163). -/
def Phonopy.natom (r : Phonopy) : Except PyErr ℕ :=
  match r.unitcell with
  | none => .error .keyError
  | some c => .ok c.natom

end Verif.Phonon
