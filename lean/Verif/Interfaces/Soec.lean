/-
Model of the readers of elastic moduli from ab initio outputs: /repo/quantas/interfaces/vasp.py
(class VASPSOECReader) and /repo/quantas/interfaces/crystal.py (class CrystalSOECReader), and of
`SOECInputCreator.read` in /repo/quantas/IO/soec_writer.py.
-/
import Mathlib.Data.List.Infix
import Mathlib.Data.Fintype.Prod
import Mathlib.Logic.Equiv.Basic
import Verif.IO.Soec

namespace Verif.Interfaces
open Verif.Py Verif.IO

/-- `part in line`. -/
def hasSub (part line : Str) : Bool := decide (part <:+: line)

/-- The loop that fills the class-level array element by element (vasp.py:48-57, crystal.py:1454-1463):
a missing line or word raises IndexError, a word that is not a number stops the reading with an error
text; in both cases the elements assigned so far stay.  `cells` lists the indices in the order of the
loop, `tok` gives the word read for an element. -/
def fill (tok : Fin 6 → Fin 6 → Option Str) (scale : ℚ) :
    List (Fin 6 × Fin 6) → Mat → Mat × Except PyErr (Option (Fin 6 × Fin 6))
  | [], S => (S, .ok none)
  | (i, j) :: cs, S =>
    match tok i j with
    | none => (S, .error .indexError)
    | some t =>
      match parseFloat t with
      | none => (S, .ok (some (i, j)))
      | some q => fill tok scale cs (fun a b => if a = i ∧ b = j then q / scale else S a b)

/-! ### VASP -/

/-- `soec_clamped` (vasp.py:15). -/
def soecClamped : Str := c!"SYMMETRIZED ELASTIC MODULI (kBar)"

/-- `soec_relaxed` (vasp.py:16). -/
def soecRelaxed : Str := c!"TOTAL ELASTIC MODULI (kBar)"

/-- The texts put in `error` (vasp.py:37-57, crystal.py:1437-1463). -/
inductive ReadError | notOutput | notCompleted | element (i j : Fin 6)
  deriving DecidableEq

/-- Local variables of `soec_start_line` (vasp.py:127-137). -/
structure Scan where
  counter : ℕ
  clamped : Option ℕ
  relaxed : Option ℕ

/-- One pass of the loop (vasp.py:130-137). -/
def scanLine (s : Scan) (line : Str) : Scan :=
  let s := if hasSub soecClamped line then { s with clamped := some (s.counter + 3) } else s
  if hasSub soecRelaxed line then { s with relaxed := some (s.counter + 3) }
  else { s with counter := s.counter + 1 }

/-- `soec_start_line` (vasp.py:103-141); `clamped_line` is unbound when no header was met. -/
def vaspStart (data : List Str) : Except PyErr ℕ :=
  let s := data.foldl scanLine ⟨0, none, none⟩
  match s.relaxed with
  | some n => .ok n
  | none =>
    match s.clamped with
    | some n => .ok n
    | none => .error .unboundLocal

/-- `is_soec_output` (vasp.py:79-101). -/
def isVasp (data : List Str) : Bool := data.any (hasSub soecClamped)

/-- The order of the elements in the double loop (vasp.py:48-50). -/
def allCells : List (Fin 6 × Fin 6) :=
  (List.finRange 6).flatMap fun i => (List.finRange 6).map fun j => (i, j)

/-- `data[i+sline].split()[j+1]` (vasp.py:49, 52). -/
def vaspWord (data : List Str) (sline : ℕ) (i j : Fin 6) : Option Str :=
  data[(i : ℕ) + sline]?.bind fun l => (words l)[(j : ℕ) + 1]?

/-- `VASPSOECReader.load` (vasp.py:34-63) on the lines of a file: the class-level array afterwards
and what the caller finds.  The array of the class is shared by all readers of the process. -/
def vaspLines (data : List Str) (S : Mat) : Mat × Except PyErr (Outcome ReadError) :=
  if isVasp data then
    match vaspStart data with
    | .error e => (S, .error e)
    | .ok sline =>
      match fill (vaspWord data sline) 10 allCells S with
      | (S, .error e) => (S, .error e)
      | (S, .ok (some (i, j))) => (S, .ok ⟨false, some (.element i j)⟩)
      | (S, .ok none) =>
        (fun i j => S (Equiv.swap 3 5 i) (Equiv.swap 3 5 j), .ok ⟨true, none⟩)
  else (S, .ok ⟨false, some .notOutput⟩)

/-- The same on the text of the file. -/
def loadVasp (text : Str) (S : Mat) : Mat × Except PyErr (Outcome ReadError) :=
  vaspLines (readlines text) S

/-! ### CRYSTAL -/

/-- `soec_option` (crystal.py:39). -/
def soecOption : Str := c!"ELASTCON OPTION"

/-- `soec_completed` (crystal.py:40). -/
def soecCompleted : Str := c!"FINAL RESULTS START"

/-- `soec_ec` (crystal.py:41). -/
def soecEc : Str := c!"SYMMETRIZED ELASTIC CONSTANTS"

/-- `geometry_consistent` (crystal.py:16). -/
def geometryConsistent : Str := c!"GEOMETRY NOW FULLY CONSISTENT WITH THE GROUP"

/-- `primitive_cell` (crystal.py:19). -/
def primitiveCell : Str := c!"PRIMITIVE CELL - "

/-- The dictionary `_data` of the class (crystal.py:1423-1426). -/
structure CrystalData where
  stiffness : Mat
  density : ℚ

/-- Its value when the module is imported (crystal.py:1423-1426). -/
def CrystalData.initial : CrystalData := ⟨fun _ _ => 0, 0⟩

/-- `soec_start_line` (crystal.py:1535-1563): without the header, the number of lines. -/
def crystalStart : List Str → ℕ
  | [] => 0
  | l :: ls => if hasSub soecEc l then 2 else crystalStart ls + 1

/-- `crystal_density_init` (crystal.py:1565-1596); `consistent` is the flag of the loop. -/
def crystalDensity : Bool → List Str → Except PyErr ℚ
  | _, [] => .ok 0
  | consistent, l :: ls =>
    if hasSub primitiveCell l ∧ (consistent || hasSub geometryConsistent l) then
      match (words l).reverse[1]? with
      | none => .error .indexError
      | some t =>
        match parseFloat t with
        | none => .error .valueError
        | some q => .ok (q * 1000)
    else crystalDensity (consistent || hasSub geometryConsistent l) ls

/-- The order of the elements in the double loop (crystal.py:1454-1456). -/
def upperCells : List (Fin 6 × Fin 6) := allCells.filter fun p => p.1 ≤ p.2

/-- `data[i+sline].replace('|','').split()[j]` (crystal.py:1455, 1458) for the element `[i, j+i]`. -/
def crystalWord (data : List Str) (sline : ℕ) (i j : Fin 6) : Option Str :=
  data[(i : ℕ) + sline]?.bind fun l => (words (l.filter (· ≠ '|')))[(j : ℕ) - i]?

/-- `CrystalSOECReader.load` (crystal.py:1434-1468) on the lines of a file, with `is_soec_output` (crystal.py:1484-1507) and
`is_output_completed` (crystal.py:1509-1533).  The last statement is an in-place addition to the array of the class. -/
def crystalLines (data : List Str) (d : CrystalData) :
    CrystalData × Except PyErr (Outcome ReadError) :=
  if !data.any (hasSub soecOption) then (d, .ok ⟨false, some .notOutput⟩)
  else if !data.any (hasSub soecCompleted) then (d, .ok ⟨false, some .notCompleted⟩)
  else
    match crystalDensity false data with
    | .error e => (d, .error e)
    | .ok rho =>
      match fill (crystalWord data (crystalStart data)) 1 upperCells d.stiffness with
      | (S, .error e) => (⟨S, rho⟩, .error e)
      | (S, .ok (some (i, j))) => (⟨S, rho⟩, .ok ⟨false, some (.element i j)⟩)
      | (S, .ok none) =>
        (⟨fun i j => S i j + triu S 1 j i, rho⟩, .ok ⟨true, none⟩)

/-- The same on the text of the file. -/
def loadCrystal (text : Str) (d : CrystalData) : CrystalData × Except PyErr (Outcome ReadError) :=
  crystalLines (readlines text) d

end Verif.Interfaces
