/-
Model of the elastic input reader and writer: /repo/quantas/IO/soec_reader.py (class
SOECInputFileReader) and /repo/quantas/IO/soec_writer.py (class SOECInputCreator).
-/
import Mathlib.Algebra.BigOperators.Fin
import Verif.IO.Text

namespace Verif.IO
open Verif.Py

/-- A 6×6 array. -/
abbrev Mat := Fin 6 → Fin 6 → ℚ

/-- The dictionary `_data`, which belongs to the class (soec_reader.py:34-38). -/
structure SoecData where
  job : Str
  stiffness : Option Mat
  density : ℚ

/-- Its value when the module is imported (soec_reader.py:34-38). -/
def SoecData.initial : SoecData := { job := c!"Unknown", stiffness := none, density := 0 }

/-- The texts put in `error` (soec_reader.py:106-163). -/
inductive SoecError | tooShort | shape | notFloat | notSymmetric | density
  deriving DecidableEq

/-- What the caller finds in `completed` and `error`. -/
structure Outcome (E : Type) where
  completed : Bool
  error : Option E
  deriving DecidableEq

/-- One assignment `matrix[i][j+(6-n)] = line[j]` (soec_reader.py:134): negative indices count from
the end, an index below -6 raises IndexError. -/
def setEntry (n : ℕ) (row : Fin 6 → ℚ) (p : Str × ℕ) : Except PyErr (Fin 6 → ℚ) :=
  let idx : ℤ := p.2 + (6 - n)
  if idx < -6 ∨ 6 ≤ idx then .error .indexError
  else match parseFloat p.1 with
    | none => .error .valueError
    | some q => .ok (Function.update row (Fin.ofNat 6 (idx + 6).toNat) q)

/-- One row of the matrix (soec_reader.py:131-134). -/
def fillRow (line : Str) : Except PyErr (Fin 6 → ℚ) :=
  let toks := words line
  toks.zipIdx.foldlM (setEntry toks.length) fun _ => 0

/-- The loop over rows (soec_reader.py:130-134). -/
def fillRows : List Str → Except PyErr (List (Fin 6 → ℚ))
  | [] => .ok []
  | l :: ls => do
    let r ← fillRow l
    let rs ← fillRows ls
    .ok (r :: rs)

/-- `np.triu(matrix, k)`. -/
def triu (m : Mat) (k : ℤ) : Mat := fun i j => if k ≤ (j : ℤ) - i then m i j else 0

/-- `np.tril(matrix, k)`. -/
def tril (m : Mat) (k : ℤ) : Mat := fun i j => if (j : ℤ) - i ≤ k then m i j else 0

/-- `linalg.norm(matrix - matrix.transpose()) > 1e-3` (soec_reader.py:148), squared. -/
def asymmetric (m : Mat) : Prop :=
  (1 / 1000) ^ 2 < ∑ i, ∑ j, (m i j - m j i) ^ 2

instance (m : Mat) : Decidable (asymmetric m) := by unfold asymmetric; infer_instance

/-- The completion of triangular matrices (soec_reader.py:140-147). -/
def complete (form : List ℕ) (m : Mat) : Mat :=
  let m := if form = [6, 5, 4, 3, 2, 1] then fun i j => m i j + triu m 1 j i else m
  if form = [1, 2, 3, 4, 5, 6] then fun i j => m i j + tril m 1 j i else m

/-- The density line (soec_reader.py:156-167). -/
def readDensity (line : Option Str) (d : SoecData) : SoecData × Except PyErr (Outcome SoecError) :=
  match line with
  | none => (d, .ok ⟨true, none⟩)
  | some l =>
    match (words l).head? with
    | none => (d, .ok ⟨true, none⟩)
    | some t =>
      match parseFloat t with
      | none => (d, .ok ⟨false, some .density⟩)
      | some q => ({ d with density := q }, .ok ⟨true, none⟩)

/-- `SOECInputFileReader.load` on the text of a file (soec_reader.py:90-167): the dictionary
afterwards, and the outcome or the exception.  `np.float64` of a single character succeeds exactly
on digits. -/
def loadSoec (text : Str) (d : SoecData) : SoecData × Except PyErr (Outcome SoecError) :=
  let data := readlines text
  if data.length < 6 then (d, .ok ⟨false, some .tooShort⟩)
  else
    match (strip (data.headD [])).head? with
    | none => (d, .error .indexError)
    | some c =>
      let start := if isDigit c then 0 else 1
      let d := if isDigit c then d else { d with job := rstrip (data.headD []) }
      if data.length < 6 + start then (d, .ok ⟨false, some .shape⟩)
      else
        let matstr := (data.drop start).take 6
        match fillRows matstr with
        | .error e => (d, if e = .valueError then .ok ⟨false, some .notFloat⟩ else .error e)
        | .ok rows =>
          let matrix : Mat := fun i j => rows.getD i (fun _ => 0) j
          let matrix := complete (matstr.map fun l => (words l).length) matrix
          if asymmetric matrix then (d, .ok ⟨false, some .notSymmetric⟩)
          else readDensity data[start + 6]? { d with stiffness := some matrix }

/-- One line of moduli (soec_writer.py:74-78). -/
def writeRow (row : Fin 6 → ℚ) : Str :=
  (List.finRange 6).flatMap fun j => alignRight 11 (formatSpaced 4 (row j)) ++ [' ']

/-- `SOECInputCreator.write` (soec_writer.py:56-83): the text of the file. -/
def writeSoec (C : Mat) (density : ℚ) (jobname : Str) : Str :=
  joinLines ([jobname] ++ (List.finRange 6).map (fun i => writeRow (C i)) ++
    [alignRight 9 (formatFixed 1 density)])

end Verif.IO
