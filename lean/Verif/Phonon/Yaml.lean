/-
The Python values that `yaml.safe_load` returns, and the operations of Python and NumPy that the
readers of phonon data apply to them (quantas/IO/qha_reader.py, quantas/interfaces/phonopy.py).
PyYAML itself is not modelled: the readers are modelled on the tree it returns.
-/
import Verif.Interfaces.Crystal

noncomputable section

namespace Verif.Phonon
open Verif.Py Verif.IO Verif.Interfaces

/-- A value loaded from YAML.  Simplifications: the keys of mappings are strings, floats are
rationals (no inf and nan), there are no dates. -/
inductive Node
  | null
  | bool (b : Bool)
  | int (n : ℤ)
  | float (q : ℚ)
  | str (s : Str)
  | list (l : List Node)
  | map (l : List (Str × Node))

/-- The value of a key in a mapping. -/
def find (key : Str) : List (Str × Node) → Option Node
  | [] => none
  | (k, v) :: rest => if k = key then some v else find key rest

/-- `x[key]` for a string `key`: only mappings have string keys. -/
def get (x : Node) (key : Str) : Except PyErr Node :=
  match x with
  | .map l => match find key l with
    | some v => .ok v
    | none => .error .keyError
  | _ => .error .typeError

/-- `x[i]` for an index `i ≥ 0` and a sequence `x`; the keys of mappings are strings. -/
def item (x : Node) (i : ℕ) : Except PyErr Node :=
  match x with
  | .list l => at_ l i
  | .str s => (at_ s i).map fun c => .str [c]
  | .map _ => .error .keyError
  | _ => .error .typeError

/-- `key in x` for a string `key`. -/
def contains (x : Node) (key : Str) : Except PyErr Bool :=
  match x with
  | .map l => .ok (find key l).isSome
  | .str s => .ok (hasSub key s)
  | .list l => .ok (l.any fun y => match y with
      | .str s => s = key
      | _ => false)
  | _ => .error .typeError

/-- `for y in x`. -/
def iterate (x : Node) : Except PyErr (List Node) :=
  match x with
  | .map l => .ok (l.map fun p => .str p.1)
  | .str s => .ok (s.map fun c => .str [c])
  | .list l => .ok l
  | _ => .error .typeError

/-- A number of an array; `none` is nan. -/
abbrev Fl := Option ℚ

/-- What `np.float64(x)` and `np.array(x, dtype=np.float64)` return: a number or an array of one
dimension. -/
inductive Arr
  | scalar (x : Fl)
  | vec (l : List Fl)

/-- The conversion of one item to a float.  Simplification: sequences inside sequences, of which NumPy
makes arrays of more dimensions when they are rectangular, are refused. -/
def itemFloat : Node → Except PyErr Fl
  | .null => .ok none
  | .bool b => .ok (some (if b then 1 else 0))
  | .int n => .ok (some n)
  | .float q => .ok (some q)
  | .str s => (toFloat s).map some
  | .list _ => .error .typeError
  | .map _ => .error .typeError

/-- `np.float64(x)`. -/
def npFloat : Node → Except PyErr Arr
  | .list l => (each itemFloat l).map .vec
  | x => (itemFloat x).map .scalar

/-- `np.array(x[0].split(), dtype=np.float64)`: only strings have `split`. -/
def splitFirst (x : Node) : Except PyErr Arr :=
  (item x 0).bind fun y =>
    match y with
    | .str s => (each toFloat (words s)).map fun l => .vec (l.map some)
    | _ => .error .attributeError

/-- `np.int64(x)` on a scalar: floats are truncated towards zero.  Simplification: sequences are
refused (the arrays NumPy makes of them are rejected where these numbers are used). -/
def npInt : Node → Except PyErr ℤ
  | .bool b => .ok (if b then 1 else 0)
  | .int n => .ok n
  | .float q => .ok (if q < 0 then ⌈q⌉ else ⌊q⌋)
  | .str s => toInt s
  | _ => .error .typeError

end Verif.Phonon
