/-
Chemical symbols and atomic numbers (quantas/utils/chemistry).
-/
import Mathlib.Data.Int.Notation
import Verif.Py.Basic

namespace Verif.Chemistry
open Verif.Py

/-- Python list indexing `l[i]`: negative indices count from the end (language semantics; used by
chemistry/symbols.py:14). -/
def pyIndex {α : Type} (l : List α) (i : ℤ) : Except PyErr α :=
  if 0 ≤ i then
    match l[i.toNat]? with
    | some x => .ok x
    | none => .error .indexError
  else if (l.length : ℤ) + i < 0 then .error .indexError
  else
    match l[((l.length : ℤ) + i).toNat]? with
    | some x => .ok x
    | none => .error .indexError

/-- A Python dictionary with string keys, as a function. -/
abbrev Dict := Str → Option ℕ

/-- `d[k] = v`. -/
def Dict.set (d : Dict) (k : Str) (v : ℕ) : Dict := fun s => if s = k then some v else d s

/-- `chemical_symbols` (chemistry/__init__.py:11-35). -/
def chemicalSymbols : List Str := [
  c!"X", c!"H", c!"He", c!"Li", c!"Be", c!"B", c!"C", c!"N", c!"O", c!"F", c!"Ne", c!"Na",
  c!"Mg", c!"Al", c!"Si", c!"P", c!"S", c!"Cl", c!"Ar", c!"K", c!"Ca", c!"Sc", c!"Ti",
  c!"V", c!"Cr", c!"Mn", c!"Fe", c!"Co", c!"Ni", c!"Cu", c!"Zn", c!"Ga", c!"Ge", c!"As",
  c!"Se", c!"Br", c!"Kr", c!"Rb", c!"Sr", c!"Y", c!"Zr", c!"Nb", c!"Mo", c!"Tc", c!"Ru",
  c!"Rh", c!"Pd", c!"Ag", c!"Cd", c!"In", c!"Sn", c!"Sb", c!"Te", c!"I", c!"Xe", c!"Cs",
  c!"Ba", c!"La", c!"Ce", c!"Pr", c!"Nd", c!"Pm", c!"Sm", c!"Eu", c!"Gd", c!"Tb", c!"Dy",
  c!"Ho", c!"Er", c!"Tm", c!"Yb", c!"Lu", c!"Hf", c!"Ta", c!"W", c!"Re", c!"Os", c!"Ir",
  c!"Pt", c!"Au", c!"Hg", c!"Tl", c!"Pb", c!"Bi", c!"Po", c!"At", c!"Rn", c!"Fr", c!"Ra",
  c!"Ac", c!"Th", c!"Pa", c!"U", c!"Np", c!"Pu", c!"Am", c!"Cm", c!"Bk", c!"Cf", c!"Es",
  c!"Fm", c!"Md", c!"No", c!"Lr", c!"Rf", c!"Db", c!"Sg", c!"Bh", c!"Hs", c!"Mt", c!"Ds",
  c!"Rg", c!"Cn", c!"Nh", c!"Fl", c!"Mc", c!"Lv", c!"Ts", c!"Og"]

/-- The loop `for Z, symbol in enumerate(chemical_symbols)` from `Z` on
(chemistry/__init__.py:38-39). -/
def fillNumbers : ℕ → List Str → Dict → Dict
  | _, [], d => d
  | Z, s :: rest, d => fillNumbers (Z + 1) rest (d.set s Z)

/-- `atomic_numbers` (chemistry/__init__.py:37-39). -/
def atomicNumbers : Dict := fillNumbers 0 chemicalSymbols fun _ => none

/-- `number2symbol` (chemistry/symbols.py:13-14). -/
def number2symbol (Z : ℤ) : Except PyErr Str := pyIndex chemicalSymbols Z

/-- `symbol2number` (chemistry/symbols.py:16-17). -/
def symbol2number (s : Str) : Except PyErr ℕ :=
  match atomicNumbers s with
  | some Z => .ok Z
  | none => .error .keyError

end Verif.Chemistry
