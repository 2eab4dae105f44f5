/-
The Python text operations used by the readers and writers of /repo/quantas/IO: `readlines`,
`split`, `strip`, `rstrip`, `join`, `float(str)` and fixed-point formatting.  Characters are ASCII as
far as white space, digits and letter case are concerned; text files are taken after newline
translation.  Numbers are exact rationals instead of doubles.
-/
import Mathlib.Algebra.Order.Floor.Ring
import Mathlib.Data.Rat.Floor
import Verif.Tac
import Verif.Py.Basic

namespace Verif.IO
open Verif.Py

/-- White space for `str.split()` and `str.strip()` (ASCII part). -/
def isSpace (c : Char) : Bool :=
  c = ' ' || c = '\t' || c = '\n' || c = '\r' || c = '\x0b' || c = '\x0c'

/-- ASCII digits. -/
def isDigit (c : Char) : Bool := '0' ≤ c && c ≤ '9'

/-- The pieces between separators, empty pieces included. -/
def fields (p : Char → Bool) : Str → List Str
  | [] => [[]]
  | c :: cs =>
    if p c then [] :: fields p cs
    else match fields p cs with
      | [] => [[c]]
      | f :: fs => (c :: f) :: fs

/-- `s.split()`. -/
def words (s : Str) : List Str := (fields isSpace s).filter (· ≠ [])

/-- `f.readlines()`: every line keeps its newline; nothing follows the last newline. -/
def readlines : Str → List Str
  | [] => []
  | c :: cs =>
    if c = '\n' then ['\n'] :: readlines cs
    else match readlines cs with
      | [] => [[c]]
      | l :: ls => (c :: l) :: ls

/-- `s.rstrip()`. -/
def rstrip (s : Str) : Str := (s.reverse.dropWhile isSpace).reverse

/-- `s.lstrip()`. -/
def lstrip (s : Str) : Str := s.dropWhile isSpace

/-- `s.strip()`. -/
def strip (s : Str) : Str := rstrip (lstrip s)

/-- `s.rstrip('\n')`. -/
def rstripNewline (s : Str) : Str := (s.reverse.dropWhile (· = '\n')).reverse

/-- `'\n'.join(ls)`. -/
def joinLines : List Str → Str
  | [] => []
  | [l] => l
  | l :: ls => l ++ '\n' :: joinLines ls

/-! ### Numbers -/

/-- The value of a digit. -/
def digitVal (c : Char) : ℕ := c.toNat - '0'.toNat

/-- The value of a string of digits. -/
def digitsVal (s : Str) : ℕ := s.foldl (fun n c => 10 * n + digitVal c) 0

/-- An optional sign: whether it is a minus, and the rest. -/
def takeSign : Str → Bool × Str
  | '-' :: t => (true, t)
  | '+' :: t => (false, t)
  | s => (false, s)

/-- The exponent part of a number: nothing, or `e`/`E`, an optional sign and at least one digit. -/
def parseExp : Str → Option ℤ
  | [] => some 0
  | c :: t =>
    if c = 'e' ∨ c = 'E' then
      let (neg, ds) := takeSign t
      if ds ≠ [] ∧ ds.all isDigit then
        some (if neg then -(digitsVal ds : ℤ) else digitsVal ds)
      else none
    else none

/-- The fraction of a number: the digits after a point, and the rest. -/
def takeFraction : Str → Str × Str
  | '.' :: t => (t.takeWhile isDigit, t.dropWhile isDigit)
  | s => ([], s)

/-- An unsigned number. -/
def parseUnsigned (s : Str) : Option ℚ :=
  let int := s.takeWhile isDigit
  let (frac, rest) := takeFraction (s.dropWhile isDigit)
  if int ++ frac = [] then none
  else match parseExp rest with
    | some e => some ((digitsVal (int ++ frac) : ℚ) * 10 ^ (e - frac.length))
    | none => none

/-- `float(s)` and `np.float64(s)`; `none` is ValueError.  Simplifications: `inf`, `nan` and digits
separated by underscores, which Python accepts, are refused; values are not rounded to doubles. -/
def parseFloat (s : Str) : Option ℚ :=
  let (neg, u) := takeSign (strip s)
  match parseUnsigned u with
  | some q => some (if neg then -q else q)
  | none => none

/-- The character of a digit. -/
def digitChar (n : ℕ) : Char := Char.ofNat (n + 48)

/-- Decimal digits of a natural number. -/
def showNat (n : ℕ) : Str :=
  if _ : n < 10 then [digitChar n] else showNat (n / 10) ++ [digitChar (n % 10)]
  termination_by n

/-- The last `d` decimal digits. -/
def lastDigits : ℕ → ℕ → Str
  | 0, _ => []
  | d + 1, n => lastDigits d (n / 10) ++ [digitChar (n % 10)]

/-- Rounding to the nearest integer, ties to even. -/
def roundHalfEven (q : ℚ) : ℤ :=
  let f := ⌊q⌋
  if q - f < 1 / 2 then f
  else if 1 / 2 < q - f then f + 1
  else if f % 2 = 0 then f else f + 1

/-- `'{:.df}'.format(x)` for `d ≥ 1` (the decimals of `abs(x)` correctly rounded, ties to even). -/
def formatFixed (d : ℕ) (x : ℚ) : Str :=
  let n := (roundHalfEven (|x| * 10 ^ d)).toNat
  (if x < 0 then ['-'] else []) ++ showNat (n / 10 ^ d) ++ '.' :: lastDigits d n

/-- `'{: .df}'`: a space in place of the sign of a non-negative number. -/
def formatSpaced (d : ℕ) (x : ℚ) : Str :=
  (if x < 0 then [] else [' ']) ++ formatFixed d x

/-- Right alignment in a field of `w` characters. -/
def alignRight (w : ℕ) (s : Str) : Str := List.replicate (w - s.length) ' ' ++ s

end Verif.IO
