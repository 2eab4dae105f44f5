/-
Specification of text files, independent of the readers: what a decimal numeral denotes, what a
line of numbers is, and what the lines of a file are.
-/
import Mathlib.Data.Rat.Defs
import Mathlib.Algebra.Order.Ring.Unbundled.Rat
import Verif.Tac
import Verif.Py.Basic

namespace Verif.IO.Spec
open Verif.Py

/-- The decimal digits. -/
def digits : List Char := ['0', '1', '2', '3', '4', '5', '6', '7', '8', '9']

/-- `s` consists of digits. -/
def Digits (s : Str) : Prop := ∀ c ∈ s, c ∈ digits

/-- The natural number a string of digits denotes. -/
def natOf (s : Str) : ℕ := (s.map fun c => digits.idxOf c).foldl (fun n d => n * 10 + d) 0

/-- A sign and its factor. -/
def Sign (s : Str) (f : ℤ) : Prop := s = [] ∧ f = 1 ∨ s = ['+'] ∧ f = 1 ∨ s = ['-'] ∧ f = -1

/-- A mantissa: digits with at most one decimal point. -/
def Mantissa (s : Str) (q : ℚ) : Prop :=
  (∃ a, Digits a ∧ a ≠ [] ∧ s = a ∧ q = natOf a) ∨
  (∃ a b, Digits a ∧ Digits b ∧ a ++ b ≠ [] ∧ s = a ++ '.' :: b ∧
    q = natOf a + (natOf b : ℚ) / 10 ^ b.length)

/-- A power of ten. -/
def Exponent (s : Str) (e : ℤ) : Prop :=
  s = [] ∧ e = 0 ∨ ∃ c sgn f ds, (c = 'e' ∨ c = 'E') ∧ Sign sgn f ∧ Digits ds ∧ ds ≠ [] ∧
    s = c :: sgn ++ ds ∧ e = f * natOf ds

/-- `s` is a decimal numeral for `q`, e.g. `-12.50e-1`. -/
def Numeral (s : Str) (q : ℚ) : Prop :=
  ∃ sgn f m a x e, Sign sgn f ∧ Mantissa m a ∧ Exponent x e ∧ s = sgn ++ m ++ x ∧
    q = f * (a * (10 : ℚ) ^ e)

/-- Blank characters inside a line. -/
def Blank (s : Str) : Prop := ∀ c ∈ s, c = ' ' ∨ c = '\t'

/-- A line made of tokens separated by blanks. -/
inductive Tokens : List Str → Str → Prop
  | nil {g : Str} : Blank g → Tokens [] g
  | last {g s : Str} : Blank g → Tokens [s] (g ++ s)
  | cons {g s : Str} {c : Char} {ts : List Str} {rest : Str} : Blank g → (c = ' ' ∨ c = '\t') →
      Tokens ts rest → Tokens (s :: ts) (g ++ s ++ c :: rest)

/-- A line made of the numerals of the numbers `qs`, separated by blanks. -/
def Numbers (qs : List ℚ) (l : Str) : Prop :=
  ∃ ts, Tokens ts l ∧ List.Forall₂ Numeral ts qs

/-- The file whose lines are `ls`; the last newline may be missing. -/
def IsFile (ls : List Str) (text : Str) : Prop :=
  (∀ l ∈ ls, '\n' ∉ l) ∧
    (text = List.intercalate ['\n'] ls ∨ text = List.intercalate ['\n'] ls ++ ['\n'])

end Verif.IO.Spec
