/-
Specification of the exported tables.
-/
import Verif.IO.TextLemmas
import Verif.Phonon.YamlSpec

namespace Verif.Export.Spec
open Verif.Py Verif.IO.Spec

/-- A line ruled with the character. -/
def IsRule (c : Char) (l : Str) : Prop := ∃ k, l = '+' :: List.replicate k c ++ ['+']

/-- The line with two labels. -/
def IsLabels (a b : Str) (l : Str) : Prop :=
  ∃ p q r, Blank p ∧ Blank q ∧ q ≠ [] ∧ Blank r ∧ l = p ++ a ++ q ++ b ++ r

/-- `l` is the line of the entry `t`: `t` with two decimals, and one number for each of the `n` values
`z 0`, …, `z (n - 1)`, written as `close` says. -/
def IsRow (close : ℚ → ℚ → Prop) (t : ℚ) (n : ℕ) (z : ℕ → ℚ) (l : Str) : Prop :=
  ∃ t' vs, Rounded 2 t t' ∧ vs.length = n ∧ (∀ (j : ℕ) v, vs[j]? = some v → close (z j) v) ∧
    Numbers (t' :: vs) l

/-- The text is a table of the values `z i j`, with one line for each of the `x i` and one column for each
of the `y j`.  `body` are the lines from the first rule on. -/
structure IsTable (close : ℚ → ℚ → Prop) (x y : List ℚ) (z : ℕ → ℕ → ℚ) (desc unit xlabel ylabel : Str)
    (body : List Str) (text : Str) : Prop where
  lines : ∀ l ∈ body, '\n' ∉ l
  text_eq : text = List.intercalate ['\n']
    ([c!"*- This file was created using Quantas -*", [], desc, unit, []] ++ body)
  body_eq : ∃ r1 labels cols r2 rows r3, body = r1 :: labels :: cols :: r2 :: (rows ++ [r3]) ∧
    IsRule '-' r1 ∧ IsLabels xlabel ylabel labels ∧ IsRule '=' r2 ∧ IsRule '=' r3 ∧
    (∃ ys, List.Forall₂ (Rounded 8) y ys ∧ Numbers ys cols) ∧
    rows.length = x.length ∧
    ∀ (i : ℕ) t l, x[i]? = some t → rows[i]? = some l → IsRow close t y.length (z i) l

/-- The numbers fit in the cells: all numbers written in scientific notation do when they are doubles. -/
def FitsTemperature (x : ℚ) : Prop := |x| ≤ 10 ^ 6 - 1

/-- Numbers with eight decimals. -/
def FitsFixed (x : ℚ) : Prop := |x| ≤ 10 ^ 10 - 1

/-- Numbers in scientific notation: every double is one of these. -/
def FitsEnergy (x : ℚ) : Prop := x = 0 ∨ (1 / 10 ^ 324 ≤ |x| ∧ |x| < 10 ^ 309)

end Verif.Export.Spec
