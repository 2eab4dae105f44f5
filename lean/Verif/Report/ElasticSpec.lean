/-
What the log of the elastic calculator should say.
-/
import Verif.IO.TextLemmas
import Verif.Report.Elastic

namespace Verif.Report.Spec
open Verif.Py Verif.IO Verif.IO.Spec

/-- A number with `d` decimals. -/
def IsDecimal (d : ℕ) (x : ℚ) (t : Str) : Prop := ∃ v, Rounded d x v ∧ Numeral t v

/-- A number with `d` decimals, `inf` or `nan`. -/
def IsNum (d : ℕ) : Num → Str → Prop
  | .val q, t => IsDecimal d q t
  | .inf, t => t = c!"inf"
  | .nan, t => t = c!"nan"

/-- A line of numbers with `d` decimals. -/
def IsRow (d : ℕ) (xs : List ℚ) (l : Str) : Prop := ∃ qs, List.Forall₂ (Rounded d) xs qs ∧ Numbers qs l

/-- A line of a table: its label, if any, and groups of numbers with four decimals, each after a bar. -/
def IsTableRow (label : Str) (groups : List (List Num)) (l : Str) : Prop :=
  ∃ cells : List (List Str), List.Forall₂ (List.Forall₂ (IsNum 4)) groups cells ∧
    Tokens ((if label = [] then [] else [label]) ++ (cells.map (c!"|" :: ·)).flatten) l

/-- A line of titles, laid out in the same way. -/
def IsTitles (groups : List (List Str)) (l : Str) : Prop := Tokens (groups.map (c!"|" :: ·)).flatten l

/-- Name and numbers of one average. -/
def IsAverage (name : Str) (a : Fin 4 → ℚ) (l : Str) : Prop :=
  ∃ ts, List.Forall₂ (IsDecimal 5) (List.ofFn a) ts ∧ Tokens (name :: ts) l

/-- The three lines of an axis of the extremes of some properties: minimum and maximum side by side. -/
def IsAxis (label : Str) (axes : List ((Fin 3 → ℚ) × (Fin 3 → ℚ))) (ls : List Str) : Prop :=
  ls.length = 3 ∧ ∀ (i : Fin 3) l, ls[i.1]? = some l →
    IsTableRow (if i = 1 then label else []) (axes.map fun a => [.val (a.1 i), .val (a.2 i)]) l

/-- The lines with the extremes, the anisotropy and the first axes of some properties. -/
def IsExtremes (axis : Str) (vs : List Extremes) (values anisotropy : Str) (axes : List Str) : Prop :=
  IsTableRow c!"Values" (vs.map fun v => [.val v.minimum, .val v.maximum]) values ∧
  IsTableRow c!"Anisotropy" (vs.map fun v => [v.anisotropy]) anisotropy ∧
  IsAxis axis (vs.map fun v => (v.minAxis1, v.maxAxis1)) axes

end Verif.Report.Spec
