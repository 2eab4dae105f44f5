/-
How a command is found by its name (/repo/quantas/cmdline/utils/general.py, `MostSimilarCommandGroup`), and the commands
that are registered (/repo/quantas/cmdline/commands).  The commands of a group are an association list in the order of
`add_command`.  Of Python's difflib, `get_close_matches` is modelled and the similarity of two words, a number between 0 and
1, is a parameter.
-/
import Mathlib.Algebra.Order.Field.Rat
import Mathlib.Data.Char
import Mathlib.Data.List.Lex
import Mathlib.Data.List.Sort
import Verif.IO.Text

namespace Verif.Command
open Verif.Py
open Verif.IO (joinLines)

/-- The order of Python's `sorted` on texts (code points, lexicographic). -/
def sortedTexts (l : List Str) : List Str := l.insertionSort (· ≤ ·)

/-- The order of pairs of a score and a word, the largest first (`heapq.nlargest` in `get_close_matches`). -/
def Larger (a b : ℚ × Str) : Prop := b.1 < a.1 ∨ b.1 = a.1 ∧ b.2 ≤ a.2

instance : DecidableRel Larger := fun a b => by unfold Larger; infer_instance

/-- `difflib.get_close_matches(word, possibilities, n=3, cutoff=0.5)` (general.py:37-38). -/
def closeMatches (ratio : Str → Str → ℚ) (word : Str) (possibilities : List Str) : List Str :=
  ((((possibilities.filter fun x => 1 / 2 ≤ ratio x word).map fun x => (ratio x word, x)).insertionSort Larger).take
    3).map Prod.snd

/-- A command, or the text of the usage error that ends the program. -/
inductive Found (α : Type)
  | command (c : α)
  | fail (message : Str)
  deriving DecidableEq

/-- `c.startswith(name)`. -/
def startsWith (c name : Str) : Bool := name.isPrefixOf c

/-- The candidates that are suggested (general.py:37-42). -/
def candidates (ratio : Str → Str → ℚ) (commands : List Str) (name : Str) : List Str :=
  let close := closeMatches ratio name (sortedTexts commands)
  if close = [] then ((sortedTexts (sortedTexts commands)).filter fun c => startsWith c name).take 3 else close

/-- `get_command` (general.py:26-59). -/
def getCommand {α : Type} (ratio : Str → Str → ℚ) (table : List (Str × α)) (name : Str) : Found α :=
  match table.lookup name with
  | some c => .command c
  | none =>
    let m := candidates ratio (table.map Prod.fst) name
    if m ≠ [] then
      .fail (c!"'" ++ name ++ c!"' is not a Quantas command.\n\nThe most similar commands are: \n" ++
        joinLines ((sortedTexts m).map fun c => ['\t'] ++ c))
    else .fail (c!"'" ++ name ++ c!"' is not a Quantas command.\n\nNo similar commands found.")

/-- The Python functions behind the commands. -/
inductive Callable
  | inpgen | export | haCalculation | qhaCalculation | soecCalculation | eosCalculation | seismicCalculation
  | haExport | qhaExport | soecExport | seismicExport | haInpgen | soecInpgen
  deriving DecidableEq

/-- The commands of `quantas` (cmd_quantas.py:47-52; names in cmd_inpgen.py:22, cmd_export.py:24, cmd_ha.py:35, cmd_qha.py:50,
cmd_soec.py:35, cmd_eosfit.py:34). -/
def cli : List (Str × Callable) :=
  [(c!"inpgen", .inpgen), (c!"export", .export), (c!"ha", .haCalculation), (c!"qha", .qhaCalculation),
    (c!"soec", .soecCalculation), (c!"eosfit", .eosCalculation)]

/-- The commands of `quantas export` (cmdline/commands/cmd_export.py:28-30). -/
def exportGroup : List (Str × Callable) :=
  [(c!"ha", .haExport), (c!"qha", .qhaExport), (c!"soec", .soecExport)]

/-- The commands of `quantas inpgen` (cmdline/commands/cmd_inpgen.py:27-28). -/
def inpgenGroup : List (Str × Callable) := [(c!"ha", .haInpgen), (c!"soec", .soecInpgen)]

/-- What the words after `quantas` run: a group looks its first word up and passes the second one on (click). -/
def resolve (ratio : Str → Str → ℚ) : List Str → Option (Found Callable)
  | [] => none
  | [w] => some (getCommand ratio cli w)
  | w :: v :: _ =>
    match getCommand ratio cli w with
    | .command .export => some (getCommand ratio exportGroup v)
    | .command .inpgen => some (getCommand ratio inpgenGroup v)
    | r => some r

end Verif.Command
