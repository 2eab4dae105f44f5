/-
Specification of the file names and of the messages of a command.
-/
import Verif.Py.Basic
import Mathlib.Data.List.Basic

namespace Verif.Command.Spec
open Verif.Py

/-- The path is the directory `dir`, empty or ending with a slash, followed by the name `name`. -/
def Splits (path dir name : Str) : Prop :=
  path = dir ++ name ∧ '/' ∉ name ∧ (dir = [] ∨ ∃ d, dir = d ++ ['/'])

/-- The name at the end of the path is not empty and does not consist of points only. -/
def HasName (path : Str) : Prop := ∃ dir name, Splits path dir name ∧ ∃ c ∈ name, c ≠ '.'

/-- The path without its extension: what precedes the last point of the name, unless all that precedes it
in the name are points; then there is no extension. -/
inductive Base : Str → Str → Prop
  | extension (stem ext : Str) (hs : HasName stem) (hd : '.' ∉ ext) (hx : '/' ∉ ext) : Base (stem ++ '.' :: ext) stem
  | plain (path dir points rest : Str) (h : Splits path dir (points ++ rest)) (hp : ∀ c ∈ points, c = '.')
      (hr : '.' ∉ rest) : Base path path

/-- The option -o names the results without extension; by default they are named after the input. -/
def resultsName (suffix stem : Str) : Option Str → Str
  | none => stem ++ suffix ++ c!".hdf5"
  | some o => o ++ c!".hdf5"

/-- The log has the name of the results, with the extension txt. -/
def logName (suffix stem : Str) : Option Str → Str
  | none => stem ++ suffix ++ c!".txt"
  | some o => o ++ c!".txt"

/-- A suffix as those of the commands: it has neither points nor slashes and is not empty. -/
def IsSuffix (s : Str) : Prop := s ≠ [] ∧ '.' ∉ s ∧ '/' ∉ s

end Verif.Command.Spec
