/-
Specification of the tables exported from seismic results.
-/
import Verif.Export.TableSpec
import Verif.Export.Seismic

noncomputable section

namespace Verif.Export.Spec
open Verif.Py Verif.IO.Spec

/-- The three waves. -/
inductive Wave | slow | fast | primary
  deriving DecidableEq

/-- What the user selects. -/
def Wave.key : Wave → Str
  | .slow => c!"ssecondary"
  | .fast => c!"fsecondary"
  | .primary => c!"primary"

/-- How the wave is described. -/
def Wave.text : Wave → Str
  | .slow => c!"  - slow secondary data (ssecondary)"
  | .fast => c!"  - fast secondary data (fsecondary)"
  | .primary => c!"  - primary data (primary)"

/-- The lines before the numbers. -/
def waveIntro (w : Wave) : List Str :=
  [[], c!"This file was created with Quantas.", [],
   c!"It contains the results of the Christoffel equation appliet to the second-order",
   c!"elastic constants (SOECs, matrix in Voigt's notation), performed with the",
   c!"following settings:",
   c!"  - pressure scale:    GPa",
   c!"  - density: kg m^-3", [],
   c!"This file contains the following dataset:", w.text, [],
   c!"Each dataset contains the following results (measurement unit):",
   c!"  - Column 1     : Theta angle (rad)",
   c!"  - Column 2     : Phi angle (rad)",
   c!"  - Column 3     : Phase velocity (km s^-1)",
   c!"  - Column 4     : Relative phase velocity (%)",
   c!"  - Columns 5-7  : Phase polarization (x,y,z)",
   c!"  - Column 8     : Group velocity (km s^-1)",
   c!"  - Column 9     : Relative group velocity (%)",
   c!"  - Columns 10-12: x, y, and z coordinates of the ray surface",
   c!"  - Column 13    : Powerflow angle (degree)",
   c!"  - Column 14    : Enhancement factor (log_10A)", [], []]

/-- The decimals of the fourteen numbers of a line. -/
def waveDecimals : List ℕ := [6, 6, 5, 3, 4, 4, 4, 5, 3, 5, 5, 5, 4, 4]

/-- The text has one line for each row, with its fourteen numbers rounded. -/
def IsWaveTable (w : Wave) (rows : List (List ℚ)) (text : Str) : Prop :=
  ∃ lines, text = (waveIntro w ++ lines).flatMap (· ++ ['\n']) ∧ (∀ l ∈ lines, '\n' ∉ l) ∧
    List.Forall₂ (fun row l => ∃ vs, vs.length = 14 ∧ Numbers vs l ∧
      ∀ (j : ℕ) d x v, waveDecimals[j]? = some d → row[j]? = some x → vs[j]? = some v → Rounded d x v) rows lines

/-- The table of a wave in a file. -/
def tableFor (slow fast primary : List (List ℚ)) : Wave → List (List ℚ)
  | .slow => slow
  | .fast => fast
  | .primary => primary

/-- The file is no seismic result file: it is no result file at all, or it holds no primary waves. -/
def NoWaves (f : H5) : Prop := f.attrs.lookup c!"info" = none ∨ f.sets.lookup c!"primary" = none

/-- The file was saved by the seismic calculator. -/
def SavedSeismic (f : H5) : Prop := ∃ punit slow fast primary, f = saveSeismic punit slow fast primary

/-- The dictionary of the class after the files have been loaded one after the other. -/
def afterLoadingWaves (d : WaveData) : List (Str × H5) → WaveData
  | [] => d
  | (name, f) :: rest => afterLoadingWaves (loadSeismic d name f).1 rest

/-- The result of a round of the dialogue in which a table was written. -/
def WroteWaves (d : WaveData) (e : Exporter) (a : Answer) (disk : Disk) (text : Str) : Prop :=
  ∀ l rest, ∃ l', runSeismic d e l (a :: rest) disk =
    if a.more then runSeismic d e l' rest (Function.update disk (outfileOf e disk a) (some text))
    else (Function.update disk (outfileOf e disk a) (some text), .finished)

/-- The kinds of result files. -/
inductive ResultKind | harmonic | quasiHarmonic | elastic | seismic
  deriving DecidableEq

/-- The file was saved by the calculator of a kind. -/
def IsResult : ResultKind → H5 → Prop
  | .harmonic, f => ∃ u info descriptions r, f = saveHa u info descriptions r
  | .quasiHarmonic, f => ∃ u info descriptions r, f = saveQha u info descriptions r
  | .elastic, f => ∃ punit, ∃ r : Polar.Results ℚ, ∃ (waves : Bool) (tab : Polar.Plane → Polar.Var → List (List ℚ)),
      r.polar = [Polar.Plane.xy, .xz, .yz].map (fun k =>
        (k, ([Polar.Var.E, .LC, .G, .Nu] ++ if waves then [Polar.Var.waves] else []).map fun v => (v, tab k v))) ∧
      f = elasticFile (Polar.saveElastic punit r)
  | .seismic, f => ∃ punit slow fast primary, f = saveSeismic punit slow fast primary

/-- The command for the results of a kind. -/
def exportFor : ResultKind → List Answer → Str → H5 → Disk → Disk × Outcome
  | .harmonic => exportHa
  | .quasiHarmonic => exportQha
  | .elastic => exportElastic
  | .seismic => exportSeismic

end Verif.Export.Spec
