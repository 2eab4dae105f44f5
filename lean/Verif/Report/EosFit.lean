/-
Model of the reports of the equation-of-state calculator (/repo/quantas/eosfit/eosfit.py) as the list of the
messages echoed.  Numbers are exact rationals.  Simplification: when an exception interrupts a report the
messages already echoed are not part of the result.
-/
import Verif.IO.EoSReader
import Verif.Report.Text

noncomputable section

namespace Verif.Report
open Verif.Py Verif.IO Verif.Phonon Verif.Export

/-- A loop that echoes one message per turn. -/
def collect : List (Except PyErr Str) → Except PyErr (List Str)
  | [] => .ok []
  | .error e :: _ => .error e
  | .ok l :: rest =>
    match collect rest with
    | .ok ls => .ok (l :: ls)
    | .error e => .error e

/-! ### Input -/

/-- The text returned by `read_input` (eosfit.py:77-86). -/
inductive InputError
  | reader (e : EoSError)
  | noStructure
  deriving DecidableEq

/-- `read_input` (eosfit.py:55-89): the data, or the error text that is returned. -/
def readInput (text : Str) (d : EoSData) : Except Stop (EoSData × Option InputError) := do
  let (d, completed, error) ← loadEoS text d
  if completed = false then .ok (d, error.map .reader)
  else
    let quantities := 4 - ([Quantity.volume, .a, .b, .c].filter fun q => (d.get q).isNone).length
    .ok (d, if quantities = 0 then some .noStructure else none)

/-- One column after the first (eosfit.py:105-120). -/
def inputCell (x : Option (List ℚ)) (i : ℕ) : Except PyErr Str :=
  match x with
  | some xs => do
    let v ← item xs i
    .ok (c!"  " ++ center 10 (formatFixed 5 v))
  | none => .ok (c!"  " ++ center 10 c!"--")

/-- The line of one point (eosfit.py:104-121). -/
def inputLine (d : EoSData) (pressure : List ℚ) (i : ℕ) : Except PyErr Str := do
  let p ← item pressure i
  let v ← inputCell (d.get .volume) i
  let a ← inputCell (d.get .a) i
  let b ← inputCell (d.get .b) i
  let c ← inputCell (d.get .c) i
  .ok (center 10 (formatFixed 3 p) ++ v ++ a ++ b ++ c)

/-- The titles of the columns (eosfit.py:100-101). -/
def inputTitles : Str :=
  center 10 c!"P (GPa)" ++ c!"  " ++ center 10 c!"V (A^3)" ++ c!"  " ++ center 10 c!"a (A)" ++ c!"  " ++
    center 10 c!"b (A)" ++ c!"  " ++ center 10 c!"c (A)"

/-- The line under the titles (eosfit.py:102). -/
def inputRule : Str :=
  dashes 10 ++ c!"  " ++ dashes 10 ++ c!"  " ++ dashes 10 ++ c!"  " ++ dashes 10 ++ c!"  " ++ dashes 10

/-- The lines about the weights (eosfit.py:124-133). -/
def weightLines (d : EoSData) : List Str :=
  (if (d.get .sigmaP).isSome then [c!" - Found weights for pressure"] else []) ++
  (if (d.get .sigmaV).isSome then [c!" - Found weights for volume"] else []) ++
  (if (d.get .sigmaA).isSome then [c!" - Found weights for a-axis"] else []) ++
  (if (d.get .sigmaB).isSome then [c!" - Found weights for b-axis"] else []) ++
  (if (d.get .sigmaC).isSome then [c!" - Found weights for c-axis"] else [])

/-- `report_input_data` (eosfit.py:91-135).  The units of the calculator are not used (the command offers
only GPa and A, cmd_eosfit.py:39-44).  `None.shape` raises
AttributeError. -/
def reportInput (_vunit _punit : Str) (d : EoSData) : Except PyErr (List Str) :=
  match d.get .pressure with
  | none => .error .attributeError
  | some p => do
    let rows ← collect ((List.range p.length).map (inputLine d p))
    .ok ([[], c!"Job: " ++ d.job, [], inputTitles, inputRule] ++ rows ++ [[]] ++ weightLines d ++ [[]])

/-! ### Fit -/

/-- The attributes of `scipy.odr.Output` that are reported. -/
structure Output where
  beta : List ℚ
  sdBeta : List ℚ
  covBeta : List (List ℚ)
  resVar : ℚ
  stopreason : List Str
  delta : List ℚ
  y : List ℚ
  eps : List ℚ

/-- `DATA_TYPES` (interactive.py:47-52). -/
def dataTypes : List (Str × Str) :=
  [(c!"v", c!"Volume"), (c!"a", c!"a-axis"), (c!"b", c!"b-axis"), (c!"c", c!"c-axis")]

/-- `DATA_TYPES[selection]` (interactive.py:263). -/
def dataName (sel : Str) : Except PyErr Str :=
  match dataTypes.lookup sel with
  | some name => .ok name
  | none => .error .keyError

/-- `get_label` (interactive.py:54-56, 266-286). -/
def getLabel (q : Str) : List Str :=
  if q = c!"v" then [c!"K0", c!"K'", c!"K''", c!"V0"]
  else [c!"M0(" ++ q ++ c!")", c!"M'(" ++ q ++ c!")", c!"M''(" ++ q ++ c!")", q ++ c!"0"]

/-- `implieds[eos_order]` (eosfit.py:210-214). -/
def implied (order : ℕ) : Except PyErr (List ℕ) :=
  match order with
  | 2 => .ok [1, 2]
  | 3 => .ok [2]
  | 4 => .ok []
  | _ => .error .keyError

/-- The line of one parameter (eosfit.py:243-249). -/
def parameterLine (r : Output) (order : ℕ) (fix : List ℕ) (labels : List Str) (i : ℕ) : Except PyErr Str := do
  let l ← item labels i
  let b ← item r.beta i
  let s ← item r.sdBeta i
  let f ← item fix i
  let imp ← implied order
  .ok (c!"  " ++ alignLeft 6 l ++ c!" = " ++ alignRight 10 (formatSpaced 5 b) ++ c!" +/- " ++
    alignRight 10 (formatSpaced 5 s) ++ (if f = 0 then c!" (FIXED)" else []) ++
    if i ∈ imp then c!" [IMPLIED]" else [])

/-- A row of the covariance (eosfit.py:254-255). -/
def covarianceLine (r : Output) (i : ℕ) : Except PyErr Str := do
  let row ← item r.covBeta i
  let a ← item row 0
  let b ← item row 1
  let c ← item row 2
  let d ← item row 3
  .ok (c!"  " ++ alignRight 12 (sciSpaced 5 a) ++ c!" " ++ alignRight 12 (sciSpaced 5 b) ++ c!" " ++
    alignRight 12 (sciSpaced 5 c) ++ c!" " ++ alignRight 12 (sciSpaced 5 d))

/-- The line of one point (eosfit.py:269-275). -/
def fitLine (values pressure : List ℚ) (r : Output) (i : ℕ) : Except PyErr Str := do
  let v ← item values i
  let d ← item r.delta i
  let p ← item pressure i
  let y ← item r.y i
  let e ← item r.eps i
  .ok (center 15 (formatFixed 5 v) ++ c!" " ++ center 15 (formatSpaced 5 d) ++ c!" " ++
    center 15 (formatFixed 5 p) ++ c!" " ++ center 15 (formatFixed 5 y) ++ c!" " ++ center 15 (formatSpaced 5 e))

/-- The label of the fitted quantity (eosfit.py:216-219). -/
def valueLabel (vunit name : Str) : Str :=
  if name = c!"Volume" then name ++ c!" (" ++ vunit ++ c!"^3)" else name ++ c!" (" ++ vunit ++ c!")"

/-- The titles of the columns (eosfit.py:264-266). -/
def fitTitles (vunit name : Str) : Except PyErr Str := do
  let c ← item name 0
  .ok (center 15 (valueLabel vunit name) ++ c!" " ++ center 15 (c!"eps_" ++ [c]) ++ c!" " ++
    center 15 c!"Pressure (GPa)" ++ c!" " ++ center 15 c!"P_obs (GPa)" ++ c!" " ++ center 15 c!"eps_P")

/-- The line under the titles (eosfit.py:267). -/
def fitRule : Str :=
  dashes 15 ++ c!" " ++ dashes 15 ++ c!" " ++ dashes 15 ++ c!" " ++ dashes 15 ++ c!" " ++ dashes 15

/-- A line of the frame (eosfit.py:222, 225, 277). -/
def frame : Str := '#' :: dashes 78 ++ ['#']

/-- The lines before the parameters (eosfit.py:221-241). -/
def fitHead (name eosName : Str) (order : ℕ) (weightP weightV : Bool) : List Str :=
  [[], frame, '#' :: center 78 (c!"EOS results for " ++ name ++ c!" fitting") ++ ['#'], frame, [],
    alignRight 15 c!"EOS formulation" ++ c!": " ++ eosName,
    alignRight 15 c!"EOS order" ++ c!": " ++ showNat order, [],
    if weightP then c!"Results weighted for pressure" else c!"Results not weighted for pressure",
    if weightV then c!"Results weighted for " ++ name else c!"Results not weighted for for " ++ name, [],
    c!"Fitting parameters:"]

/-- `report_fit` (eosfit.py:206-279).  The pressure unit of the calculator is not used (the command
offers only GPa, cmd_eosfit.py:39-41). -/
def reportFit (vunit _punit : Str) (pressure : List ℚ) (r : Output) (values : List ℚ) (name eosName : Str)
    (order : ℕ) (weightP weightV : Bool) (fix : List ℕ) (labels : List Str) : Except PyErr (List Str) := do
  let parameters ← collect ((List.range r.beta.length).map (parameterLine r order fix labels))
  let covariance ← collect ((List.range r.beta.length).map (covarianceLine r))
  let titles ← fitTitles vunit name
  let rows ← collect ((List.range values.length).map (fitLine values pressure r))
  .ok (fitHead name eosName order weightP weightV ++ parameters ++ [[], c!"Covariance matrix:"] ++ covariance ++
    [[], c!"Residual variance: " ++ alignRight 6 (formatFixed 4 r.resVar), [], c!"Exited ODR loop because:"] ++
    (r.stopreason.zipIdx.map fun s => c!"  " ++ showNat (s.2 + 1) ++ c!". " ++ s.1) ++
    [[], c!"Calculated data:\n", titles, fitRule] ++ rows ++ [[], frame, []])

/-- The report at the end of a fit of the selected data: `select_data` returns the name, `get_label` the labels
(interactive.py:263, eosfit.py:152-181). -/
def reportSelected (vunit punit : Str) (pressure : List ℚ) (r : Output) (values : List ℚ) (sel eosName : Str)
    (order : ℕ) (weightP weightV : Bool) (fix : List ℕ) : Except PyErr (List Str) := do
  let name ← dataName sel
  reportFit vunit punit pressure r values name eosName order weightP weightV fix (getLabel sel)

end Verif.Report
