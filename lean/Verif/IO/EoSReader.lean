/-
Model of the EoS input reader: /repo/quantas/IO/eos_reader.py (class EoSInputFileReader).
-/
import Verif.IO.Text

namespace Verif.IO
open Verif.Py

/-- The dictionaries `_data` and `_format`, which belong to the class (eos_reader.py:34-69).  Keys
of `_data` other than `job` are in `columns`; `none` is Python's `None` (or a missing key). -/
structure EoSData where
  job : Str
  columns : Str → Option (List ℚ)
  format : List (Str × ℕ)

/-- Their values when the module is imported (eos_reader.py:34-46, 69). -/
def EoSData.initial : EoSData := { job := c!"Unknown", columns := fun _ => none, format := [] }

/-- The ten quantities of the properties of the reader (eos_reader.py:97-135). -/
inductive Quantity
  | volume | sigmaV | pressure | sigmaP | a | sigmaA | b | sigmaB | c | sigmaC
  deriving DecidableEq

/-- The key each property looks up (eos_reader.py:97-135). -/
def Quantity.key : Quantity → Str
  | .volume => c!"v"
  | .sigmaV => c!"sigmav"
  | .pressure => c!"p"
  | .sigmaP => c!"sigmap"
  | .a => c!"a"
  | .sigmaA => c!"sigmaa"
  | .b => c!"b"
  | .sigmaB => c!"sigmab"
  | .c => c!"c"
  | .sigmaC => c!"sigmac"

/-- The properties `volume`, `sigma_v`, ... of the reader. -/
def EoSData.get (d : EoSData) (q : Quantity) : Option (List ℚ) := d.columns q.key

/-- The texts put in `error` (eos_reader.py:260, 264). -/
inductive EoSError | noFormat | noPressure
  deriving DecidableEq

/-- How a call can fail to return: an exception, or a loop that never ends. -/
inductive Stop | exc (e : PyErr) | hang
  deriving DecidableEq

/-- `_formats` (eos_reader.py:56-67). -/
def formats : List (Str × List Str) :=
  [(c!"p", [c!"p"]), (c!"v", [c!"v"]), (c!"a", [c!"a"]), (c!"b", [c!"b"]), (c!"c", [c!"c"]),
   (c!"sigmap", [c!"sigmap", c!"sigp"]), (c!"sigmav", [c!"sigmav", c!"sigv"]),
   (c!"sigmaa", [c!"sigmaa", c!"siga"]), (c!"sigmab", [c!"sigmab", c!"sigb"]),
   (c!"sigmac", [c!"sigmac", c!"sigc"])]

/-- `is_comment` (eos_reader.py:137-157). -/
def isComment (l : Str) : Bool :=
  match (strip l).head? with
  | none => true
  | some c => c = '#'

/-- One pass of the loop of `set_job_name` (eos_reader.py:207-212), at line `idx`: the next index
and the job name. -/
def jobStep (data : List Str) (idx : ℕ) (job : Str) : Except PyErr (ℕ × Str) :=
  match data[idx]? with
  | none => .error .indexError
  | some l =>
    let line := rstripNewline l
    if line = [] then .ok (idx + 1, job)
    else match (strip line).head? with
      | none => .error .indexError
      | some c => if c = '#' then .ok (idx + 1, job) else .ok (idx, line)

/-- The loop of `set_job_name` (eos_reader.py:207-212) run for at most `n` passes; `none` when it
has not ended by then. -/
def jobLoop (data : List Str) : ℕ → ℕ → Str → Option (Except PyErr Str)
  | 0, _, job => if job = c!"Unknown" then none else some (.ok job)
  | n + 1, idx, job =>
    if job = c!"Unknown" then
      match jobStep data idx job with
      | .error e => some (.error e)
      | .ok (idx, job) => jobLoop data n idx job
    else some (.ok job)

/-- The outcome of that loop started at `lines` with the name `Unknown`
(`jobLoop_iff` relates it to `jobLoop`). -/
def jobFrom : List Str → Except Stop Str
  | [] => .error (.exc .indexError)
  | l :: ls =>
    let line := rstripNewline l
    if line = [] then jobFrom ls
    else match (strip line).head? with
      | none => .error (.exc .indexError)
      | some c =>
        if c = '#' then jobFrom ls
        else if line = c!"Unknown" then .error .hang else .ok line

/-- `set_job_name` (eos_reader.py:193-213) on the lines after the keyword. -/
def setJobName (rest : List Str) (d : EoSData) : Except Stop EoSData :=
  if d.job = c!"Unknown" then do
    let j ← jobFrom rest
    .ok { d with job := j }
  else .ok d

/-- `self._format[k] = n`: a dictionary keeps the position of an existing key. -/
def setKey (d : List (Str × ℕ)) (k : Str) (n : ℕ) : List (Str × ℕ) :=
  if k ∈ d.map (·.1) then d.map fun p => if p.1 = k then (k, n) else p else d ++ [(k, n)]

/-- The two loops over the words of the format line (eos_reader.py:239-242). -/
def setFormat (toks : List Str) (d : List (Str × ℕ)) : List (Str × ℕ) :=
  toks.zipIdx.foldl (fun d p =>
    formats.foldl (fun d kv => if lower p.1 ∈ kv.2 then setKey d (lower p.1) p.2 else d) d) d

/-- `set_data_format` (eos_reader.py:215-243) on the lines after the keyword. -/
def setDataFormat : List Str → EoSData → Except Stop EoSData
  | [], _ => .error (.exc .indexError)
  | l :: ls, d =>
    if isComment l then setDataFormat ls d
    else .ok { d with format := setFormat (words l) d.format }

/-- The values of one row, in the order of the format (eos_reader.py:287-288). -/
def rowValues (values : List Str) : List (Str × ℕ) → Except PyErr (List ℚ)
  | [] => .ok []
  | (_, n) :: fs =>
    match values[n]? with
    | none => .error .indexError
    | some t =>
      match parseFloat t with
      | none => .error .valueError
      | some q => do
        let qs ← rowValues values fs
        .ok (q :: qs)

/-- The loop over the remaining lines (eos_reader.py:271-288). -/
def readRows (format : List (Str × ℕ)) : List Str → Except PyErr (List (List ℚ))
  | [] => .ok []
  | l :: ls =>
    if isComment l then readRows format ls
    else do
      let r ← rowValues (words l) format
      let rs ← readRows format ls
      .ok (r :: rs)

/-- `set_data` (eos_reader.py:245-292) on the lines after the keyword. -/
def setData (rest : List Str) (d : EoSData) (e : Option EoSError) :
    Except Stop (EoSData × Option EoSError) :=
  if d.format = [] then .ok (d, some .noFormat)
  else if c!"p" ∉ d.format.map (·.1) then .error (.exc .keyError)
  else
    match readRows d.format rest with
    | .error x => .error (.exc x)
    | .ok rows =>
      .ok ({ d with columns := fun q =>
        match d.format.findIdx? (·.1 = q) with
        | some k => some (rows.map fun r => r.getD k 0)
        | none => d.columns q }, e)

/-- `if keyword.lower() == 'job'` (eos_reader.py:180-181). -/
def onJob (keyword : Str) (rest : List Str) (d : EoSData) : Except Stop EoSData :=
  if keyword = c!"job" then setJobName rest d else .ok d

/-- `if keyword.lower() == 'format'` (eos_reader.py:182-183). -/
def onFormat (keyword : Str) (rest : List Str) (d : EoSData) : Except Stop EoSData :=
  if keyword = c!"format" then setDataFormat rest d else .ok d

/-- `if keyword.lower() == 'data'` (eos_reader.py:184-185). -/
def onData (keyword : Str) (rest : List Str) (d : EoSData) (e : Option EoSError) :
    Except Stop (EoSData × Option EoSError) :=
  if keyword = c!"data" then setData rest d e else .ok (d, e)

/-- The loop of `load` (eos_reader.py:173-185). -/
def loadLines : List Str → EoSData → Option EoSError → Except Stop (EoSData × Option EoSError)
  | [], d, e => .ok (d, e)
  | l :: rest, d, e =>
    if isComment l then loadLines rest d e
    else
      let keyword := lower ((words l).headD [])
      (onJob keyword rest d).bind fun d =>
        (onFormat keyword rest d).bind fun d =>
          (onData keyword rest d e).bind fun p => loadLines rest p.1 p.2

/-- `EoSInputFileReader(file)` on the text of the file (eos_reader.py:159-191): the dictionaries
afterwards, `completed` and `error`.  `error` belongs to the new instance and starts as `None`. -/
def loadEoS (text : Str) (d : EoSData) : Except Stop (EoSData × Bool × Option EoSError) := do
  let (d, e) ← loadLines (readlines text) d none
  .ok (d, e.isNone, e)

end Verif.IO
