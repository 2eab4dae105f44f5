/-
Model of the interactive equation-of-state session:
/repo/quantas/eosfit/utils/interactive.py, /repo/quantas/eosfit/eosfit.py (run) and the set-up of
`EOS.fit` in /repo/quantas/eosfit/utils/pv_eos.py.

The user is a list of input lines.  `click.prompt`/`click.confirm` (third party) are modelled by
their documented loops: read a line, re-ask until it can be converted; end of input aborts.
Echoed text is not modelled, except that the parameters displayed before a fit are recorded.
-/
import Verif.EoS.Model

namespace Verif.Session
open Verif.Py Verif.EoS

/-! ### Set-up of a fit -/

/-- `EOS.check` (pv_eos.py:72-85): both tests look at `sigmaV`. -/
def check (sigmaV _sigmaP : Bool) : ℕ :=
  (if sigmaV then 1 else 0) + (if sigmaV then 2 else 0)

/-- `fit_type` passed to `set_job`: 0 is explicit orthogonal distance regression, 2 ordinary least
squares. -/
inductive Job | odr | ols
  deriving DecidableEq

/-- What `EOS.fit` hands to `scipy.odr`. -/
structure Setup where
  fix : List ℕ
  p0 : Pars
  job : Job

/-- `EOS.fit` up to `odr.run()` (pv_eos.py:127-158).  `guessed` is the result of `self.guess`. -/
noncomputable def fitSetup (guessed : Pars) (guess : Option Pars) (sigmaV sigmaP : Bool)
    (order : ℕ) (linear : Bool) (fixed : Option (List ℕ)) : Setup :=
  let fix := match fixed with
    | some f => f
    | none => if order = 2 then [1, 0, 0, 1] else if order = 3 then [1, 1, 0, 1] else [1, 1, 1, 1]
  let p0 := match guess with
    | some g => g
    | none => guessed
  let p0 := if linear then { p0 with K0 := p0.K0 * 3 } else p0
  let job := if check sigmaV sigmaP = 0 ∨ check sigmaV sigmaP = 2 then .ols else .odr
  ⟨fix, p0, job⟩

/-! ### Asking the user -/

/-- Why a session stops early: end of input (click's `Abort`) or an exception. -/
inductive Stop | eof | crash (e : PyErr)
  deriving DecidableEq

/-- A computation that reads lines from the user. -/
def Ask (α : Type) := List Str → Except Stop (α × List Str)

def Ask.pure {α : Type} (a : α) : Ask α := fun s => .ok (a, s)

def Ask.bind {α β : Type} (m : Ask α) (f : α → Ask β) : Ask β := fun s =>
  match m s with
  | .error e => .error e
  | .ok (a, s') => f a s'

instance : Monad Ask where
  pure := Ask.pure
  bind := Ask.bind

/-- Read lines until one has a value. -/
def ask {α : Type} (value : Str → Option α) : Ask α
  | [] => .error .eof
  | l :: ls =>
    match value l with
    | some a => .ok (a, ls)
    | none => ask value ls

/-- Value of one line given to `click.prompt`: an empty line means the default, if there is one. -/
def promptValue {α : Type} (parse : Str → Option α) (default : Option α) (l : Str) : Option α :=
  if l = [] then default else parse l

/-- The selection that one line stands for, if it is among the choices. -/
def chosen {α : Type} [DecidableEq α] (parse : Str → Option α) (default : Option α)
    (choices : List α) (l : Str) : Option α :=
  match promptValue parse default l with
  | some a => if a ∈ choices then some a else none
  | none => none

/-- `choose` (interactive.py:110-133): `while True: selection = prompt(...); if selection in
choices: return selection`. -/
def choose {α : Type} [DecidableEq α] (parse : Str → Option α) (default : Option α)
    (choices : List α) : Ask α :=
  ask (chosen parse default choices)

/-- Leading and trailing spaces and tabs are removed by `click.confirm`. -/
def strip (s : Str) : Str :=
  ((s.dropWhile (fun c => c == ' ' || c == '\t')).reverse.dropWhile
    (fun c => c == ' ' || c == '\t')).reverse

/-- `confirm` (messages.py:202-230): `y`/`yes`, `n`/`no` or an empty line. -/
def confirm (default : Bool) : Ask Bool :=
  ask fun l =>
    let a := lower (strip l)
    if a = c!"y" ∨ a = c!"yes" then some true
    else if a = c!"n" ∨ a = c!"no" then some false
    else if a = [] then some default
    else none

/-- What the session needs from outside: numpy/click conversions, the data and the optimiser. -/
structure World where
  /-- click's integer conversion. -/
  parseInt : Str → Option ℕ
  /-- `np.float` of a string; `none` is ValueError. -/
  parseFloat : Str → Option ℝ
  /-- `np.round(x, 5)`. -/
  round5 : ℝ → ℝ
  /-- `isinstance(data[key], np.ndarray)`. -/
  avail : Str → Bool
  /-- `eos.guess(values, pressure)` for the selected data. -/
  guess : Str → Pars
  /-- `results.beta` of a fit of the selected data. -/
  beta : Str → Formulation → ℕ → Bool → Setup → Bool → Bool → Pars

/-- One `prompt` of `set_parameters`, with its `np.float` conversion (interactive.py:316-317). -/
def askFloat (w : World) (x : ℝ) : Ask ℝ
  | [] => .error .eof
  | l :: ls =>
    if l = [] then .ok (w.round5 x, ls)
    else match w.parseFloat l with
      | some y => .ok (y, ls)
      | none => .error (.crash .valueError)

/-- EOS_FUNCTIONS (interactive.py:31-37). -/
def eosFunctions : List (Str × Formulation) :=
  [(c!"1", .murnaghan), (c!"2", .birchMurnaghan), (c!"3", .naturalStrain), (c!"4", .vinet),
    (c!"5", .tait)]

/-- EOS_ORDERS (interactive.py:39-45). -/
def eosOrders : List (Str × List ℕ) :=
  [(c!"1", [3]), (c!"2", [2, 3, 4]), (c!"3", [2, 3, 4]), (c!"4", [2, 3]), (c!"5", [2, 3, 4])]

/-- `set_eos` (interactive.py:136-158). -/
def setEos (default : Str) : Ask Str :=
  choose some (some default) (eosFunctions.map (·.1))

/-- `set_eos_order` (interactive.py:161-189). -/
def setEosOrder (w : World) (key : Str) (default : ℕ) : Ask ℕ := fun s =>
  match eosOrders.lookup key with
  | none => .error (.crash .keyError)
  | some choices =>
    let default := if default ∉ choices then choices.headD 0 else default
    choose w.parseInt (some default) choices s

/-- The return line of `select_eos` (interactive.py:222). -/
def eosResult (sel : Str) (order : ℕ) : Ask (Formulation × ℕ × (Str × ℕ)) := fun s =>
  match eosFunctions.lookup sel with
  | none => .error (.crash .keyError)
  | some f => .ok ((f, order, (sel, order)), s)

/-- `select_eos` (interactive.py:192-222): formulation, order and the new defaults. -/
def selectEos (w : World) (defaults : Option (Str × ℕ)) : Ask (Formulation × ℕ × (Str × ℕ)) :=
  let d := defaults.getD (c!"1", 2)
  do
    let sel ← setEos d.1
    let order ← setEosOrder w sel d.2
    eosResult sel order

/-- Keys of DATA_TYPES (interactive.py:47-52). -/
def dataTypes : List Str := [c!"v", c!"a", c!"b", c!"c"]

/-- `select_data` (interactive.py:225-263): the key and whether the fit is linearised. -/
def selectData (w : World) : Ask (Str × Bool) := do
  let sel ← choose some none (dataTypes.filter w.avail)
  pure (sel, if sel ≠ c!"v" then true else false)

/-- `set_parameters` (interactive.py:289-320): the (shared) array after the dialogue. -/
def setParameters (w : World) (p : Pars) : Ask Pars := do
  if ← confirm false then
    let a ← askFloat w p.K0
    let b ← askFloat w p.Kp
    let c ← askFloat w p.Kpp
    let d ← askFloat w p.V0
    pure ⟨a, b, c, d⟩
  else pure p

/-- One `Fix ...` question (interactive.py:343-344). -/
def askFix : Ask ℕ := do
  if ← confirm false then pure 0 else pure 1

/-- `set_fixed_parameters` (interactive.py:323-346). -/
def setFixed : Ask (List ℕ) := do
  if ← confirm false then
    let a ← askFix
    let b ← askFix
    let c ← askFix
    let d ← askFix
    pure [a, b, c, d]
  else pure [1, 1, 1, 1]

/-- One question about weights, asked only for available uncertainties
(interactive.py:378-381, 383-386). -/
def askWeight (available : Bool) : Ask Bool :=
  if available then confirm true else pure false

/-- `set_weights` (interactive.py:349-387): whether the pressure and the data uncertainties are
used. -/
def setWeights (w : World) (q : Str) : Ask (Bool × Bool) := do
  if ¬ w.avail c!"sigmap" ∧ ¬ w.avail (c!"sigma" ++ q) then pure (false, false)
  else if ← confirm true then
    let p ← askWeight (w.avail c!"sigmap")
    let v ← askWeight (w.avail (c!"sigma" ++ q))
    pure (p, v)
  else pure (false, false)

/-! ### The session -/

/-- The object called `guess`: its values, and whether it is an ndarray (a view of the previous
result) or a list. -/
structure Guess where
  pars : Pars
  isArray : Bool

/-- What can be seen of one fit. -/
structure Record where
  sel : Str
  form : Formulation
  order : ℕ
  linear : Bool
  /-- parameters displayed before the fit -/
  shown : Pars
  /-- parameters after the user's edits -/
  entered : Pars
  /-- whether the user asked to fix anything, and what was passed as `fixed` -/
  fixed : List ℕ
  sigmaP : Bool
  sigmaV : Bool
  setup : Setup

/-- Where the session is: the three loops of `run` (eosfit.py:141-204). -/
inductive St where
  /-- top of `while is_running` -/
  | data (defaults : Option (Str × ℕ))
  /-- top of `while not change_data`; `none` while `do_init_guess` -/
  | eos (sel : Str) (linear : Bool) (guess : Option Guess) (defaults : Option (Str × ℕ))
  /-- top of `while not change_eos` -/
  | fit (sel : Str) (linear : Bool) (form : Formulation) (order : ℕ) (guess : Guess)
      (defaults : Option (Str × ℕ))
  /-- the question after the middle loop -/
  | again (defaults : Option (Str × ℕ))
  | done

/-- One pass of the innermost loop (eosfit.py:165-199).  `eos.fit` multiplies `p0[0]` in place, so
`guess` changes with it; when `guess` is an ndarray, `scipy.odr` evaluates the model on it once
and the formulation overwrites the implied parameters in place. -/
noncomputable def fitStep (w : World) (sel : Str) (linear : Bool) (form : Formulation) (order : ℕ)
    (guess : Guess) (defaults : Option (Str × ℕ)) : Ask (St × List Record) := do
  let entered ← setParameters w guess.pars
  let fixed ← setFixed
  let weights ← setWeights w sel
  let setup := fitSetup (w.guess sel) (some entered) weights.2 weights.1 order linear (some fixed)
  let after := if guess.isArray then parsAfter form setup.p0 order linear true else setup.p0
  let record : Record :=
    ⟨sel, form, order, linear, guess.pars, entered, fixed, weights.1, weights.2, setup⟩
  let guess' : Guess ← (do
    if ← confirm false then
      pure ⟨w.beta sel form order linear setup weights.1 weights.2, true⟩
    else pure ⟨after, guess.isArray⟩)
  let same ← confirm false
  if same then
    let change ← confirm false
    if change then pure (.eos sel linear (some guess') defaults, [record])
    else pure (.fit sel linear form order guess' defaults, [record])
  else pure (.again defaults, [record])

/-- One pass of a loop of `run`. -/
noncomputable def step (w : World) : St → Ask (St × List Record)
  | .data defaults => do
    let s ← selectData w
    pure (.eos s.1 s.2 none defaults, [])
  | .eos sel linear guess defaults => do
    let e ← selectEos w defaults
    let g := guess.getD ⟨w.guess sel, false⟩
    pure (.fit sel linear e.1 e.2.1 g (some e.2.2), [])
  | .fit sel linear form order guess defaults => fitStep w sel linear form order guess defaults
  | .again defaults => do
    if ← confirm false then pure (.data defaults, []) else pure (.done, [])
  | .done => pure (.done, [])

/-- The records of the first `n` passes of a session, with the state reached (if it did not stop
before). -/
noncomputable def exec (w : World) : ℕ → St → List Str → List Record × Option (St × List Str)
  | 0, st, s => ([], some (st, s))
  | n + 1, st, s =>
    match step w st s with
    | .error _ => ([], none)
    | .ok ((st', r), s') => (r ++ (exec w n st' s').1, (exec w n st' s').2)

/-- `run`: the session starts at the outermost loop without defaults. -/
noncomputable def session (w : World) (n : ℕ) (lines : List Str) : List Record :=
  (exec w n (.data none) lines).1

end Verif.Session
