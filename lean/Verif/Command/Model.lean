/-
The commands of Quantas: names of the files, messages and the course of a run
(quantas/cmdline/utils/messages.py, quantas/core/calculator.py and the files cmd_ha.py, cmd_qha.py,
cmd_soec.py, cmd_seismic.py, cmd_eosfit.py and cmd_inpgen.py).
-/
import Verif.Export.Exporter
import Verif.EoS.Model

namespace Verif.Command
open Verif.Py Verif.Export

/-! ### Messages -/

/-- What a command acts on: the lines on the screen, in order, and the contents of the files. -/
structure World where
  screen : List Str := []
  disk : Disk

/-- `init_logfile` (messages.py:77-90): `print('', file=open(logfile, 'w'))`.  A file that cannot be
opened is not modelled. -/
def initLogfile (logfile : Option Str) (w : World) : World :=
  match logfile with
  | none => w
  | some f => { w with disk := Function.update w.disk f (some c!"\n") }

/-- `print(msg, file=open(logfile, 'a'))` (messages.py:117). -/
def appendLine (msg : Str) (logfile : Option Str) (w : World) : World :=
  match logfile with
  | none => w
  | some f => { w with disk := Function.update w.disk f (some ((w.disk f).getD [] ++ msg ++ c!"\n")) }

/-- `click.secho(msg)`; colours are not modelled. -/
def secho (msg : Str) (w : World) : World := { w with screen := w.screen ++ [msg] }

/-- `echo` (messages.py:93-118) and `echo_highlight` (messages.py:174-199). -/
def echo (msg : Str) (logfile : Option Str) (silent : Bool) (w : World) : World :=
  appendLine msg logfile (if silent then w else secho msg w)

/-- `echo_error` (messages.py:121-145) and `echo_warning` (messages.py:147-171): `silent` is not used. -/
def echoError (msg : Str) (logfile : Option Str) (w : World) : World :=
  appendLine msg logfile (secho msg w)

/-! ### Calculators -/

/-- The ways a calculator speaks: the methods `echo`, `echo_override`, `echo_warning` and `echo_debug`
(calculator.py:98-113), and the progress bars of click, which go to the screen only. -/
inductive Channel | normal | override | warning | debug | bar
  deriving DecidableEq

/-- One message of a calculator (calculator.py:98-113). -/
def say (log : Str) (silent debug : Bool) (w : World) (m : Channel × Str) : World :=
  match m.1 with
  | .normal => echo m.2 (some log) silent w
  | .override => echo m.2 (some log) false w
  | .warning => echoError m.2 (some log) w
  | .debug => if debug then echo (c!"Debug: " ++ m.2) (some log) silent w else w
  | .bar => secho m.2 w

/-- What a calculator says and does, as a function of the contents of the input file.  Exceptions raised
by the calculators are not modelled here. -/
structure Calculator where
  /-- `__init__` -/
  created : List (Channel × Str)
  /-- `read_input`: the error it returns, if any -/
  read : Str → List (Channel × Str) × Option Str
  /-- `report_input_data` -/
  report : Str → List (Channel × Str)
  /-- `run`: the error, or the contents of the file of results that `export_hdf5` would write -/
  run : Str → List (Channel × Str) × Except Str Str
  /-- `report_results`, which only the quasi-harmonic command calls -/
  results : Str → List (Channel × Str)
  /-- what `export_hdf5` says at its end -/
  exported : Str → List (Channel × Str)

/-- The fixed texts of a command. -/
structure Texts where
  title : Str
  error : Str
  notFile : Str → Str
  settings : Str
  /-- header, citations, footer and closing words -/
  ending : List Str

/-! ### Names of the files -/

/-- The files a command writes. -/
structure Files where
  results : Str
  log : Str

/-- `outfile` and `logfile` (cmd_ha.py:69-74, cmd_qha.py:113-118, cmd_soec.py:61-66, cmd_seismic.py:74-79);
`suffix` is `_HA`, `_QHA`, `_SOEC` or `_SEISMIC`. -/
def filesOf (suffix filename : Str) (outfile : Option Str) : Files :=
  let outbase := splitext filename
  let outfile := match outfile with
    | none => outbase ++ suffix ++ c!".hdf5"
    | some o => o ++ c!".hdf5"
  ⟨outfile, splitext outfile ++ c!".txt"⟩

/-- `logfile` of the EoS command (cmd_eosfit.py:52-56): with the option, `logfile += '.log'` uses a
variable that has no value yet. -/
def eosLog (filename : Str) (outfile : Option Str) : Except PyErr Str :=
  match outfile with
  | none => .ok (splitext filename ++ c!".log")
  | some _ => .error .unboundLocal

/-- `outfile` of the phonon input generator (harmonic/commands/cmd_inpgen.py:42-44, 59-63): the option has a
default, so the first branch is never taken. -/
def phononInputName (_filename : Str) (outfile : Option Str) : Str :=
  outfile.getD c!"quantas_ha" ++ c!".yaml"

/-- `outfile` of the elastic input generator (soec/commands/cmd_inpgen.py:54-58). -/
def elasticInputName (filename : Str) (outfile : Option Str) : Str :=
  match outfile with
  | none => splitext filename ++ c!"_soec_input.dat"
  | some o => o ++ c!".dat"

/-! ### The course of a run -/

/-- The options all four commands share. -/
structure Options where
  filename : Str
  outfile : Option Str := none
  silent : Bool := false
  debug : Bool := false

/-- How the calculation ended. -/
inductive Outcome
  | notFile
  | badInput (error : Str)
  | failed (error : Str)
  | saved
  | declined
  deriving DecidableEq

/-- The end of the calculation: the question whether an existing file may be overwritten, answered by
`overwrite`, and `export_hdf5` (cmd_ha.py:114-122, cmd_qha.py:168-176, cmd_soec.py:106-114,
cmd_seismic.py:135-143).  `Results not saved` is printed even by a silent run. -/
def save (files : Files) (o : Options) (prog : Calculator) (content bytes : Str) (overwrite : Bool) (w : World) :
    World × Outcome :=
  if (w.disk files.results).isSome ∧ ¬ overwrite then
    (echo c!"Results not saved" (some files.log) false w, .declined)
  else
    ((prog.exported content).foldl (say files.log o.silent o.debug)
      { w with disk := Function.update w.disk files.results (some bytes) }, .saved)

/-- From the settings to the saving of the results (cmd_ha.py:84-122, cmd_qha.py:128-176,
cmd_soec.py:76-114, cmd_seismic.py:93-110 and 120-143); `reportsResults` holds for the quasi-harmonic
command.  The banner of a refused input is not logged (cmd_ha.py:102). -/
def attempt (files : Files) (reportsResults : Bool) (t : Texts) (prog : Calculator) (o : Options)
    (overwrite : Bool) (w : World) : World × Outcome :=
  let w := echo t.settings (some files.log) o.silent w
  let w := prog.created.foldl (say files.log o.silent o.debug) w
  let content := (w.disk o.filename).getD []
  let w := (prog.read content).1.foldl (say files.log o.silent o.debug) w
  match (prog.read content).2 with
  | some e => (echoError e (some files.log) (echoError t.error none w), .badInput e)
  | none =>
    let w := (prog.report content).foldl (say files.log o.silent o.debug) w
    let w := (prog.run content).1.foldl (say files.log o.silent o.debug) w
    match (prog.run content).2 with
    | .error e => (echoError e (some files.log) (echoError t.error (some files.log) w), .failed e)
    | .ok bytes =>
      let w := if reportsResults then (prog.results content).foldl (say files.log o.silent o.debug) w else w
      save files o prog content bytes overwrite w

/-- The beginning of all commands: the log is opened, emptying the file, and the title printed
(cmd_ha.py:75-77, cmd_qha.py:119-121, cmd_soec.py:67-69, cmd_seismic.py:80-82, cmd_eosfit.py:57-59). -/
def opened (log : Str) (t : Texts) (silent : Bool) (w : World) : World :=
  echo t.title (some log) silent (initLogfile (some log) w)

/-- The calculation up to and including the saving of the results (cmd_ha.py:69-122, cmd_qha.py:113-176,
cmd_soec.py:61-114, cmd_seismic.py:74-110 and 120-143).  The file is read after the log was opened. -/
def calculate (suffix : Str) (reportsResults : Bool) (t : Texts) (prog : Calculator) (o : Options)
    (overwrite : Bool) (w : World) : World × Outcome :=
  let files := filesOf suffix o.filename o.outfile
  let w := opened files.log t o.silent w
  match w.disk o.filename with
  | none =>
    let w := echoError t.error (some files.log) w
    (echoError (t.notFile o.filename) (some files.log) w, .notFile)
  | some _ => attempt files reportsResults t prog o overwrite w

/-- The closing messages (cmd_ha.py:124-129 and the corresponding lines of the other commands). -/
def conclude (log : Str) (silent : Bool) (t : Texts) (w : World) : World :=
  t.ending.foldl (fun w m => echo m (some log) silent w) w

/-- `quantas ha`, `quantas qha` and `quantas soec` (cmd_ha.py:61-130, cmd_qha.py:105-184,
cmd_soec.py:54-122). -/
def command (suffix : Str) (reportsResults : Bool) (t : Texts) (prog : Calculator) (o : Options)
    (overwrite : Bool) (w : World) : World × Outcome :=
  match calculate suffix reportsResults t prog o overwrite w with
  | (w, .saved) => (conclude (filesOf suffix o.filename o.outfile).log o.silent t w, .saved)
  | (w, .declined) => (conclude (filesOf suffix o.filename o.outfile).log o.silent t w, .declined)
  | r => r

/-- `quantas eosfit` (cmd_eosfit.py:45-92): no results are saved, and nothing is silenced.  The dialogue of
the calculator is modelled elsewhere; here it is a part of what `run` says. -/
def eosCommand (t : Texts) (prog : Calculator) (filename : Str) (outfile : Option Str) (w : World) :
    Except PyErr World :=
  (eosLog filename outfile).map fun log =>
    let w := opened log t false w
    match w.disk filename with
    | none => echoError (t.notFile filename) (some log) (echoError t.error (some log) w)
    | some _ =>
      let w := echo t.settings (some log) false w
      let w := prog.created.foldl (say log false false) w
      let content := (w.disk filename).getD []
      let w := (prog.read content).1.foldl (say log false false) w
      match (prog.read content).2 with
      | some e => echoError e (some log) (echoError t.error none w)
      | none =>
        let w := (prog.report content).foldl (say log false false) w
        let w := (prog.run content).1.foldl (say log false false) w
        conclude log false t w

/-! ### Settings -/

/-- The angular points of the seismic command (cmd_seismic.py:40-43, 89-95): the values of the options, if
they were given. -/
def angularPoints (ntheta nphi : Option ℤ) : ℤ × ℤ :=
  let ntheta := ntheta.getD 180
  let nphi := nphi.getD (4 * 180)
  let nphi := if ntheta ≠ 180 then (if nphi = 720 then 4 * ntheta else nphi) else nphi
  (ntheta, nphi)

/-- `click.Choice` with `case_sensitive=True`: other values are refused before the command runs. -/
def choice (offered : List Str) (default : Str) : Option Str → Option Str
  | none => some default
  | some v => if v ∈ offered then some v else none

/-- The units of the harmonic and quasi-harmonic commands (cmd_ha.py:44-55, 86-89; cmd_qha.py:85-99,
138-142), in the order energy, length, frequency, temperature and pressure; none if an option is
refused. -/
def unitsOf (eunit vunit funit tunit punit : Option Str) : Option (Str × Str × Str × Str × Str) :=
  (choice [c!"Ha", c!"eV", c!"Ry"] c!"Ha" eunit).bind fun e =>
  (choice [c!"A", c!"bohr"] c!"A" vunit).bind fun v =>
  (choice [c!"cm-1", c!"THz", c!"Hz"] c!"cm-1" funit).bind fun f =>
  (choice [c!"K", c!"C"] c!"K" tunit).bind fun t =>
  (choice [c!"GPa", c!"kbar"] c!"GPa" punit).map fun p =>
  (e, v, if f = c!"cm-1" then c!"cm^-1" else f, t, p)

/-- `eos_functions` (cmd_qha.py:42-47). -/
def eosFunctions : List (Str × Str) :=
  [(c!"M", c!"murnaghan"), (c!"BM", c!"birchmurnaghan"), (c!"PT", c!"pouriertarantola"), (c!"V", c!"vinet")]

/-- `settings['eos_function']` (cmd_qha.py:82-84, 135). -/
def eosOf (eos : Option Str) : Option Str :=
  (choice [c!"M", c!"BM", c!"PT", c!"V"] c!"BM" eos).bind fun e => (eosFunctions.find? (·.1 = e)).map (·.2)

/-- `_set_eos_type` (ev_eos.py:41-52): the formula of a name, none if it has none. -/
def eosType (name : Str) : Option EoS.EForm :=
  ([(c!"murnaghan", EoS.EForm.murnaghan), (c!"birchmurnaghan", .birchMurnaghan), (c!"vinet", .vinet),
    (c!"pouriertarantola", .pourierTarantola)].find? (·.1 = name)).map (·.2)

/-- `eos_formulations` (cmd_qha.py:35-40): the name printed. -/
def eosFormulations : List (Str × Str) :=
  [(c!"M", c!"Murnaghan"), (c!"BM", c!"3rd-order Birch-Murnaghan"),
    (c!"PT", c!"3rd-order Poirier-Tarantola"), (c!"V", c!"3rd-order Vinet")]

/-! ### The plotting flag of the seismic calculator -/

/-- The plotting settings of a calculator (seismic.py:94-101). -/
structure PlotSettings where
  mpl : Bool
  plotly : Bool
  dpi : ℤ
  two : Bool
  three : Bool
  projection : Str
  deriving DecidableEq

/-- The settings that concern plotting. -/
structure PlotOptions where
  plotting : Bool
  dpi : ℤ := 80
  two : Bool := true
  three : Bool := true
  projection : Str := c!"eqar"

/-- The status of `SeismicCalculator._plotting`, a flag of the class (seismic.py:70). -/
structure Process where
  plotting : Bool := false

/-- A seismic calculator: the attributes `_plot_settings` and `h5File`, if they were set. -/
structure Seismic where
  plotSettings : Option PlotSettings := none
  h5File : Option Str := none

/-- The end of the constructor (seismic.py:88-107); `mpl` and `plotly` tell which packages are
installed. -/
def Seismic.create (mpl plotly : Bool) (s : PlotOptions) (p : Process) : Process × Seismic :=
  if s.plotting then
    if mpl || plotly then
      ({ p with plotting := true }, { plotSettings := some ⟨mpl, plotly, s.dpi, s.two, s.three, s.projection⟩ })
    else (p, {})
  else (p, {})

/-- The property `plotting` (seismic.py:126-128). -/
def Seismic.plotting (p : Process) (_c : Seismic) : Bool := p.plotting

/-- `plot` (seismic.py:300-320) up to the reading of the file: its name. -/
def Seismic.plot (c : Seismic) (filename : Option Str) : Except PyErr (PlotSettings × Str) :=
  match c.plotSettings with
  | none => .error .attributeError
  | some s =>
    match filename with
    | some f => .ok (s, f)
    | none =>
      match c.h5File with
      | none => .error .attributeError
      | some f => .ok (s, f)

/-- The attributes `_plotting`, `_plot_basename` and `_plot_dpi` (soec.py:82-84) of the class or of a
calculator; a calculator has those that were assigned to it. -/
structure PlotAttributes where
  plotting : Option Bool := none
  basename : Option Str := none
  dpi : Option ℤ := none

/-- The class SOECCalculator and the calculators created so far. -/
structure ElasticProcess where
  cls : PlotAttributes := ⟨some false, some [], some 80⟩
  made : List PlotAttributes := []

/-- The end of the constructor (soec.py:108-116): the assignments go to the calculator. -/
def ElasticProcess.create (p : ElasticProcess) (plotting : Bool) (outfig : Str) (dpi : ℤ) : ElasticProcess :=
  let new : PlotAttributes := if plotting then ⟨some true, some outfig, some dpi⟩ else {}
  { p with made := p.made ++ [new] }

/-- `self._plotting` (soec.py:279): the attribute of the calculator, or else of the class. -/
def ElasticProcess.plotting (p : ElasticProcess) (i : ℕ) : Option Bool :=
  p.made[i]?.bind fun c => c.plotting.or p.cls.plotting

/-- `self._plot_basename` and `self._plot_dpi` (soec.py:280-294). -/
def ElasticProcess.figures (p : ElasticProcess) (i : ℕ) : Option (Str × ℤ) :=
  p.made[i]?.bind fun c => (c.basename.or p.cls.basename).bind fun b => (c.dpi.or p.cls.dpi).map fun d => (b, d)

/-- What the seismic command plots: nothing, the results of a file, or it stops with an exception. -/
inductive Plotted
  | nothing
  | figures (s : PlotSettings) (file : Str)
  | crashed (e : PyErr)
  deriving DecidableEq

/-- `quantas seismic` (cmd_seismic.py:65-154).  The files with the figures are not modelled. -/
def seismic (t : Texts) (prog : Calculator) (o : Options) (s : PlotOptions) (onlyPlot : Bool) (mpl plotly : Bool)
    (overwrite : Bool) (p : Process) (w : World) : Process × World × Plotted :=
  let files := filesOf c!"_SEISMIC" o.filename o.outfile
  let (p', c) := Seismic.create mpl plotly s p
  if onlyPlot then
    let w := opened files.log t o.silent w
    match w.disk o.filename with
    | none =>
      let w := echoError t.error (some files.log) w
      (p, echoError (t.notFile o.filename) (some files.log) w, .nothing)
    | some _ =>
      let w := echo t.settings (some files.log) o.silent w
      let w := prog.created.foldl (say files.log o.silent o.debug) w
      match c.plot (some o.filename) with
      | .error e => (p', w, .crashed e)
      | .ok (s, f) => (p', conclude files.log o.silent t w, .figures s f)
  else
    match calculate c!"_SEISMIC" false t prog o overwrite w with
    | (w, .saved) =>
      if Seismic.plotting p' c then
        match Seismic.plot { c with h5File := some files.results } none with
        | .error e => (p', w, .crashed e)
        | .ok (s, f) => (p', conclude files.log o.silent t w, .figures s f)
      else (p', conclude files.log o.silent t w, .nothing)
    | (w, .declined) =>
      if Seismic.plotting p' c then
        match c.plot none with
        | .error e => (p', w, .crashed e)
        | .ok (s, f) => (p', conclude files.log o.silent t w, .figures s f)
      else (p', conclude files.log o.silent t w, .nothing)
    | (w, .notFile) => (p, w, .nothing)
    | (w, _) => (p', w, .nothing)

/-! ### The commands there are -/

/-- The commands added to the group `cli` (cmd_quantas.py:47-52), and those of the groups `inpgen` and
`export` (cmd_inpgen.py:27-28, cmd_export.py:28-30). -/
def commands : List (List Str) :=
  [[c!"ha"], [c!"qha"], [c!"soec"], [c!"eosfit"], [c!"inpgen", c!"ha"], [c!"inpgen", c!"soec"],
    [c!"export", c!"ha"], [c!"export", c!"qha"], [c!"export", c!"soec"]]

end Verif.Command
