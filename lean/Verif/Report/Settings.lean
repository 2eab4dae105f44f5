/-
The settings that every command prints at the beginning of the log (`print_settings` in
/repo/quantas/*/commands/cmd_*.py).  A text is given by its lines, each ended by a newline.  Numbers are exact rationals.
-/
import Verif.Command.Model
import Verif.Report.Concise
import Verif.Report.Text

noncomputable section

namespace Verif.Report
open Verif.Py Verif.IO Verif.Phonon Verif.Export

/-- Lines ended by newlines. -/
def unlines (ls : List Str) : Str := (ls.map (· ++ ['\n'])).flatten

/-- The line under a title. -/
def settingsRule : Str := dashes 37

/-- `' - {:w} {}\n'`. -/
def settingLine (w : ℕ) (label value : Str) : Str := c!" - " ++ alignLeft w label ++ c!" " ++ value

/-- `' - {:5} {: 8.2f} {}\n'`. -/
def rangeLine (label : Str) (x : ℚ) (unit : Str) : Str :=
  c!" - " ++ alignLeft 5 label ++ c!" " ++ alignRight 8 (formatSpaced 2 x) ++ c!" " ++ unit

/-- Minimum, maximum and step of a range (cmd_qha.py:227-232, 236-241; cmd_ha.py:148-153). -/
def rangeLines (r : Fin 3 → ℚ) (unit : Str) : List Str :=
  [rangeLine c!"min:" (r 0) unit, rangeLine c!"max:" (r 1) unit, rangeLine c!"step:" (r 2) unit]

/-- The settings of the harmonic command that are printed (cmd_ha.py:84-93). -/
structure HaSettings where
  trange : Fin 3 → ℚ
  energy : Str
  length : Str
  frequency : Str
  temperature : Str

/-- `print_settings` (cmd_ha.py:133-161). -/
def haSettings (s : HaSettings) : Str :=
  unlines ([[], c!"Calculator: Harmonic Approximation", [], c!"Temperature settings", settingsRule] ++
    rangeLines s.trange s.temperature ++ [[], c!"Measurement units", settingsRule,
    settingLine 12 c!"energy:" s.energy, settingLine 12 c!"lenght:" s.length, settingLine 12 c!"frequency:" s.frequency,
    settingLine 12 c!"temperature:" s.temperature])

/-- The settings of the quasi-harmonic command that are printed (cmd_qha.py:128-146). -/
structure QhaSettings extends HaSettings where
  scheme : Str
  minimization : Str
  kieffer : Bool
  edeg : ℤ
  fdeg : ℤ
  eos : Str
  prange : Fin 3 → ℚ
  pressure : Str

/-- The lines on the approach (cmd_qha.py:200-218), for the schemes and minimisations that the command offers
(cmd_qha.py:55-64): a text without newline is never left open. -/
def approachLines (s : QhaSettings) : Except PyErr (List Str) :=
  let scheme := c!" - scheme: " ++ (if s.scheme = c!"freq" then c!"frequency interpolation"
    else if s.scheme = c!"td" then c!"thermodynamics interpolation" else [])
  let kieffer := c!" - use Kieffer's approach: " ++ if s.kieffer then c!"Yes" else c!"No"
  if s.minimization = c!"eos" then
    match Command.eosFormulations.find? (·.1 = s.eos) with
    | some f => .ok [scheme, c!" - volume minimization: Equation of State (EoS)", c!" - EoS formulation: " ++ f.2, kieffer]
    | none => .error .keyError
  else .ok [scheme, c!" - volume minimization: " ++ (if s.minimization = c!"poly" then c!"polynomial functions" else []),
    kieffer]

/-- `print_settings` (cmd_qha.py:187-250). -/
def qhaSettings (s : QhaSettings) : Except PyErr Str :=
  (approachLines s).map fun approach =>
    unlines ([[], c!"Calculator: Quasi-Harmonic Approximation", [], c!"Quasi-Harmonic Approximation approach",
      settingsRule] ++ approach ++ [[], c!"Polynomial fitting settings (degree)", settingsRule,
      settingLine 10 c!"energy:" (showInt s.edeg), settingLine 10 c!"frequency:" (showInt s.fdeg),
      [], c!"Temperature settings", settingsRule] ++ rangeLines s.trange s.temperature ++
      [[], c!"Pressure settings", settingsRule] ++ rangeLines s.prange s.pressure ++
      [[], c!"Measurement units", settingsRule,
      settingLine 12 c!"energy:" s.energy, settingLine 12 c!"lenght:" s.length, settingLine 12 c!"frequency:" s.frequency,
      settingLine 12 c!"temperature:" s.temperature, settingLine 12 c!"pressure:" s.pressure])

/-- `'{}'.format(b)`. -/
def showBool (b : Bool) : Str := if b then c!"True" else c!"False"

/-- The settings of the seismic command that are printed (cmd_seismic.py:93-106). -/
structure SeismicSettings where
  ntheta : ℤ
  nphi : ℤ
  pressure : Str
  plotting : Bool
  dpi : ℤ
  three : Bool
  two : Bool
  projection : Str

/-- The lines on plotting (cmd_seismic.py:180-191). -/
def plottingLines (s : SeismicSettings) : List Str :=
  settingLine 12 c!"requested:" (showBool s.plotting) ::
    if s.plotting then
      [settingLine 12 c!"dpi:" (showInt s.dpi), settingLine 12 c!"3D plots:" (showBool s.three),
        settingLine 12 c!"2D plots:" (showBool s.two)] ++
        if s.two then [settingLine 12 c!"projection:"
          (if s.projection = c!"eqar" then c!"Lambert equal area" else c!"stereographic")] else []
    else []

/-- `print_settings` (cmd_seismic.py:157-192). -/
def seismicSettings (s : SeismicSettings) : Str :=
  unlines ([[], c!"Calculator: wave velocities from Christoffel's equation", [], c!"Number of angular points",
    settingsRule, settingLine 12 c!"ntheta:" (showInt s.ntheta), settingLine 12 c!"nphi:" (showInt s.nphi),
    [], c!"Measurement units", settingsRule, settingLine 12 c!"pressure:" s.pressure, [], c!"Plotting", settingsRule] ++
    plottingLines s)

/-- `print_settings` (cmd_soec.py:125-141). -/
def soecSettings (pressure : Str) : Str :=
  unlines [[], c!"Calculator: Second-order elastic moduli analysis", [], c!"Measurement units", settingsRule,
    settingLine 12 c!"pressure:" pressure]

/-- `print_settings` (cmd_eosfit.py:95-112). -/
def eosSettings (pressure length : Str) : Str :=
  unlines [[], c!"Calculator: Equation of state (EoS) fitting", [], c!"Measurement units", settingsRule,
    settingLine 12 c!"pressure:" pressure, settingLine 12 c!"lenght:" length]

end Verif.Report
