/-
Model of /repo/quantas/utils/physics/units.py in the arithmetic of the computer: every operation is rounded.  Branches and names are
those of `Verif.Units.Model`.  The constants of the module are the doubles that scipy gives (units.py:19-47); sums, products and
quotients of constants in the code are rounded, too.  Simplification: exponents are not limited, so nothing overflows or
underflows.
-/
import Verif.Units.Model

noncomputable section

namespace Verif.Units.Rounded
open Verif.Py Verif.Units

/-- The rounding of the results of `+ - * /` and of literals, and `np.power(x, n)` for whole `n`. -/
structure Machine where
  rnd : ℝ → ℝ
  pow : ℝ → ℕ → ℝ

variable (m : Machine) (k : Consts)

/-- units.py:37: the double nearest to 273.15. -/
def zeroCelsius : ℝ := m.rnd 273.15

/-- units.py:87-99 -/
def tempToKelvin (s : Str) : Except PyErr (ℝ → ℝ) :=
  if lower s ∈ [c!"celsius", c!"°c", c!"c"] then .ok fun v => m.rnd (v + zeroCelsius m)
  else if lower s ∈ [c!"kelvin", c!"k"] then .ok fun v => v
  else if lower s ∈ [c!"fahrenheit", c!"f"] then
    .ok fun v => m.rnd (m.rnd (m.rnd (m.rnd (v - 32) * 5) / 9) + zeroCelsius m)
  else if lower s ∈ [c!"rankine", c!"r"] then .ok fun v => m.rnd (m.rnd (v * 5) / 9)
  else .error .notImplemented

/-- units.py:101-113 -/
def tempFromKelvin (s : Str) : Except PyErr (ℝ → ℝ) :=
  if lower s ∈ [c!"celsius", c!"°c", c!"c"] then .ok fun t => m.rnd (t - zeroCelsius m)
  else if lower s ∈ [c!"kelvin", c!"k"] then .ok fun t => t
  else if lower s ∈ [c!"fahrenheit", c!"f"] then
    .ok fun t => m.rnd (m.rnd (m.rnd (m.rnd (t - zeroCelsius m) * 9) / 5) + 32)
  else if lower s ∈ [c!"rankine", c!"r"] then .ok fun t => m.rnd (m.rnd (t * 9) / 5)
  else .error .notImplemented

/-- Every converter applies one chain of branches after the other (units.py:87-115, 151-177, 219-257, 484-506, 540-559,
594-613). -/
def convert (first second : Str → Except PyErr (ℝ → ℝ)) (val : List ℝ) (old new : Str) : Except PyErr (List ℝ) := do
  let f ← first old
  let res := val.map f
  let g ← second new
  return res.map g

/-- units.py:151-163 -/
def energyToHartree (s : Str) : Except PyErr (ℝ → ℝ) :=
  if lower s ∈ [c!"Hartree", c!"Ha", c!"ha"] then .ok fun v => v
  else if lower s ∈ [c!"electron volt", c!"eV", c!"ev"] then .ok fun v => m.rnd (v * m.rnd (k.eV / k.Ha))
  else if lower s ∈ [c!"Rydberg", c!"Ry", c!"ry"] then .ok fun v => m.rnd (v * m.rnd (k.Ry / k.Ha))
  else if lower s ∈ [c!"kJ/mol", c!"kj/mol", c!"kjmol"] then .ok fun v => m.rnd (v * m.rnd (m.rnd (1000 / k.Ha) / k.N))
  else .error .notImplemented

/-- units.py:164-176 -/
def energyFromHartree (s : Str) : Except PyErr (ℝ → ℝ) :=
  if lower s ∈ [c!"Hartree", c!"Ha", c!"ha"] then .ok fun e => e
  else if lower s ∈ [c!"electron volt", c!"eV", c!"ev"] then .ok fun e => m.rnd (e * m.rnd (k.Ha / k.eV))
  else if lower s ∈ [c!"Rydberg", c!"Ry", c!"ry"] then .ok fun e => m.rnd (e * m.rnd (k.Ha / k.Ry))
  else if lower s ∈ [c!"kJ/mol", c!"kj/mol", c!"kjmol"] then .ok fun e => m.rnd (e * m.rnd (m.rnd (k.Ha * k.N) / 1000))
  else .error .notImplemented

/-- units.py:219-237; `giga`, `mega` and `kilo` are powers of ten (units.py:31-33). -/
def pressureToPa (s : Str) : Except PyErr (ℝ → ℝ) :=
  if lower s ∈ [c!"gpa"] then .ok fun v => m.rnd (v * m.pow 10 9)
  else if lower s ∈ [c!"mpa"] then .ok fun v => m.rnd (v * m.pow 10 6)
  else if lower s ∈ [c!"kpa"] then .ok fun v => m.rnd (v * m.pow 10 3)
  else if lower s ∈ [c!"pa"] then .ok fun v => v
  else if lower s ∈ [c!"gbar"] then .ok fun v => m.rnd (v * m.pow 10 14)
  else if lower s ∈ [c!"mbar"] then .ok fun v => m.rnd (v * m.pow 10 11)
  else if lower s ∈ [c!"kbar"] then .ok fun v => m.rnd (v * m.pow 10 8)
  else if lower s ∈ [c!"bar"] then .ok fun v => m.rnd (v * m.pow 10 5)
  else .error .notImplemented

/-- units.py:238-256 -/
def pressureFromPa (s : Str) : Except PyErr (ℝ → ℝ) :=
  if lower s ∈ [c!"gpa"] then .ok fun p => m.rnd (p / m.pow 10 9)
  else if lower s ∈ [c!"mpa"] then .ok fun p => m.rnd (p / m.pow 10 6)
  else if lower s ∈ [c!"kpa"] then .ok fun p => m.rnd (p / m.pow 10 3)
  else if lower s ∈ [c!"pa"] then .ok fun p => p
  else if lower s ∈ [c!"gbar"] then .ok fun p => m.rnd (p / m.pow 10 14)
  else if lower s ∈ [c!"mbar"] then .ok fun p => m.rnd (p / m.pow 10 11)
  else if lower s ∈ [c!"kbar"] then .ok fun p => m.rnd (p / m.pow 10 8)
  else if lower s ∈ [c!"bar"] then .ok fun p => m.rnd (p / m.pow 10 5)
  else .error .notImplemented

/-- units.py:484-494; `tera` is a power of ten (units.py:34). -/
def freqToCm (s : Str) : Except PyErr (ℝ → ℝ) :=
  if lower s ∈ [c!"cm^-1"] then .ok fun v => v
  else if lower s ∈ [c!"Hz", c!"hz"] then .ok fun v => m.rnd (v / m.rnd (k.c * 100))
  else if lower s ∈ [c!"THz", c!"thz"] then .ok fun v => m.rnd (m.rnd (m.pow 10 12 * v) / m.rnd (k.c * 100))
  else .error .notImplemented

/-- units.py:495-505 -/
def freqFromCm (s : Str) : Except PyErr (ℝ → ℝ) :=
  if lower s ∈ [c!"cm^-1"] then .ok fun f => f
  else if lower s ∈ [c!"Hz", c!"hz"] then .ok fun f => m.rnd (f * m.rnd (k.c * 100))
  else if lower s ∈ [c!"THz", c!"thz"] then .ok fun f => m.rnd (m.rnd (f * m.rnd (k.c * 100)) / m.pow 10 12)
  else .error .notImplemented

/-- units.py:540-548 -/
def lengthToM (s : Str) : Except PyErr (ℝ → ℝ) :=
  if lower s ∈ [c!"metre", c!"m"] then .ok fun v => v
  else if lower s ∈ [c!"angstrom", c!"a"] then .ok fun v => m.rnd (v * k.Angstrom)
  else if lower s ∈ [c!"bohr"] then .ok fun v => m.rnd (v * k.Bohr)
  else .error .notImplemented

/-- units.py:549-557 -/
def lengthFromM (s : Str) : Except PyErr (ℝ → ℝ) :=
  if lower s ∈ [c!"metre", c!"m"] then .ok fun l => l
  else if lower s ∈ [c!"angstrom", c!"a"] then .ok fun l => m.rnd (l / k.Angstrom)
  else if lower s ∈ [c!"bohr"] then .ok fun l => m.rnd (l / k.Bohr)
  else .error .notImplemented

/-- units.py:594-602 -/
def volumeToM3 (s : Str) : Except PyErr (ℝ → ℝ) :=
  if lower s ∈ [c!"metre", c!"m"] then .ok fun v => v
  else if lower s ∈ [c!"angstrom", c!"a"] then .ok fun v => m.rnd (v * m.pow k.Angstrom 3)
  else if lower s ∈ [c!"bohr"] then .ok fun v => m.rnd (v * m.pow k.Bohr 3)
  else .error .notImplemented

/-- units.py:603-611 -/
def volumeFromM3 (s : Str) : Except PyErr (ℝ → ℝ) :=
  if lower s ∈ [c!"metre", c!"m"] then .ok fun v => v
  else if lower s ∈ [c!"angstrom", c!"a"] then .ok fun v => m.rnd (v / m.pow k.Angstrom 3)
  else if lower s ∈ [c!"bohr"] then .ok fun v => m.rnd (v / m.pow k.Bohr 3)
  else .error .notImplemented

/-- Energy chain of `energy_to_pressure` (units.py:315-323). -/
def e2pEnergy : List (List Str × (ℝ → ℝ)) :=
  [([c!"hartree", c!"ha"], fun v => m.rnd (v * k.Ha)),
   ([c!"electron volt", c!"ev"], fun v => m.rnd (v * k.eV)),
   ([c!"rydberg", c!"ry"], fun v => m.rnd (v * k.Ry))]

/-- Volume chain of `energy_to_pressure` (units.py:325-331). -/
def e2pVolume : List (List Str × (ℝ → ℝ)) :=
  [([c!"angstrom", c!"a", c!"a^3"], fun v => m.rnd (v / m.pow k.Angstrom 3)),
   ([c!"bohr", c!"bohr^3"], fun v => m.rnd (v / m.pow k.Bohr 3))]

/-- Pressure chain of `energy_to_pressure` (units.py:333-351). -/
def e2pPressure : List (List Str × (ℝ → ℝ)) :=
  [([c!"gpa"], fun v => m.rnd (v / m.pow 10 9)),
   ([c!"mpa"], fun v => m.rnd (v / m.pow 10 6)),
   ([c!"kpa"], fun v => m.rnd (v / m.pow 10 3)),
   ([c!"pa"], fun v => m.rnd (v / 1)),
   ([c!"gbar"], fun v => m.rnd (v / m.pow 10 14)),
   ([c!"mbar"], fun v => m.rnd (v / m.pow 10 11)),
   ([c!"kbar"], fun v => m.rnd (v / m.pow 10 8)),
   ([c!"bar"], fun v => m.rnd (v / m.pow 10 5))]

/-- Pressure chain of `pressure_to_energy` (units.py:410-428). -/
def p2ePressure : List (List Str × (ℝ → ℝ)) :=
  [([c!"gpa"], fun v => m.rnd (v * m.pow 10 9)),
   ([c!"mpa"], fun v => m.rnd (v * m.pow 10 6)),
   ([c!"kpa"], fun v => m.rnd (v * m.pow 10 3)),
   ([c!"pa"], fun v => m.rnd (v * 1)),
   ([c!"gbar"], fun v => m.rnd (v * m.pow 10 14)),
   ([c!"mbar"], fun v => m.rnd (v * m.pow 10 11)),
   ([c!"kbar"], fun v => m.rnd (v * m.pow 10 8)),
   ([c!"bar"], fun v => m.rnd (v * m.pow 10 5))]

/-- Volume chain of `pressure_to_energy` (units.py:430-436). -/
def p2eVolume : List (List Str × (ℝ → ℝ)) :=
  [([c!"angstrom", c!"a", c!"a^3"], fun v => m.rnd (v * m.pow k.Angstrom 3)),
   ([c!"bohr", c!"bohr^3"], fun v => m.rnd (v * m.pow k.Bohr 3))]

/-- Energy chain of `pressure_to_energy` (units.py:438-446). -/
def p2eEnergy : List (List Str × (ℝ → ℝ)) :=
  [([c!"hartree", c!"ha"], fun v => m.rnd (v / k.Ha)),
   ([c!"electron volt", c!"ev"], fun v => m.rnd (v / k.eV)),
   ([c!"rydberg", c!"ry"], fun v => m.rnd (v / k.Ry))]

/-- `energy_to_pressure` (units.py:260-353). -/
def energyToPressure (v : PyVal) (es vs ps : Str) : PyVal × Except PyErr (List ℝ) :=
  finish v (run3 (step (e2pEnergy m k) es) (step (e2pVolume m k) vs) (step (e2pPressure m) ps) v.floats)

/-- `pressure_to_energy` (units.py:355-448). -/
def pressureToEnergy (v : PyVal) (es vs ps : Str) : PyVal × Except PyErr (List ℝ) :=
  finish v (run3 (step (p2ePressure m) ps) (step (p2eVolume m k) vs) (step (p2eEnergy m k) es) v.floats)

/-- `convert_temperature` (units.py:50-115). -/
def convertTemperature := convert (tempToKelvin m) (tempFromKelvin m)
/-- `convert_energy` (units.py:117-177). -/
def convertEnergy := convert (energyToHartree m k) (energyFromHartree m k)
/-- `convert_pressure` (units.py:180-257). -/
def convertPressure := convert (pressureToPa m) (pressureFromPa m)
/-- `convert_frequency` (units.py:451-506). -/
def convertFrequency := convert (freqToCm m k) (freqFromCm m k)
/-- `convert_lenght` (units.py:508-559). -/
def convertLength := convert (lengthToM m k) (lengthFromM m k)
/-- `convert_volume` (units.py:561-613). -/
def convertVolume := convert (volumeToM3 m k) (volumeFromM3 m k)

end Verif.Units.Rounded
