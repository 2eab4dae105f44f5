/-
Model of /repo/quantas/utils/physics/units.py.
Arrays are flat lists of reals (a Python scalar is a one-element list); IEEE doubles are
modelled by reals.
-/
import Mathlib.Data.Real.Basic
import Mathlib.Algebra.Order.Field.Basic
import Verif.Tac
import Verif.Py.Basic

namespace Verif.Units
open Verif.Py

/-- The scipy constants used by the module (units.py:19-47), with the only facts the
theorems need: they are positive. -/
structure Consts where
  N : ℝ
  h : ℝ
  kB : ℝ
  c : ℝ
  Angstrom : ℝ
  Bohr : ℝ
  eV : ℝ
  Ha : ℝ
  Ry : ℝ
  N_pos : 0 < N
  h_pos : 0 < h
  kB_pos : 0 < kB
  c_pos : 0 < c
  Angstrom_pos : 0 < Angstrom
  Bohr_pos : 0 < Bohr
  eV_pos : 0 < eV
  Ha_pos : 0 < Ha
  Ry_pos : 0 < Ry

/-- CODATA values (units.py:19-47, through scipy.constants); witness that `Consts` is inhabited. -/
noncomputable def codata : Consts where
  N := 6.02214076e23
  h := 6.62607015e-34
  kB := 1.380649e-23
  c := 299792458
  Angstrom := 1.00001495e-10
  Bohr := 5.29177210903e-11
  eV := 1.602176634e-19
  Ha := 4.3597447222071e-18
  Ry := 2.1798723611035e-18
  N_pos := by norm_num
  h_pos := by norm_num
  kB_pos := by norm_num
  c_pos := by norm_num
  Angstrom_pos := by norm_num
  Bohr_pos := by norm_num
  eV_pos := by norm_num
  Ha_pos := by norm_num
  Ry_pos := by norm_num

/-- units.py:37 -/
noncomputable def zeroCelsius : ℝ := 273.15

/-- First branch chain of `convert_temperature` (units.py:87-99): to kelvin. -/
noncomputable def tempToKelvin (s : Str) : Except PyErr (ℝ → ℝ) :=
  if lower s ∈ [c!"celsius", c!"°c", c!"c"] then .ok fun v => v + zeroCelsius
  else if lower s ∈ [c!"kelvin", c!"k"] then .ok fun v => v
  else if lower s ∈ [c!"fahrenheit", c!"f"] then .ok fun v => (v - 32) * 5 / 9 + zeroCelsius
  else if lower s ∈ [c!"rankine", c!"r"] then .ok fun v => v * 5 / 9
  else .error .notImplemented

/-- Second branch chain of `convert_temperature` (units.py:101-113): from kelvin. -/
noncomputable def tempFromKelvin (s : Str) : Except PyErr (ℝ → ℝ) :=
  if lower s ∈ [c!"celsius", c!"°c", c!"c"] then .ok fun t => t - zeroCelsius
  else if lower s ∈ [c!"kelvin", c!"k"] then .ok fun t => t
  else if lower s ∈ [c!"fahrenheit", c!"f"] then .ok fun t => (t - zeroCelsius) * 9 / 5 + 32
  else if lower s ∈ [c!"rankine", c!"r"] then .ok fun t => t * 9 / 5
  else .error .notImplemented

/-- `convert_temperature` (units.py:50-115). -/
noncomputable def convertTemperature (val : List ℝ) (old new : Str) : Except PyErr (List ℝ) := do
  let f ← tempToKelvin old
  let tempo := val.map f
  let g ← tempFromKelvin new
  return tempo.map g

/-- First branch chain of `convert_energy` (units.py:151-163): to hartree.  The lists hold the
capitalised spellings exactly as in the code; they are compared with the *lowered* name. -/
noncomputable def energyToHartree (k : Consts) (s : Str) : Except PyErr (ℝ → ℝ) :=
  if lower s ∈ [c!"Hartree", c!"Ha", c!"ha"] then .ok fun v => v
  else if lower s ∈ [c!"electron volt", c!"eV", c!"ev"] then .ok fun v => v * (k.eV / k.Ha)
  else if lower s ∈ [c!"Rydberg", c!"Ry", c!"ry"] then .ok fun v => v * (k.Ry / k.Ha)
  else if lower s ∈ [c!"kJ/mol", c!"kj/mol", c!"kjmol"] then .ok fun v => v * (1000 / k.Ha / k.N)
  else .error .notImplemented

/-- Second branch chain of `convert_energy` (units.py:164-176): from hartree. -/
noncomputable def energyFromHartree (k : Consts) (s : Str) : Except PyErr (ℝ → ℝ) :=
  if lower s ∈ [c!"Hartree", c!"Ha", c!"ha"] then .ok fun e => e
  else if lower s ∈ [c!"electron volt", c!"eV", c!"ev"] then .ok fun e => e * (k.Ha / k.eV)
  else if lower s ∈ [c!"Rydberg", c!"Ry", c!"ry"] then .ok fun e => e * (k.Ha / k.Ry)
  else if lower s ∈ [c!"kJ/mol", c!"kj/mol", c!"kjmol"] then .ok fun e => e * (k.Ha * k.N / 1000)
  else .error .notImplemented

/-- `convert_energy` (units.py:117-177). -/
noncomputable def convertEnergy (k : Consts) (val : List ℝ) (old new : Str) :
    Except PyErr (List ℝ) := do
  let f ← energyToHartree k old
  let energy := val.map f
  let g ← energyFromHartree k new
  return energy.map g

/-- First branch chain of `convert_pressure` (units.py:219-237): to pascal. -/
noncomputable def pressureToPa (s : Str) : Except PyErr (ℝ → ℝ) :=
  if lower s ∈ [c!"gpa"] then .ok fun v => v * 10 ^ 9
  else if lower s ∈ [c!"mpa"] then .ok fun v => v * 10 ^ 6
  else if lower s ∈ [c!"kpa"] then .ok fun v => v * 10 ^ 3
  else if lower s ∈ [c!"pa"] then .ok fun v => v
  else if lower s ∈ [c!"gbar"] then .ok fun v => v * 10 ^ 14
  else if lower s ∈ [c!"mbar"] then .ok fun v => v * 10 ^ 11
  else if lower s ∈ [c!"kbar"] then .ok fun v => v * 10 ^ 8
  else if lower s ∈ [c!"bar"] then .ok fun v => v * 10 ^ 5
  else .error .notImplemented

/-- Second branch chain of `convert_pressure` (units.py:238-256): from pascal. -/
noncomputable def pressureFromPa (s : Str) : Except PyErr (ℝ → ℝ) :=
  if lower s ∈ [c!"gpa"] then .ok fun p => p / 10 ^ 9
  else if lower s ∈ [c!"mpa"] then .ok fun p => p / 10 ^ 6
  else if lower s ∈ [c!"kpa"] then .ok fun p => p / 10 ^ 3
  else if lower s ∈ [c!"pa"] then .ok fun p => p
  else if lower s ∈ [c!"gbar"] then .ok fun p => p / 10 ^ 14
  else if lower s ∈ [c!"mbar"] then .ok fun p => p / 10 ^ 11
  else if lower s ∈ [c!"kbar"] then .ok fun p => p / 10 ^ 8
  else if lower s ∈ [c!"bar"] then .ok fun p => p / 10 ^ 5
  else .error .notImplemented

/-- `convert_pressure` (units.py:180-257). -/
noncomputable def convertPressure (val : List ℝ) (old new : Str) : Except PyErr (List ℝ) := do
  let f ← pressureToPa old
  let pressure := val.map f
  let g ← pressureFromPa new
  return pressure.map g

/-- First branch chain of `convert_frequency` (units.py:484-494): to wavenumbers. -/
noncomputable def freqToCm (k : Consts) (s : Str) : Except PyErr (ℝ → ℝ) :=
  if lower s ∈ [c!"cm^-1"] then .ok fun v => v
  else if lower s ∈ [c!"Hz", c!"hz"] then .ok fun v => v / (k.c * 100)
  else if lower s ∈ [c!"THz", c!"thz"] then .ok fun v => 10 ^ 12 * v / (k.c * 100)
  else .error .notImplemented

/-- Second branch chain of `convert_frequency` (units.py:495-505): from wavenumbers. -/
noncomputable def freqFromCm (k : Consts) (s : Str) : Except PyErr (ℝ → ℝ) :=
  if lower s ∈ [c!"cm^-1"] then .ok fun f => f
  else if lower s ∈ [c!"Hz", c!"hz"] then .ok fun f => f * (k.c * 100)
  else if lower s ∈ [c!"THz", c!"thz"] then .ok fun f => f * (k.c * 100) / 10 ^ 12
  else .error .notImplemented

/-- `convert_frequency` (units.py:451-506). -/
noncomputable def convertFrequency (k : Consts) (val : List ℝ) (old new : Str) :
    Except PyErr (List ℝ) := do
  let f ← freqToCm k old
  let freq := val.map f
  let g ← freqFromCm k new
  return freq.map g

/-- First branch chain of `convert_lenght` (units.py:540-548): to metres. -/
noncomputable def lengthToM (k : Consts) (s : Str) : Except PyErr (ℝ → ℝ) :=
  if lower s ∈ [c!"metre", c!"m"] then .ok fun v => v
  else if lower s ∈ [c!"angstrom", c!"a"] then .ok fun v => v * k.Angstrom
  else if lower s ∈ [c!"bohr"] then .ok fun v => v * k.Bohr
  else .error .notImplemented

/-- Second branch chain of `convert_lenght` (units.py:549-557): from metres. -/
noncomputable def lengthFromM (k : Consts) (s : Str) : Except PyErr (ℝ → ℝ) :=
  if lower s ∈ [c!"metre", c!"m"] then .ok fun l => l
  else if lower s ∈ [c!"angstrom", c!"a"] then .ok fun l => l / k.Angstrom
  else if lower s ∈ [c!"bohr"] then .ok fun l => l / k.Bohr
  else .error .notImplemented

/-- `convert_lenght` (units.py:508-559). -/
noncomputable def convertLength (k : Consts) (val : List ℝ) (old new : Str) :
    Except PyErr (List ℝ) := do
  let f ← lengthToM k old
  let lenght := val.map f
  let g ← lengthFromM k new
  return lenght.map g

/-- First branch chain of `convert_volume` (units.py:594-602): to cubic metres.
`np.power(Angstrom, 3.)` is the natural power 3. -/
noncomputable def volumeToM3 (k : Consts) (s : Str) : Except PyErr (ℝ → ℝ) :=
  if lower s ∈ [c!"metre", c!"m"] then .ok fun v => v
  else if lower s ∈ [c!"angstrom", c!"a"] then .ok fun v => v * k.Angstrom ^ 3
  else if lower s ∈ [c!"bohr"] then .ok fun v => v * k.Bohr ^ 3
  else .error .notImplemented

/-- Second branch chain of `convert_volume` (units.py:603-611): from cubic metres. -/
noncomputable def volumeFromM3 (k : Consts) (s : Str) : Except PyErr (ℝ → ℝ) :=
  if lower s ∈ [c!"metre", c!"m"] then .ok fun v => v
  else if lower s ∈ [c!"angstrom", c!"a"] then .ok fun v => v / k.Angstrom ^ 3
  else if lower s ∈ [c!"bohr"] then .ok fun v => v / k.Bohr ^ 3
  else .error .notImplemented

/-- `convert_volume` (units.py:561-613). -/
noncomputable def convertVolume (k : Consts) (val : List ℝ) (old new : Str) :
    Except PyErr (List ℝ) := do
  let f ← volumeToM3 k old
  let volume := val.map f
  let g ← volumeFromM3 k new
  return volume.map g

/-! ### `energy_to_pressure` and `pressure_to_energy`: in-place arithmetic -/

/-- What a caller can pass as `val`: an `ndarray` of floats or of ints, or something that
`np.asarray` has to copy (scalars, lists) with float or int contents. -/
inductive PyVal where
  | ndFloat (l : List ℝ)
  | ndInt (l : List ℤ)
  | seqFloat (l : List ℝ)
  | seqInt (l : List ℤ)

/-- The array `res = np.asarray(val)` (units.py:314, 409): whether `res` shares memory with the
caller's object, and whether its dtype is float. -/
def PyVal.shared : PyVal → Bool
  | .ndFloat _ | .ndInt _ => true
  | .seqFloat _ | .seqInt _ => false

/-- The numbers held by the caller's object. -/
def PyVal.floats : PyVal → Option (List ℝ)
  | .ndFloat l | .seqFloat l => some l
  | .ndInt _ | .seqInt _ => none

/-- Running state of the two functions: the buffer of `res`. An in-place float operation on an
integer buffer raises numpy's `UFuncTypeError` (a `TypeError`). -/
abbrev Buf := Option (List ℝ)

/-- `res *= x` / `res /= x` on the buffer. -/
def inplace (f : ℝ → ℝ) : Buf → Buf × Except PyErr Unit
  | some l => (some (l.map f), .ok ())
  | none => (none, .error .typeError)

/-- One `if/elif/else` chain of the two functions: pick the in-place operation by name. -/
def chain (table : List (List Str × (ℝ → ℝ))) (s : Str) : Option (ℝ → ℝ) :=
  match table with
  | [] => none
  | (names, f) :: rest => if lower s ∈ names then some f else chain rest s

/-- Run a chain on the buffer: unsupported name raises `NotImplementedError` with the buffer left
as previous steps made it. -/
def step (table : List (List Str × (ℝ → ℝ))) (s : Str) (b : Buf) : Buf × Except PyErr Unit :=
  match chain table s with
  | some f => inplace f b
  | none => (b, .error .notImplemented)

/-- Sequence three steps, stopping at the first exception. -/
def run3 (s1 s2 s3 : Buf → Buf × Except PyErr Unit) (b : Buf) : Buf × Except PyErr Unit :=
  match s1 b with
  | (b1, .error e) => (b1, .error e)
  | (b1, .ok ()) =>
    match s2 b1 with
    | (b2, .error e) => (b2, .error e)
    | (b2, .ok ()) => s3 b2

/-- Energy chain of `energy_to_pressure` (units.py:315-323): multiply by the unit in joule. -/
noncomputable def e2pEnergy (k : Consts) : List (List Str × (ℝ → ℝ)) :=
  [([c!"hartree", c!"ha"], fun v => v * k.Ha),
   ([c!"electron volt", c!"ev"], fun v => v * k.eV),
   ([c!"rydberg", c!"ry"], fun v => v * k.Ry)]

/-- Volume chain of `energy_to_pressure` (units.py:325-331). -/
noncomputable def e2pVolume (k : Consts) : List (List Str × (ℝ → ℝ)) :=
  [([c!"angstrom", c!"a", c!"a^3"], fun v => v / k.Angstrom ^ 3),
   ([c!"bohr", c!"bohr^3"], fun v => v / k.Bohr ^ 3)]

/-- Pressure chain of `energy_to_pressure` (units.py:333-351). -/
noncomputable def e2pPressure : List (List Str × (ℝ → ℝ)) :=
  [([c!"gpa"], fun v => v / 10 ^ 9),
   ([c!"mpa"], fun v => v / 10 ^ 6),
   ([c!"kpa"], fun v => v / 10 ^ 3),
   ([c!"pa"], fun v => v / 1),
   ([c!"gbar"], fun v => v / 10 ^ 14),
   ([c!"mbar"], fun v => v / 10 ^ 11),
   ([c!"kbar"], fun v => v / 10 ^ 8),
   ([c!"bar"], fun v => v / 10 ^ 5)]

/-- Pressure chain of `pressure_to_energy` (units.py:410-428). -/
noncomputable def p2ePressure : List (List Str × (ℝ → ℝ)) :=
  [([c!"gpa"], fun v => v * 10 ^ 9),
   ([c!"mpa"], fun v => v * 10 ^ 6),
   ([c!"kpa"], fun v => v * 10 ^ 3),
   ([c!"pa"], fun v => v * 1),
   ([c!"gbar"], fun v => v * 10 ^ 14),
   ([c!"mbar"], fun v => v * 10 ^ 11),
   ([c!"kbar"], fun v => v * 10 ^ 8),
   ([c!"bar"], fun v => v * 10 ^ 5)]

/-- Volume chain of `pressure_to_energy` (units.py:430-436). -/
noncomputable def p2eVolume (k : Consts) : List (List Str × (ℝ → ℝ)) :=
  [([c!"angstrom", c!"a", c!"a^3"], fun v => v * k.Angstrom ^ 3),
   ([c!"bohr", c!"bohr^3"], fun v => v * k.Bohr ^ 3)]

/-- Energy chain of `pressure_to_energy` (units.py:438-446). -/
noncomputable def p2eEnergy (k : Consts) : List (List Str × (ℝ → ℝ)) :=
  [([c!"hartree", c!"ha"], fun v => v / k.Ha),
   ([c!"electron volt", c!"ev"], fun v => v / k.eV),
   ([c!"rydberg", c!"ry"], fun v => v / k.Ry)]

/-- The caller's object after the call: if `res` shares its memory, it holds the buffer. -/
def PyVal.after (v : PyVal) (b : Buf) : PyVal :=
  match v, b with
  | .ndFloat _, some l => .ndFloat l
  | v, _ => v

/-- Pack the outcome: the caller's object afterwards, and the returned array or exception. -/
def finish (v : PyVal) (r : Buf × Except PyErr Unit) : PyVal × Except PyErr (List ℝ) :=
  (v.after r.1, match r with
    | (some l, .ok ()) => .ok l
    | (none, .ok ()) => .error .typeError  -- not reachable: three in-place steps on ints raise
    | (_, .error e) => .error e)

/-- `energy_to_pressure` (units.py:260-353). -/
noncomputable def energyToPressure (k : Consts) (v : PyVal) (es vs ps : Str) :
    PyVal × Except PyErr (List ℝ) :=
  finish v (run3 (step (e2pEnergy k) es) (step (e2pVolume k) vs) (step e2pPressure ps) v.floats)

/-- `pressure_to_energy` (units.py:355-448). -/
noncomputable def pressureToEnergy (k : Consts) (v : PyVal) (es vs ps : Str) :
    PyVal × Except PyErr (List ℝ) :=
  finish v (run3 (step p2ePressure ps) (step (p2eVolume k) vs) (step (p2eEnergy k) es) v.floats)

end Verif.Units
