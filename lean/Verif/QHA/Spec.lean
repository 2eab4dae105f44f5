/-
Specification side of the quasi-harmonic calculator: the units offered by `quantas qha` and their
sizes in SI.
-/
import Verif.QHA.Model
import Verif.Poly.Spec

namespace Verif.QHA.Spec
open Verif.Py Verif.Units

inductive EnergyUnit | Ha | eV | Ry
inductive LengthUnit | A | bohr
inductive PressureUnit | GPa | kbar
inductive TemperatureUnit | K | C
inductive FrequencyUnit | cm | THz | Hz

/-- Name typed for `--eunit` (cmd_qha.py:85-87). -/
def EnergyUnit.name : EnergyUnit → Str
  | .Ha => c!"Ha" | .eV => c!"eV" | .Ry => c!"Ry"
/-- Name typed for `--vunit` (cmd_qha.py:88-90). -/
def LengthUnit.name : LengthUnit → Str
  | .A => c!"A" | .bohr => c!"bohr"
/-- Name typed for `--punit` (cmd_qha.py:97-99). -/
def PressureUnit.name : PressureUnit → Str
  | .GPa => c!"GPa" | .kbar => c!"kbar"
/-- Name typed for `--tunit` (cmd_qha.py:94-96). -/
def TemperatureUnit.name : TemperatureUnit → Str
  | .K => c!"K" | .C => c!"C"
/-- Name passed on for `--funit` (cmd_qha.py:91-93, 140). -/
def FrequencyUnit.name : FrequencyUnit → Str
  | .cm => c!"cm^-1" | .THz => c!"THz" | .Hz => c!"Hz"

/-- Joule per unit. -/
def EnergyUnit.joule (k : Consts) : EnergyUnit → ℝ
  | .Ha => k.Ha | .eV => k.eV | .Ry => k.Ry
/-- Cubic metre per cubed unit. -/
def LengthUnit.m3 (k : Consts) : LengthUnit → ℝ
  | .A => k.Angstrom ^ 3 | .bohr => k.Bohr ^ 3
/-- Pascal per unit. -/
def PressureUnit.pascal : PressureUnit → ℝ
  | .GPa => 10 ^ 9 | .kbar => 10 ^ 8
/-- Absolute temperature of a reading. -/
noncomputable def TemperatureUnit.kelvin : TemperatureUnit → ℝ → ℝ
  | .K, t => t | .C, t => t + 273.15
/-- Hertz per unit. -/
def FrequencyUnit.hertz (k : Consts) : FrequencyUnit → ℝ
  | .cm => 100 * k.c | .THz => 10 ^ 12 | .Hz => 1

/-- One choice of units. -/
structure Choice where
  e : EnergyUnit
  v : LengthUnit
  p : PressureUnit
  t : TemperatureUnit
  f : FrequencyUnit

/-- The settings carry this choice. -/
structure Choice.Of {nt np : ℕ} (u : Choice) (s : Settings nt np) : Prop where
  e : s.eunit = u.e.name
  v : s.vunit = u.v.name
  p : s.punit = u.p.name
  t : s.tunit = u.t.name
  f : s.funit = u.f.name

/-- The external numerical routines do what they document: `polyfit` returns a least-squares
polynomial, the root finder returns the roots. -/
structure Numerics (ext : Ext) : Prop where
  fit : ∀ {n : ℕ} (X Y : Fin n → ℝ) (deg : ℕ), Poly.Spec.IsLeastSquares X Y (ext.polyfit X Y deg)
  roots : Poly.Spec.RootFinder ext.roots

/-- What `quantas ha` would be asked for with the same settings. -/
def harmonicSettings {nt np : ℕ} (s : Settings nt np) : HA.Settings nt :=
  ⟨s.eunit, s.funit, s.tunit, s.temperature⟩

end Verif.QHA.Spec
