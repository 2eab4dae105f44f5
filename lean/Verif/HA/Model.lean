/-
Model of /repo/quantas/harmonic/harmonic.py (class HACalculator), on top of the unit converters
and of the statistical-mechanics kernels.
-/
import Verif.Units.Model
import Verif.StatMech.Model

namespace Verif.HA
open Verif.Py Verif.Units Verif.StatMech

variable {nt nb nf nv : ℕ}

/-- `convert_energy(x, old, new)` acting on an array elementwise (units.py:117-177): the function
applied to every element, or the exception. -/
noncomputable def energyMap (k : Consts) (old new : Str) : Except PyErr (ℝ → ℝ) := do
  let f ← energyToHartree k old
  let g ← energyFromHartree k new
  return fun x => g (f x)

/-- `convert_temperature` elementwise (units.py:50-115). -/
noncomputable def temperatureMap (old new : Str) : Except PyErr (ℝ → ℝ) := do
  let f ← tempToKelvin old
  let g ← tempFromKelvin new
  return fun x => g (f x)

/-- `convert_frequency` elementwise (units.py:451-506). -/
noncomputable def frequencyMap (k : Consts) (old new : Str) : Except PyErr (ℝ → ℝ) := do
  let f ← freqToCm k old
  let g ← freqFromCm k new
  return fun x => g (f x)

/-- The part of the input file the calculator uses (qha_reader.py:127-164): static energies,
frequencies indexed by q-point, band and volume, and q-point weights. -/
structure Input (nb nf nv : ℕ) where
  U0 : Fin nv → ℝ
  freq : Fin nb → Fin nf → Fin nv → ℝ
  weights : Fin nb → ℝ

/-- Settings used by `run` (harmonic.py:99-109): units and the temperature array. -/
structure Settings (nt : ℕ) where
  eunit : Str
  funit : Str
  tunit : Str
  temperature : Fin nt → ℝ

/-- The `_results` dictionary (harmonic.py:200-208). -/
structure Results (nt nv : ℕ) where
  Uzp : Fin 1 → Fin nv → ℝ
  Uth : Fin nt → Fin nv → ℝ
  S : Fin nt → Fin nv → ℝ
  Cv : Fin nt → Fin nv → ℝ
  Fvib : Fin nt → Fin nv → ℝ
  Utot : Fin nt → Fin nv → ℝ
  F : Fin nt → Fin nv → ℝ

/-- `total_q_points` (qha_reader.py:162-164). -/
def totalQPoints (w : Fin nb → ℝ) : ℝ := ∑ j, w j

/-- The weights used (harmonic.py:222).  A zero total gives NaN in the code and 0 here; the
theorems exclude it. -/
noncomputable def usedWeights (w : Fin nb → ℝ) : Fin nb → ℝ := fun j => w j / totalQPoints w

/-- `HACalculator.run` (harmonic.py:211-294), without timing and messages. -/
noncomputable def run (k : Consts) (s : Settings nt) (x : Input nb nf nv) :
    Except PyErr (Results nt nv) := do
  let weights := usedWeights x.weights
  let tK ← temperatureMap s.tunit c!"K"
  let temperature := fun i => tK (s.temperature i)
  let hz ← frequencyMap k s.funit c!"Hz"
  let freq := fun j m n => hz (x.freq j m n)
  let ce ← energyMap k c!"kjmol" s.eunit
  let Uzp := fun (i : Fin 1) n => ce (zeroPointEnergy k (fun _ => 0) freq weights i n)
  let Uth := fun i n => ce (thermalEnergy k temperature freq weights i n)
  let S := fun i n => ce (entropy k temperature freq weights i n)
  let Cv := fun i n => ce (isochoricHeatCapacity k temperature freq weights i n)
  let Fvib := fun i n => ce (vibrationalFreeEnergy k temperature freq weights i n)
  let Utot := internalEnergy x.U0 (Uzp 0) Uth
  let F := freeEnergy x.U0 Fvib
  return { Uzp, Uth, S, Cv, Fvib, Utot, F }

end Verif.HA
