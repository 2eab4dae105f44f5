/-
Specification of a harmonic analysis: Planck's oscillator, and the mean over the sampled vibrations of a crystal.
-/
import Verif.Phonon.GeneratorProps
import Verif.Interfaces.CrystalProps
import Verif.HA.Props

noncomputable section

namespace Verif.Chain.Spec
open Verif.Py Verif.IO Verif.IO.Spec Verif.Interfaces Verif.Interfaces.Spec Verif.Units

/-- The energy (joule) of an oscillator of frequency `ν` (hertz) in its ground state. -/
def zeroPoint (k : Consts) (ν : ℝ) : ℝ := k.h * ν / 2

/-- Planck's mean number of quanta at the temperature `T` (kelvin). -/
def quanta (k : Consts) (T ν : ℝ) : ℝ := 1 / (Real.exp (k.h * ν / (k.kB * T)) - 1)

/-- The thermal energy (joule). -/
def thermal (k : Consts) (T ν : ℝ) : ℝ := k.h * ν * quanta k T ν

/-- The free energy (joule): `-kT ln Z` with `Z = ∑ exp (-(n + 1/2) h ν / kT)`. -/
def free (k : Consts) (T ν : ℝ) : ℝ := -(k.kB * T) * Real.log (∑' n : ℕ, Real.exp (-((n + 1 / 2) * (k.h * ν) / (k.kB * T))))

/-- The entropy (joule per kelvin): energy minus free energy over temperature. -/
def entropyOf (k : Consts) (T ν : ℝ) : ℝ := (zeroPoint k ν + thermal k T ν - free k T ν) / T

/-- The heat capacity (joule per kelvin) is the derivative of the thermal energy. -/
def heatCapacity (k : Consts) (T ν : ℝ) : ℝ := deriv (fun t => thermal k t ν) T

/-- The mean over the sampled points of the sum over the vibrations with positive frequency; the others are the translations
of the crystal (frequency zero) or unstable.  `unit` is the size of the unit of the frequencies in hertz, and a point is its
weight with its frequencies. -/
def cellMean (f : ℝ → ℝ) (unit : ℝ) (points : List (ℚ × List ℚ)) : ℝ :=
  (points.map fun p => (p.1 : ℝ) * ((p.2.filter (0 < ·)).map fun ν : ℚ => f (unit * ν)).sum).sum /
    (points.map fun p => (p.1 : ℝ)).sum

/-- The results at a volume and a temperature `T > 0`, in the unit of energy `E` (joule; entropy and heat capacity in
thousandths of it per kelvin), are those of the vibrations `points` on top of the static energy `U` up to the relative error
`t` of the static energy. -/
structure Describes (k : Consts) (E unit T U t : ℝ) (points : List (ℚ × List ℚ)) (Uzp Uth S Cv Fvib Utot F : ℝ) : Prop where
  zeroPoint : E * Uzp = cellMean (Spec.zeroPoint k) unit points
  thermal : E * Uth = cellMean (Spec.thermal k T) unit points
  entropy : E * S / 1000 = cellMean (entropyOf k T) unit points
  heat : E * Cv / 1000 = cellMean (heatCapacity k T) unit points
  vibrational : E * Fvib = cellMean (Spec.free k T) unit points
  total : |Utot - (U + Uzp + Uth)| ≤ t * |U|
  free : |F - (U + Fvib)| ≤ t * |U|

/-- The points of an input with their weights and their frequencies at the volume with the number `v`. -/
def vibrationsAt (d : Phonon.Spec.Content) (v : ℕ) : List (ℚ × List ℚ) :=
  d.points.map fun p => ((p.weight : ℚ), p.bands.map fun f => f.getD v 0)

/-- The data of a frequency calculation at the zone centre. -/
structure Vibrations where
  natom : ℕ
  volume : ℚ
  energy : ℚ
  freqs : List ℚ

/-- The text is a CRYSTAL output of a frequency calculation at the zone centre with these data: three frequencies per atom,
printed with at most ten decimals (CRYSTAL prints four). -/
def GammaOutput (text : Str) (o : Vibrations) : Prop :=
  ∃ ls atoms M k modes, IsText ls text ∧ GammaCell ls atoms M o.energy ∧ o.energy ≠ 0 ∧ M ≠ 0 ∧
    First frequencyTitle ls k ∧ ModesAt ls (k + 2) modes ∧ o.freqs = expand modes ∧ o.natom = atoms.length ∧
    o.volume = M.det ∧ o.freqs.length = 3 * o.natom ∧ ∀ ν ∈ o.freqs, ∃ n : ℤ, ν = n / 10 ^ 10

end Verif.Chain.Spec
