/-
What a user expects of the phase velocities in the arithmetic of the computer.
-/
import Verif.Elastic.BinarySpec
import Verif.Seismic.Spec
import Verif.Seismic.BinaryModel

noncomputable section

namespace Verif.Seismic.Rounded.Spec
open Verif.Elastic Verif.Seismic.Spec

/-- The eigenvalues of a library routine come in ascending order, and those of a symmetric matrix are off by at most `η` times its
largest entry (LAPACK documents a small multiple of the precision times the norm). -/
structure EighAccurate (η : ℝ) (eigh : M3 → V3) : Prop where
  ascending : ∀ M, Monotone (eigh M)
  close : ∀ M : M3, (∀ i j, M i j = M j i) → ∀ w, Spectrum M w → ∀ B, (∀ i j, |M i j| ≤ B) → ∀ i, |eigh M i - w i| ≤ η * B

/-- The modulus (GPa) that a wave of velocity `V` (km/s) probes in a medium of density `density` (kg/m³): `ρ V²`. -/
def waveModulus (density V : ℝ) : ℝ := density * (1000 * V) ^ 2 / 10 ^ 9

end Verif.Seismic.Rounded.Spec
