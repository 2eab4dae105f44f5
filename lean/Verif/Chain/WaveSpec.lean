/-
Specification of what a user reads in an exported table of seismic waves.
-/
import Verif.Export.SeismicSpec
import Verif.Seismic.MotionSpec
import Verif.Seismic.Scan
import Verif.Chain.SectionSpec

noncomputable section

namespace Verif.Chain.Spec
open Verif.Py Verif.IO.Spec Verif.Elastic Verif.Elastic.Spec Verif.Seismic Verif.Seismic.Spec Verif.Export.Spec

/-- Hill's bulk modulus: the mean of Voigt's and Reuss's. -/
def hillBulk (C : M6) : ℝ :=
  ((C 0 0 + C 1 1 + C 2 2 + 2 * (C 0 1 + C 0 2 + C 1 2)) / 9 +
    1 / (C⁻¹ 0 0 + C⁻¹ 1 1 + C⁻¹ 2 2 + 2 * (C⁻¹ 0 1 + C⁻¹ 0 2 + C⁻¹ 1 2))) / 2

/-- Hill's shear modulus: the mean of Voigt's and Reuss's. -/
def hillShear (C : M6) : ℝ :=
  ((C 0 0 + C 1 1 + C 2 2 - (C 0 1 + C 0 2 + C 1 2) + 3 * (C 3 3 + C 4 4 + C 5 5)) / 15 +
    15 / (4 * (C⁻¹ 0 0 + C⁻¹ 1 1 + C⁻¹ 2 2) - 4 * (C⁻¹ 0 1 + C⁻¹ 0 2 + C⁻¹ 1 2) +
      3 * (C⁻¹ 3 3 + C⁻¹ 4 4 + C⁻¹ 5 5))) / 2

/-- The place of a wave when the waves are sorted by their speed. -/
def rank : Wave → Fin 3
  | .slow => 0
  | .fast => 1
  | .primary => 2

/-- The speed (km/s) of the wave in the polycrystal: `√(G/ρ)` for the two secondary waves, `√((K + 4G/3)/ρ)` for the primary. -/
def polycrystalSpeed (C : M6) (rho : ℝ) : Wave → ℝ
  | .primary => Real.sqrt (10 ^ 9 * (hillBulk C + 4 * hillShear C / 3) / rho) / 1000
  | _ => Real.sqrt (10 ^ 9 * hillShear C / rho) / 1000

/-- The numbers of a row describe a wave of the crystal along a direction: the angles of the direction, the phase velocity of this
wave and its deviation from the polycrystal in per cent, the polarisation, the modulus of the group velocity, its deviation, its
components, and the angle in degrees between the two velocities.  The plane waves of this velocity and polarisation obey the
equation of motion, and their energy travels with the group velocity.  (The fourteenth number is left out.) -/
def DescribesWave (C : M6) (rho : ℝ) (w : Wave) (theta phi : ℝ) (row : Fin 14 → ℝ) : Prop :=
  let n : V3 := vector theta phi
  let c : T4 := fun i j k l => 10 ^ 9 * cTensor C i j k l
  let e : V3 := ![row 4, row 5, row 6]
  let g : V3 := ![row 9, row 10, row 11]
  row 0 = theta ∧ row 1 = phi ∧
  (∃ V, PhaseVelocities C rho n V ∧ row 2 = V (rank w)) ∧ 0 < row 2 ∧
  row 3 = 100 * (row 2 - polycrystalSpeed C rho w) / polycrystalSpeed C rho w ∧
  UnitVector e ∧
  (∀ k, ObeysMotion c rho (planeWave e n k (1000 * row 2)) ∧
    ∀ x t j, energyFlux c (planeWave e n k (1000 * row 2)) x t j =
      energyDensity c rho (planeWave e n k (1000 * row 2)) x t * (1000 * g j)) ∧
  row 7 = Real.sqrt (dot g g) ∧
  row 8 = 100 * (row 7 - polycrystalSpeed C rho w) / polycrystalSpeed C rho w ∧
  |Real.cos (row 12 * Real.pi / 180) - row 2 / row 7| ≤ 1 / (2 * 10 ^ 10) ∧ 0 ≤ row 12 ∧ row 12 ≤ 180

/-- The result file holds the three tables, as numbers of the computer with the relative error `ε`. -/
def HoldsWaves (ε : ℝ) (t : Tables) (slow fast primary : List (List ℚ)) : Prop :=
  ∀ w, Held ε ((t.get (rank w)).map List.ofFn) (tableFor slow fast primary w)

/-- The text, a table of the wave `w` with `m` lines below the explanation of the columns, shows the numbers `vs` in the line with
the number `r`. -/
def ShowsWave (text : Str) (w : Wave) (m r : ℕ) (vs : List ℚ) : Prop :=
  ∃ lines l, (∀ l ∈ lines, '\n' ∉ l) ∧ text = (waveIntro w ++ lines).flatMap (· ++ ['\n']) ∧ lines.length = m ∧
    lines[r]? = some l ∧ Numbers vs l

/-- The exported table of a wave is right for the crystal: it has a line for each direction of the grid, and this shows the numbers
that describe the wave along this direction, within the relative error `ε` of the saved numbers and half a unit of the decimals
printed. -/
def ExportsWaves (ε : ℝ) (C : M6) (rho : ℝ) (w : Wave) (ntheta nphi : ℕ) (text : Str) : Prop :=
  ∀ i < ntheta, ∀ j < nphi, ∃ (row : Fin 14 → ℝ) (vs : Fin 14 → ℚ),
    DescribesWave C rho w (gridTheta ntheta i) (gridPhi nphi j) row ∧
    ShowsWave text w (ntheta * nphi) (i * nphi + j) (List.ofFn vs) ∧
    ∀ (c : Fin 14) (d : ℕ), waveDecimals[(c : ℕ)]? = some d → |(vs c : ℝ) - row c| ≤ 1 / (2 * 10 ^ d) + ε * |row c|

end Verif.Chain.Spec
