/- Concrete cases for the waves of C175 and for C176. -/
import Verif.Seismic.BinaryCases
import Verif.Seismic.BinaryScan

noncomputable section

namespace Verif.Seismic.Rounded
open Verif.Elastic Verif.Elastic.Rounded Verif.Elastic.Rounded.Spec Verif.Seismic.Spec Verif.Seismic.Rounded.Spec
open Verif.Elastic.Spec (isotropic)
open Verif.Grid.Binary (sectionAngles scanTheta scanPhi)

theorem shear_waves (theta phi : ℝ) : ∃ W, PhaseVelocities (isotropic 160 80) 8000 (Elastic.vector theta phi) ![√10, √10, W] := by
  have e : √(10 ^ 9 * 80 / 8000) / 1000 = √10 := by
    rw [show (10 ^ 9 * 80 / 8000 : ℝ) = 1000 ^ 2 * 10 by norm_num, Real.sqrt_mul (by norm_num), Real.sqrt_sq (by norm_num)]
    ring
  have hV := isotropic_velocities (K := 160) (G := 80) (density := 8000) (by norm_num) (by norm_num) (by norm_num) theta phi
  rw [e] at hV
  exact ⟨_, hV⟩

theorem moduli_le (i j : Fin 6) : |isotropic 160 80 i j| ≤ 270 := by
  fin_cases i <;> fin_cases j <;> norm_num [isotropic, abs_le]

theorem probe_le : (270 : ℝ) ≤ 4 * waveModulus 8000 (√10) := by
  rw [waveModulus, mul_pow, Real.sq_sqrt (by norm_num)]
  norm_num

theorem scan_error : ((1400 * u + 5 * 1e-15) * 4 + 3 * u) * √10 ≤ 1e-11 := by
  have h10 : √10 ≤ 4 := Real.sqrt_le_iff.2 ⟨by norm_num, by norm_num⟩
  refine (mul_le_mul_of_nonneg_left h10 (by norm_num [u])).trans ?_
  norm_num [u]

/-- Every row of every section of the isotropic solid holds √10 km/s for the slower shear wave, to eleven decimals. -/
example {eigh : M3 → V3} (he : EighAccurate 1e-15 eigh) (k : Polar.Plane) (i : ℕ) (hi : i < 360) :
    ∃ t, (sectionAngles 360)[i]? = some t ∧
      ∀ v, ElasticVelocities computer eigh (isotropic 160 80) 8000 (Polar.angles64 k t).1 (Polar.angles64 k t).2 v →
        |v 0 - √10| ≤ 1e-11 := by
  obtain ⟨x, y, e⟩ : ∃ x y, Polar.Spec.direction k (Polar.radians (Polar.Spec.angle 360 i)) = Elastic.vector x y := by
    cases k
    · exact ⟨Real.pi / 2, Polar.radians (Polar.Spec.angle 360 i), by simp [Polar.Spec.direction, Elastic.vector]⟩
    · exact ⟨Polar.radians (Polar.Spec.angle 360 i), 0, by simp [Polar.Spec.direction, Elastic.vector]⟩
    · exact ⟨Polar.radians (Polar.Spec.angle 360 i), Real.pi / 2, by simp [Polar.Spec.direction, Elastic.vector]⟩
  obtain ⟨W, hV⟩ := shear_waves x y
  obtain ⟨t, ht, h⟩ := C175_waves C154_computer 1e-15 (by norm_num) eigh he (isotropic 160 80)
    (posDef_entries (isotropic_posDef (K := 160) (G := 80) (by norm_num) (by norm_num))) 8000 (by norm_num) 360 (by decide) (by decide)
    k i hi _ (e ▸ hV) 270 moduli_le 0 (by simp) 4 probe_le (by norm_num [u])
  exact ⟨t, ht, fun v hv => (h v hv).trans scan_error⟩

/-- The same at every node of a scan, and some velocities are returned there. -/
example (a b : ℕ) (ha : a < 90) (hb : b < 180) : ∃ v,
    SeismicVelocities computer exactEigh (isotropic 160 80) 8000 (scanTheta 90 a) (scanPhi 180 b) v ∧ |v 0 - √10| ≤ 1e-11 := by
  obtain ⟨v, hv⟩ := seismic_exists computer exactEigh (isotropic 160 80) 8000 (scanTheta 90 a) (scanPhi 180 b)
  obtain ⟨W, hV⟩ := shear_waves (Real.pi * a / (2 * (((90 : ℕ) : ℝ) - 1))) (2 * Real.pi * b / (((180 : ℕ) : ℝ) - 1))
  exact ⟨v, hv, (C176_scan C154_computer 1e-15 (by norm_num) exactEigh (exactEigh_accurate (by norm_num)) (isotropic 160 80)
    (posDef_entries (isotropic_posDef (K := 160) (G := 80) (by norm_num) (by norm_num))) 8000 (by norm_num) 90 180 (by decide)
    (by decide) (by decide) (by decide) a b ha hb _ hV 270 moduli_le 0 (by simp) 4 probe_le (by norm_num [u]) v hv).trans
    scan_error⟩

end Verif.Seismic.Rounded
