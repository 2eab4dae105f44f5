/-
Property C141: how much the sound velocities can change when the moduli and the density are known, or written, with an error.
-/
import Verif.Elastic.Sensitivity
import Verif.Seismic.Stiffer
import Verif.Seismic.Scaling
import Verif.Tac

namespace Verif.Seismic
open Verif.Py Verif.Elastic Verif.Elastic.Spec Spec

theorem seismic_of_det {C : M6} (h : C.det ≠ 0) (d : ℝ) : ∃ o, seismic C d = .ok o := by
  unfold seismic
  rw [if_neg h]
  exact ⟨_, rfl⟩

/-- C141: in every direction each of the three velocities, as both modules report it, is the one of the exact moduli and density
up to the square root of their relative errors. -/
theorem C141_waves (num : Numerics) (hn : EighCorrect num) {C C' : M6} (hs : C.IsSymm) (hs' : C'.IsSymm) {l t : ℝ}
    (ht : 0 ≤ t) (hl : 6 * t < l) (h : Resists C l) (hc : Close C C' t) {density density' : ℝ} (hd : 0 < density)
    (hd' : 0 < density') :
    ∃ s s' o o', soec C density = .ok s ∧ soec C' density' = .ok s' ∧ seismic C density = .ok o ∧
      seismic C' density' = .ok o' ∧ ∀ theta phi st st',
        (∀ i, √((1 - 6 * t / l) / (density' / density)) * Soec.phaseVelocity num s theta phi i ≤
            Soec.phaseVelocity num s' theta phi i ∧
          Soec.phaseVelocity num s' theta phi i ≤
            √((1 + 6 * t / l) / (density' / density)) * Soec.phaseVelocity num s theta phi i) ∧
        ∃ V V', (step num o (.read .phaseVelocity) (step num o (.spherical theta phi) st).2).1 = .ok (.vec V) ∧
          (step num o' (.read .phaseVelocity) (step num o' (.spherical theta phi) st').2).1 = .ok (.vec V') ∧
          ∀ i, √((1 - 6 * t / l) / (density' / density)) * V i ≤ V' i ∧
            V' i ≤ √((1 + 6 * t / l) / (density' / density)) * V i := by
  obtain ⟨p, p', r, a, b⟩ := close_crystals hs hs' ht hl h hc
  have r' : 0 < 1 + 6 * t / l := by
    have : 0 ≤ 6 * t / l := div_nonneg (by linarith) (by linarith)
    linarith
  have hm : 0 < density' / density := by positivity
  have em : density' / density * density = density' := by field_simp
  obtain ⟨s, e⟩ := soec_of_det (posDef_det p) density
  obtain ⟨s', e'⟩ := soec_of_det (posDef_det p') density'
  obtain ⟨o, w⟩ := seismic_of_det (posDef_det p) density
  obtain ⟨o', w'⟩ := seismic_of_det (posDef_det p') density'
  refine ⟨s, s', o, o', e, e', w, w', fun theta phi st st' => ?_⟩
  have sym : ∀ i j, C i j = C j i := fun i j => hs.apply j i
  obtain ⟨s1, e1⟩ := ((C122_directional (m := density' / density) r C density).1).1 ⟨s, e⟩
  obtain ⟨s2, e2⟩ := ((C122_directional (m := density' / density) r' C density).1).1 ⟨s, e⟩
  have v1 := C122_elastic num hn r hm sym e e1 theta phi
  have v2 := C122_elastic num hn r' hm sym e e2 theta phi
  rw [em] at e1 e2
  obtain ⟨o1, w1⟩ := seismic_of_det (posDef_det (posDef_smul r p)) density'
  obtain ⟨o2, w2⟩ := seismic_of_det (posDef_det (posDef_smul r' p)) density'
  have k1 := (C129_waves num hn (posDef_smul r p) p' a hd' le_rfl e1 e' w1 w' theta phi st st').1
  have k2 := (C129_waves num hn p' (posDef_smul r' p) b hd' le_rfl e' e2 w' w2 theta phi st' st).1
  have key : ∀ i, √((1 - 6 * t / l) / (density' / density)) * Soec.phaseVelocity num s theta phi i ≤
        Soec.phaseVelocity num s' theta phi i ∧
      Soec.phaseVelocity num s' theta phi i ≤
        √((1 + 6 * t / l) / (density' / density)) * Soec.phaseVelocity num s theta phi i := by
    intro i
    rw [← v1 i, ← v2 i]
    exact ⟨k1 i, k2 i⟩
  obtain ⟨-, -, q⟩ := C37_velocities num hn C p density hd s e o w theta phi
  obtain ⟨-, -, q'⟩ := C37_velocities num hn C' p' density' hd' s' e' o' w' theta phi
  exact ⟨key, _, _, q st, q' st', key⟩

/-! ### A crystal that meets the hypotheses -/

/-- An isotropic solid resists every strain with at least the smaller of `3 K` and `G`. -/
theorem resists_isotropic {K G l : ℝ} (h1 : l ≤ 3 * K) (h2 : l ≤ G) (hG : 0 ≤ G) : Resists (isotropic K G) l := by
  intro ε σ h
  have w := work h
  have q : ∀ e, quad (isotropic K G) e e = K * (e 0 + e 1 + e 2) ^ 2 +
      G * (2 / 3 * ((e 0 - e 1) ^ 2 + (e 0 - e 2) ^ 2 + (e 1 - e 2) ^ 2) + e 3 ^ 2 + e 4 ^ 2 + e 5 ^ 2) := by
    intro e
    simp only [quad, isotropic, Matrix.of_apply, Fin.sum_univ_six, Matrix.cons_val]
    ring
  have : 2 * energy ε σ = quad (isotropic K G) (voigtStrain ε) (voigtStrain ε) := by
    unfold energy
    rw [w]
    ring
  rw [this, q]
  set e := voigtStrain ε
  rw [Fin.sum_univ_six]
  have a1 := mul_le_mul_of_nonneg_right h1 (show 0 ≤ (e 0 + e 1 + e 2) ^ 2 / 3 by positivity)
  have a2 := mul_le_mul_of_nonneg_right h2
    (show 0 ≤ ((e 0 - e 1) ^ 2 + (e 0 - e 2) ^ 2 + (e 1 - e 2) ^ 2) / 3 + e 3 ^ 2 + e 4 ^ 2 + e 5 ^ 2 by positivity)
  have a3 := mul_nonneg hG (show 0 ≤ ((e 0 - e 1) ^ 2 + (e 0 - e 2) ^ 2 + (e 1 - e 2) ^ 2) / 3 by positivity)
  nlinarith

theorem isotropic_symm (K G : ℝ) : (isotropic K G).IsSymm := by
  ext i j
  fin_cases i <;> fin_cases j <;> rfl

/-- Moduli written with four decimals: bulk modulus 160.00003 and shear modulus 130.00003 GPa. -/
theorem close_isotropic : Close (isotropic (160 + 3 / 100000) (130 + 3 / 100000)) (isotropic 160 130) (1 / 5000) := by
  intro i j
  fin_cases i <;> fin_cases j <;> simp only [isotropic, Matrix.of_apply, Matrix.cons_val, Fin.zero_eta, Fin.mk_one,
    Fin.reduceFinMk] <;> norm_num [abs_le]

example := C141_directional (isotropic_symm _ _) (isotropic_symm _ _) (by norm_num) (by norm_num)
  (resists_isotropic (K := 160 + 3 / 100000) (G := 130 + 3 / 100000) (l := 130) (by norm_num) (by norm_num) (by norm_num))
  close_isotropic (density := 3580) (density' := 3581)

example (num : Numerics) (hn : EighCorrect num) := C141_waves num hn (isotropic_symm _ _) (isotropic_symm _ _) (by norm_num)
  (by norm_num)
  (resists_isotropic (K := 160 + 3 / 100000) (G := 130 + 3 / 100000) (l := 130) (by norm_num) (by norm_num) (by norm_num))
  close_isotropic (density := 3580) (density' := 3581) (by norm_num) (by norm_num)

/-- The other two theorems apply to the same crystal: the hypotheses hold together. -/
example : ∃ s s', soec (isotropic (160 + 3 / 100000) (130 + 3 / 100000)) 3580 = .ok s ∧ soec (isotropic 160 130) 3581 = .ok s' ∧
    Within (6 * (1 / 5000) / 130) s.averages.hill.K s'.averages.hill.K ∧
    |s'.linearCompressibility (1, 2) - s.linearCompressibility (1, 2)| ≤
      6 * (1 / 5000) / 130 / (1 - 6 * (1 / 5000) / 130) * (1000 / √(s.youngModulus (1, 2) * s.averages.reuss.K)) := by
  have hr := resists_isotropic (K := 160 + 3 / 100000) (G := 130 + 3 / 100000) (l := 130) (by norm_num) (by norm_num)
    (by norm_num)
  obtain ⟨-, s, s', e, e', -⟩ := C141_directional (isotropic_symm _ _) (isotropic_symm _ _) (by norm_num) (by norm_num) hr
    close_isotropic (density := 3580) (density' := 3581)
  exact ⟨s, s', e, e', ((C141_averages (isotropic_symm _ _) (isotropic_symm _ _) (by norm_num) (by norm_num) hr close_isotropic
    (by norm_num) (by norm_num) e e').1 _ (.inr (.inr rfl))).1, (C141_ratios (isotropic_symm _ _) (isotropic_symm _ _)
    (by norm_num) (by norm_num) hr close_isotropic rfl rfl e e' 1 2 3).1⟩

end Verif.Seismic
