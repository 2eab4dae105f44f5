/-
Property C119, waves: the fastest wave is at least as fast as sound in a thin rod.
-/
import Verif.Elastic.Relations
import Verif.Seismic.Projector
import Verif.Seismic.Waves
import Verif.Seismic.Derivative

namespace Verif.Seismic
open Verif.Py Verif.Elastic Verif.Elastic.Spec Spec

theorem along_app_shear (C : M6) (a b : V3) :
    along (app (cTensor C) (shear 1 a b)) a b = 2 * contract4 (cTensor C) a b a b := by
  have h1 := contract4_app (cTensor_minor C) a b a b
  have h2 : app (cTensor C) (shear 1 a b) = fun i j => 2 * app (cTensor C) (sym a b) i j := by
    funext i j
    simp only [app, shear, sym, Finset.mul_sum]
    refine Finset.sum_congr rfl fun k _ => Finset.sum_congr rfl fun l _ => by ring
  rw [h1, h2]
  simp only [along, Finset.mul_sum]
  refine Finset.sum_congr rfl fun k _ => Finset.sum_congr rfl fun l _ => by ring

theorem along_app_uniaxial (C : M6) (a : V3) :
    along (app (cTensor C) (uniaxial 1 a)) a a = contract4 (cTensor C) a a a a := by
  rw [contract4_app (cTensor_minor C) a a a a]
  have h2 : uniaxial 1 a = sym a a := by
    funext i j
    simp only [uniaxial, sym]
    ring
  rw [h2]

theorem contract4_flip (C : M6) (a b : V3) : contract4 (cTensor C) b a b a = contract4 (cTensor C) a b a b := by
  rw [contract4_swap_first, contract4_swap_second]

theorem acoustic_form (C : M6) (rho : ℝ) (a y : V3) :
    dot y ((acoustic (fun i j k l => 10 ^ 9 * cTensor C i j k l) rho a).mulVec y) =
      10 ^ 9 * contract4 (cTensor C) a y a y / rho := by
  rw [← contract4_flip]
  simp only [dot, acoustic, Matrix.mulVec, dotProduct, Matrix.of_apply, contract4, Finset.mul_sum, Finset.sum_mul,
    Finset.sum_div]
  refine Finset.sum_congr rfl fun i _ => ?_
  rw [Finset.sum_comm]
  refine Finset.sum_congr rfl fun k _ => Finset.sum_congr rfl fun l _ => Finset.sum_congr rfl fun m _ => by ring

/-- C119: along every direction of a stable crystal the fastest wave is at least as fast as a longitudinal wave in a thin
rod cut along that direction, whose velocity is `√(E / ρ)`, and the squares of the three velocities add up to at least
`(E + G + G') / ρ`, with the shear moduli towards two perpendicular transverse directions. -/
theorem C119_waves (num : Numerics) (hn : EighCorrect num) (C : M6) (hC : C.PosDef) (density : ℝ) (hr : 0 < density)
    (s : Soec) (hs : soec C density = .ok s) (o : Seismic) (ho : seismic C density = .ok o) (theta phi chi : ℝ) (st : State) :
    ∃ V, (step num o (.read .phaseVelocity) (step num o (.spherical theta phi) st).2).1 = .ok (.vec V) ∧
      10 ^ 9 * s.youngModulus (theta, phi) / density ≤ (1000 * V 2) ^ 2 ∧
      10 ^ 9 * (s.youngModulus (theta, phi) + s.shearModulus (theta, phi, chi) +
          s.shearModulus (theta, phi, chi + Real.pi / 2)) / density ≤
        (1000 * V 0) ^ 2 + (1000 * V 1) ^ 2 + (1000 * V 2) ^ 2 := by
  obtain ⟨⟨-, h01, h12, e, hf, he⟩, -, hread⟩ := C37_velocities num hn C hC density hr s hs o ho theta phi
  refine ⟨_, hread st, ?_, ?_⟩
  · have h1 := (spectrum_bounds ⟨h01, h12⟩ hf he (vector theta phi) (vector_unit theta phi)).2
    rw [acoustic_form] at h1
    refine le_trans ?_ h1
    have h2 := (C119_bounds C hC density s hs theta phi 0 1 one_ne_zero).1 _ (hooke_app.2 ⟨symm_uniaxial _ _, rfl⟩)
    rw [along_app_uniaxial, div_one] at h2
    gcongr
  · have ht := vectorChi_triad theta phi chi
    have hc := triad_complete ht
    set A := acoustic (fun i j k l => 10 ^ 9 * cTensor C i j k l) density (vector theta phi) with hA
    set a := vector theta phi
    set b := vectorChi theta phi chi
    set c := vectorChi theta phi (chi + Real.pi / 2)
    have htr := trace_spectrum hf he
    have h3 : dot a (A.mulVec a) + dot b (A.mulVec b) + dot c (A.mulVec c) = ∑ i, A i i := by
      calc _ = ∑ i, ∑ j, A i j * (a i * a j + b i * b j + c i * c j) := by
            simp only [dot, Matrix.mulVec, dotProduct, Finset.mul_sum, ← Finset.sum_add_distrib]
            refine Finset.sum_congr rfl fun i _ => Finset.sum_congr rfl fun j _ => by ring
        _ = _ := by simp [hc]
    have g1 := (C119_bounds C hC density s hs theta phi 0 1 one_ne_zero).1 _ (hooke_app.2 ⟨symm_uniaxial _ _, rfl⟩)
    have g2 := (C119_bounds C hC density s hs theta phi chi 1 one_ne_zero).2 _ (hooke_app.2 ⟨symm_shear _ _ _, rfl⟩)
    have g3 := (C119_bounds C hC density s hs theta phi (chi + Real.pi / 2) 1 one_ne_zero).2 _
      (hooke_app.2 ⟨symm_shear _ _ _, rfl⟩)
    rw [along_app_uniaxial, div_one] at g1
    rw [along_app_shear, mul_one, mul_div_cancel_left₀ _ two_ne_zero] at g2 g3
    have h4 : (1000 * Soec.phaseVelocity num s theta phi 0) ^ 2 + (1000 * Soec.phaseVelocity num s theta phi 1) ^ 2 +
        (1000 * Soec.phaseVelocity num s theta phi 2) ^ 2 = ∑ i, A i i := by
      rw [Fin.sum_univ_three]
      exact htr.symm
    rw [h4, ← h3, hA, acoustic_form, acoustic_form, acoustic_form, ← add_div, ← add_div, ← mul_add, ← mul_add]
    gcongr

/-- The hypotheses of `C119_waves` are met by an isotropic crystal. -/
example : ∃ num s o, EighCorrect num ∧ sampleIso.PosDef ∧ soec sampleIso 3000 = .ok s ∧ seismic sampleIso 3000 = .ok o := by
  obtain ⟨num, hn, -⟩ := exists_numerics
  have hp : sampleIso.PosDef := isotropic_posDef (by norm_num) (by norm_num)
  obtain ⟨s, hs⟩ := soec_of_det (posDef_det hp) 3000
  obtain ⟨o, ho⟩ : ∃ o, seismic sampleIso 3000 = .ok o := by
    simp only [seismic]
    rw [if_neg (posDef_det hp)]
    exact ⟨_, rfl⟩
  exact ⟨num, s, o, hn, hp, hs, ho⟩

end Verif.Seismic
