/-
Property C129: a crystal that resists every strain at least as much has larger elastic moduli in every direction and on average.
-/
import Verif.Elastic.Relations
import Verif.Elastic.Props
import Verif.Tac

namespace Verif.Elastic
open Verif.Py Spec

/-- The elastic energy per unit volume of a strain and its stress. -/
noncomputable def Spec.energy (ε σ : T2) : ℝ := (∑ i, ∑ j, σ i j * ε i j) / 2

/-- Every strain costs at least as much elastic energy in the second crystal as in the first. -/
def Spec.Stiffer (C C' : M6) : Prop := ∀ ε σ σ', Hooke C ε σ → Hooke C' ε σ' → energy ε σ ≤ energy ε σ'

/-- The strain with given Voigt components. -/
noncomputable def unvoigtStrain (e : Fin 6 → ℝ) : T2 := fun i j =>
  ![![e 0, e 5 / 2, e 4 / 2], ![e 5 / 2, e 1, e 3 / 2], ![e 4 / 2, e 3 / 2, e 2]] i j

/-- The stress with given Voigt components. -/
noncomputable def unvoigtStress (e : Fin 6 → ℝ) : T2 := fun i j =>
  ![![e 0, e 5, e 4], ![e 5, e 1, e 3], ![e 4, e 3, e 2]] i j

theorem voigt_unvoigtStrain (e : Fin 6 → ℝ) : voigtStrain (unvoigtStrain e) = e := by
  funext I
  fin_cases I <;> simp [voigtStrain, unvoigtStrain] <;> ring

theorem voigt_unvoigtStress (e : Fin 6 → ℝ) : voigtStress (unvoigtStress e) = e := by
  funext I
  fin_cases I <;> simp [voigtStress, unvoigtStress]

theorem hooke_unvoigt (C : M6) (e : Fin 6 → ℝ) :
    Hooke C (unvoigtStrain e) (unvoigtStress fun I => ∑ J, C I J * e J) := by
  refine ⟨fun i j => ?_, fun i j => ?_, fun I => ?_⟩
  · fin_cases i <;> fin_cases j <;> simp [unvoigtStrain]
  · fin_cases i <;> fin_cases j <;> simp [unvoigtStress]
  · rw [voigt_unvoigtStrain, voigt_unvoigtStress]

theorem stiffer_quad {C C' : M6} (h : Stiffer C C') (e : Fin 6 → ℝ) : quad C e e ≤ quad C' e e := by
  have h1 := hooke_unvoigt C e
  have h2 := hooke_unvoigt C' e
  have := h _ _ _ h1 h2
  have w1 := work h1
  have w2 := work h2
  rw [voigt_unvoigtStrain] at w1 w2
  unfold energy at this
  rw [w1, w2]
  linarith

theorem stiffer_of_quad {C C' : M6} (h : ∀ e, quad C e e ≤ quad C' e e) : Stiffer C C' := by
  intro ε σ σ' h1 h2
  have := h (voigtStrain ε)
  rw [work h1, work h2] at this
  unfold energy
  linarith

/-- The compliances are ordered the other way. -/
theorem stiffer_inv {C C' : M6} (hC : C.PosDef) (hC' : C'.PosDef) (h : Stiffer C C') (s : Fin 6 → ℝ) :
    quad C'⁻¹ s s ≤ quad C⁻¹ s s := by
  have h1 := young_ineq hC (C'⁻¹.mulVec s) s 1
  have h2 := stiffer_quad h (C'⁻¹.mulVec s)
  have hu : IsUnit C'.det := (Matrix.isUnit_iff_isUnit_det _).1 hC'.isUnit
  have h3 : quad C' (C'⁻¹.mulVec s) (C'⁻¹.mulVec s) = quad C'⁻¹ s s := by
    rw [quad_eq, quad_eq, Matrix.mulVec_mulVec, Matrix.mul_nonsing_inv _ hu, Matrix.one_mulVec, dotProduct_comm]
  have h4 : (C'⁻¹.mulVec s) ⬝ᵥ s = quad C'⁻¹ s s := by rw [quad_eq, dotProduct_comm]
  rw [h4] at h1
  rw [h3] at h2
  linarith

/-- C129: Young's modulus and the shear modulus of the stiffer crystal are at least as large in every direction. -/
theorem C129_directional {C C' : M6} (hC : C.PosDef) (hC' : C'.PosDef) (h : Stiffer C C') {density density' : ℝ}
    {s s' : Soec} (hs : soec C density = .ok s) (hs' : soec C' density' = .ok s') (theta phi chi : ℝ) :
    s.youngModulus (theta, phi) ≤ s'.youngModulus (theta, phi) ∧
    s.shearModulus (theta, phi, chi) ≤ s'.shearModulus (theta, phi, chi) := by
  obtain ⟨-, rfl⟩ := soec_ok hs
  obtain ⟨-, rfl⟩ := soec_ok hs'
  have key : ∀ a b : V3, contract4 (sTensor C'⁻¹) a b a b ≤ contract4 (sTensor C⁻¹) a b a b := by
    intro a b
    rw [contract4_voigt, contract4_voigt]
    exact stiffer_inv hC hC' h (dyad a b)
  constructor
  · show youngAlong (sTensor C⁻¹) (vector theta phi) ≤ youngAlong (sTensor C'⁻¹) (vector theta phi)
    unfold youngAlong
    exact one_div_le_one_div_of_le (young_denominator_pos hC' (vector_unit theta phi)) (key _ _)
  · show shearAlong (sTensor C⁻¹) (vector theta phi) (vectorChi theta phi chi) ≤
      shearAlong (sTensor C'⁻¹) (vector theta phi) (vectorChi theta phi chi)
    rw [shearAlong_eq, shearAlong_eq]
    have h0 := shear_denominator_pos hC' ⟨vector_unit theta phi, vectorChi_unit theta phi chi, vector_orthogonal theta phi chi⟩
    refine one_div_le_one_div_of_le (by linarith) ?_
    have := key (vector theta phi) (vectorChi theta phi chi)
    linarith

theorem young_mono {K G K' G' : ℝ} (hK : 0 < K) (hG : 0 < G) (h1 : K ≤ K') (h2 : G ≤ G') :
    (averageRow K G).E ≤ (averageRow K' G').E := by
  simp only [averageRow]
  have hK' := hK.trans_le h1
  have hG' := hG.trans_le h2
  refine one_div_le_one_div_of_le (by positivity) (add_le_add ?_ ?_)
  · exact one_div_le_one_div_of_le (by linarith) (by linarith)
  · exact one_div_le_one_div_of_le (by linarith) (by linarith)

/-- The bulk, shear and Young's moduli of one averaging scheme are at most those of another. -/
def Spec.Softer (a b : Average) : Prop := a.K ≤ b.K ∧ a.G ≤ b.G ∧ a.E ≤ b.E

/-- C129: the Voigt, Reuss and Hill averages of the stiffer crystal are at least as large. -/
theorem C129_averages {C C' : M6} (hC : C.PosDef) (hC' : C'.PosDef) (h : Stiffer C C') {density density' : ℝ}
    {s s' : Soec} (hs : soec C density = .ok s) (hs' : soec C' density' = .ok s') :
    Softer s.averages.voigt s'.averages.voigt ∧ Softer s.averages.reuss s'.averages.reuss ∧
    Softer s.averages.hill s'.averages.hill ∧
    (0 < density' → density' ≤ density → ∀ i, s.isotropicVelocities i ≤ s'.isotropicVelocities i) := by
  obtain ⟨k1, k2, k3, g1, g2, g3⟩ := C36_ordered C hC density s hs
  obtain ⟨-, rfl⟩ := soec_ok hs
  obtain ⟨-, rfl⟩ := soec_ok hs'
  have q := stiffer_quad h
  have q' := stiffer_inv hC hC' h
  have kv : einsum_iijj (cTensor C) / 9 ≤ einsum_iijj (cTensor C') / 9 := by
    rw [einsum_c, einsum_c]
    linarith [q ![1, 1, 1, 0, 0, 0]]
  have kr : 1 / einsum_iijj (sTensor C⁻¹) ≤ 1 / einsum_iijj (sTensor C'⁻¹) := by
    refine one_div_le_one_div_of_le (KRinv_pos hC') ?_
    rw [einsum_s, einsum_s]
    exact q' _
  have gv : voigtG C ≤ voigtG C' := by
    have e := voigtG_quad (posDef_symm hC)
    have e' := voigtG_quad (posDef_symm hC')
    have a1 := q ![1, -1, 0, 0, 0, 0]
    have a2 := q ![1, 0, -1, 0, 0, 0]
    have a3 := q ![0, 1, -1, 0, 0, 0]
    have a4 := q ![0, 0, 0, 1, 0, 0]
    have a5 := q ![0, 0, 0, 0, 1, 0]
    have a6 := q ![0, 0, 0, 0, 0, 1]
    linarith
  have gr : reussG C⁻¹ ≤ reussG C'⁻¹ := by
    unfold reussG
    refine div_le_div_of_nonneg_left (by norm_num) (GRinv_pos hC') ?_
    have e := reussG_quad (posDef_symm hC.inv)
    have e' := reussG_quad (posDef_symm hC'.inv)
    have a1 := q' ![1, -1, 0, 0, 0, 0]
    have a2 := q' ![1, 0, -1, 0, 0, 0]
    have a3 := q' ![0, 1, -1, 0, 0, 0]
    have a4 := q' ![0, 0, 0, 1, 0, 0]
    have a5 := q' ![0, 0, 0, 0, 1, 0]
    have a6 := q' ![0, 0, 0, 0, 0, 1]
    linarith
  have e5 : (0.5 : ℝ) = 1 / 2 := by norm_num
  have kh : (0.5 : ℝ) * (einsum_iijj (cTensor C) / 9 + 1 / einsum_iijj (sTensor C⁻¹)) ≤
      0.5 * (einsum_iijj (cTensor C') / 9 + 1 / einsum_iijj (sTensor C'⁻¹)) := by
    rw [e5]
    linarith
  have gh : (0.5 : ℝ) * (voigtG C + reussG C⁻¹) ≤ 0.5 * (voigtG C' + reussG C'⁻¹) := by
    rw [e5]
    linarith
  refine ⟨⟨kv, gv, young_mono (k1.trans_le (k2.trans k3)) (g1.trans_le (g2.trans g3)) kv gv⟩,
    ⟨kr, gr, young_mono k1 g1 kr gr⟩, ⟨kh, gh, young_mono (k1.trans_le k2) (g1.trans_le g2) kh gh⟩, ?_⟩
  intro hd' hd i
  have hK := k1.trans_le k2
  have hG := g1.trans_le g2
  have hP : Real.sqrt (1000 * (0.5 * (einsum_iijj (cTensor C) / 9 + 1 / einsum_iijj (sTensor C⁻¹)) +
        4 * (0.5 * (voigtG C + reussG C⁻¹)) / 3) / density) ≤
      Real.sqrt (1000 * (0.5 * (einsum_iijj (cTensor C') / 9 + 1 / einsum_iijj (sTensor C'⁻¹)) +
        4 * (0.5 * (voigtG C' + reussG C'⁻¹)) / 3) / density') := by
    refine Real.sqrt_le_sqrt (div_le_div₀ ?_ ?_ hd' hd)
    · have hK2 : 0 < 0.5 * (einsum_iijj (cTensor C) / 9 + 1 / einsum_iijj (sTensor C⁻¹)) := hK
      have hG2 : 0 < 0.5 * (voigtG C + reussG C⁻¹) := hG
      linarith
    · linarith
  have hS : Real.sqrt (1000 * (0.5 * (voigtG C + reussG C⁻¹)) / density) ≤
      Real.sqrt (1000 * (0.5 * (voigtG C' + reussG C'⁻¹)) / density') := by
    refine Real.sqrt_le_sqrt (div_le_div₀ ?_ ?_ hd' hd)
    · have hG2 : 0 < 0.5 * (voigtG C + reussG C⁻¹) := hG
      linarith
    · linarith
  fin_cases i
  · exact hS
  · exact hS
  · exact hP

/-- Witness: an isotropic solid of larger moduli is stiffer. -/
theorem stiffer_isotropic {K G K' G' : ℝ} (hK : K ≤ K') (hG : G ≤ G') : Stiffer (isotropic K G) (isotropic K' G') := by
  refine stiffer_of_quad fun e => ?_
  have q : ∀ K G, quad (isotropic K G) e e = K * (e 0 + e 1 + e 2) ^ 2 +
      G * (2 / 3 * ((e 0 - e 1) ^ 2 + (e 0 - e 2) ^ 2 + (e 1 - e 2) ^ 2) + e 3 ^ 2 + e 4 ^ 2 + e 5 ^ 2) := by
    intro K G
    simp only [quad, isotropic, Matrix.of_apply, Fin.sum_univ_six, Matrix.cons_val]
    ring
  rw [q, q]
  have h1 := mul_le_mul_of_nonneg_right hK (sq_nonneg (e 0 + e 1 + e 2))
  have h2 := mul_le_mul_of_nonneg_right hG
    (show 0 ≤ 2 / 3 * ((e 0 - e 1) ^ 2 + (e 0 - e 2) ^ 2 + (e 1 - e 2) ^ 2) + e 3 ^ 2 + e 4 ^ 2 + e 5 ^ 2 by positivity)
  linarith

/-- The hypotheses of C129 are met by two isotropic solids, and the second is not stiffer than the first when its moduli are
smaller. -/
example : Stiffer (isotropic 100 50) (isotropic 120 60) ∧ (isotropic 100 50).PosDef ∧ (isotropic 120 60).PosDef ∧
    ¬ Stiffer (isotropic 120 60) (isotropic 100 50) := by
  refine ⟨stiffer_isotropic (by norm_num) (by norm_num), isotropic_posDef (by norm_num) (by norm_num),
    isotropic_posDef (by norm_num) (by norm_num), fun h => ?_⟩
  have := stiffer_quad h ![1, 1, 1, 0, 0, 0]
  simp only [quad, isotropic, Matrix.of_apply, Fin.sum_univ_six, Matrix.cons_val] at this
  norm_num at this

end Verif.Elastic
