/- Helper lemmas: Voigt, Reuss and Hill averages. -/
import Verif.Elastic.Ortho

namespace Verif.Elastic
open Verif.Py Spec

/-- Quadratic form of a Voigt matrix. -/
def quad (C : M6) (u v : Fin 6 → ℝ) : ℝ := ∑ I, ∑ J, u I * C I J * v J

theorem quad_eq (C : M6) (u v : Fin 6 → ℝ) : quad C u v = u ⬝ᵥ C.mulVec v := by
  simp [quad, dotProduct, Matrix.mulVec, Finset.mul_sum, mul_assoc]

/-- `t² e·Ce − 2 t e·s + s·C⁻¹s ≥ 0`. -/
theorem young_ineq {C : M6} (hC : C.PosDef) (e s : Fin 6 → ℝ) (t : ℝ) :
    0 ≤ t ^ 2 * quad C e e - 2 * t * (e ⬝ᵥ s) + quad C⁻¹ s s := by
  have hu : IsUnit C.det := (Matrix.isUnit_iff_isUnit_det C).1 hC.isUnit
  have hsy : C.transpose = C := by
    have := hC.1
    rw [Matrix.IsHermitian, Matrix.conjTranspose_eq_transpose_of_trivial] at this
    exact this
  have h := hC.posSemidef.dotProduct_mulVec_nonneg (t • e - (C⁻¹).mulVec s)
  have h1 : C.mulVec ((C⁻¹).mulVec s) = s := by
    rw [Matrix.mulVec_mulVec, Matrix.mul_nonsing_inv C hu, Matrix.one_mulVec]
  have h2 : ((C⁻¹).mulVec s) ⬝ᵥ C.mulVec e = s ⬝ᵥ e := by
    rw [Matrix.dotProduct_mulVec, ← Matrix.mulVec_transpose, hsy, h1]
  have h3 : ((C⁻¹).mulVec s) ⬝ᵥ s = s ⬝ᵥ (C⁻¹).mulVec s := dotProduct_comm _ _
  rw [star_trivial, Matrix.mulVec_sub, h1, Matrix.mulVec_smul] at h
  simp only [sub_dotProduct, dotProduct_sub, smul_dotProduct, dotProduct_smul, smul_eq_mul] at h
  rw [h2, h3, dotProduct_comm s e] at h
  rw [quad_eq, quad_eq]
  linarith [h]

/-- Sum of the upper-left block. -/
theorem einsum_c (C : M6) : einsum_iijj (cTensor C) = quad C ![1, 1, 1, 0, 0, 0] ![1, 1, 1, 0, 0, 0] := by
  simp only [einsum_iijj, cTensor, vm, quad, Fin.sum_univ_three, Fin.sum_univ_six, Matrix.cons_val]
  ring

theorem einsum_s (S : M6) : einsum_iijj (sTensor S) = quad S ![1, 1, 1, 0, 0, 0] ![1, 1, 1, 0, 0, 0] := by
  simp only [einsum_iijj, sTensor, sc, vm, quad, Fin.sum_univ_three, Fin.sum_univ_six, Matrix.cons_val]
  norm_num

theorem posDef_symm {C : M6} (hC : C.PosDef) : C.IsSymm := by
  have := hC.1
  rw [Matrix.IsHermitian, Matrix.conjTranspose_eq_transpose_of_trivial] at this
  exact this

/-- Twice the deviatoric trace: the five shear strains of a basis. -/
theorem voigtG_quad {C : M6} (hs : C.IsSymm) :
    30 * voigtG C = quad C ![1, -1, 0, 0, 0, 0] ![1, -1, 0, 0, 0, 0]
      + quad C ![1, 0, -1, 0, 0, 0] ![1, 0, -1, 0, 0, 0] + quad C ![0, 1, -1, 0, 0, 0] ![0, 1, -1, 0, 0, 0]
      + 6 * (quad C ![0, 0, 0, 1, 0, 0] ![0, 0, 0, 1, 0, 0] + quad C ![0, 0, 0, 0, 1, 0] ![0, 0, 0, 0, 1, 0]
        + quad C ![0, 0, 0, 0, 0, 1] ![0, 0, 0, 0, 0, 1]) := by
  have h1 : C 1 0 = C 0 1 := hs.apply 0 1
  have h2 : C 2 0 = C 0 2 := hs.apply 0 2
  have h3 : C 2 1 = C 1 2 := hs.apply 1 2
  simp only [voigtG, quad, Fin.sum_univ_six, Matrix.cons_val, h1, h2, h3]
  ring

theorem reussG_quad {S : M6} (hs : S.IsSymm) :
    2 * (4 * (S 0 0 + S 1 1 + S 2 2) - 4 * (S 0 1 + S 0 2 + S 1 2) + 3 * (S 3 3 + S 4 4 + S 5 5))
      = 4 * (quad S ![1, -1, 0, 0, 0, 0] ![1, -1, 0, 0, 0, 0]
      + quad S ![1, 0, -1, 0, 0, 0] ![1, 0, -1, 0, 0, 0] + quad S ![0, 1, -1, 0, 0, 0] ![0, 1, -1, 0, 0, 0])
      + 6 * (quad S ![0, 0, 0, 1, 0, 0] ![0, 0, 0, 1, 0, 0] + quad S ![0, 0, 0, 0, 1, 0] ![0, 0, 0, 0, 1, 0]
        + quad S ![0, 0, 0, 0, 0, 1] ![0, 0, 0, 0, 0, 1]) := by
  have h1 : S 1 0 = S 0 1 := hs.apply 0 1
  have h2 : S 2 0 = S 0 2 := hs.apply 0 2
  have h3 : S 2 1 = S 1 2 := hs.apply 1 2
  simp only [quad, Fin.sum_univ_six, Matrix.cons_val, h1, h2, h3]
  ring

theorem quad_posDef {C : M6} (hC : C.PosDef) {u : Fin 6 → ℝ} (hu : u ≠ 0) : 0 < quad C u u :=
  quad_pos hC hu

theorem ne0 {u : Fin 6 → ℝ} (i : Fin 6) (h : u i ≠ 0) : u ≠ 0 := fun h0 => h (by rw [h0]; rfl)

theorem KV_pos {C : M6} (hC : C.PosDef) : 0 < einsum_iijj (cTensor C) / 9 := by
  rw [einsum_c]
  have := quad_posDef hC (u := ![1, 1, 1, 0, 0, 0]) (ne0 0 (by show (1 : ℝ) ≠ 0; norm_num))
  positivity

theorem KRinv_pos {C : M6} (hC : C.PosDef) : 0 < einsum_iijj (sTensor C⁻¹) := by
  rw [einsum_s]
  exact quad_posDef hC.inv (u := ![1, 1, 1, 0, 0, 0]) (ne0 0 (by show (1 : ℝ) ≠ 0; norm_num))

theorem GV_pos {C : M6} (hC : C.PosDef) : 0 < voigtG C := by
  have h := voigtG_quad (posDef_symm hC)
  have h1 := quad_posDef hC (u := ![1, -1, 0, 0, 0, 0]) (ne0 0 (by show (1 : ℝ) ≠ 0; norm_num))
  have h2 := quad_posDef hC (u := ![1, 0, -1, 0, 0, 0]) (ne0 0 (by show (1 : ℝ) ≠ 0; norm_num))
  have h3 := quad_posDef hC (u := ![0, 1, -1, 0, 0, 0]) (ne0 1 (by show (1 : ℝ) ≠ 0; norm_num))
  have h4 := quad_posDef hC (u := ![0, 0, 0, 1, 0, 0]) (ne0 3 (by show (1 : ℝ) ≠ 0; norm_num))
  have h5 := quad_posDef hC (u := ![0, 0, 0, 0, 1, 0]) (ne0 4 (by show (1 : ℝ) ≠ 0; norm_num))
  have h6 := quad_posDef hC (u := ![0, 0, 0, 0, 0, 1]) (ne0 5 (by show (1 : ℝ) ≠ 0; norm_num))
  linarith

theorem GRinv_pos {C : M6} (hC : C.PosDef) : 0 < 4 * (C⁻¹ 0 0 + C⁻¹ 1 1 + C⁻¹ 2 2)
    - 4 * (C⁻¹ 0 1 + C⁻¹ 0 2 + C⁻¹ 1 2) + 3 * (C⁻¹ 3 3 + C⁻¹ 4 4 + C⁻¹ 5 5) := by
  have hC := hC.inv
  have h := reussG_quad (posDef_symm hC)
  have h1 := quad_posDef hC (u := ![1, -1, 0, 0, 0, 0]) (ne0 0 (by show (1 : ℝ) ≠ 0; norm_num))
  have h2 := quad_posDef hC (u := ![1, 0, -1, 0, 0, 0]) (ne0 0 (by show (1 : ℝ) ≠ 0; norm_num))
  have h3 := quad_posDef hC (u := ![0, 1, -1, 0, 0, 0]) (ne0 1 (by show (1 : ℝ) ≠ 0; norm_num))
  have h4 := quad_posDef hC (u := ![0, 0, 0, 1, 0, 0]) (ne0 3 (by show (1 : ℝ) ≠ 0; norm_num))
  have h5 := quad_posDef hC (u := ![0, 0, 0, 0, 1, 0]) (ne0 4 (by show (1 : ℝ) ≠ 0; norm_num))
  have h6 := quad_posDef hC (u := ![0, 0, 0, 0, 0, 1]) (ne0 5 (by show (1 : ℝ) ≠ 0; norm_num))
  linarith

theorem reuss_le_voigt_K {C : M6} (hC : C.PosDef) :
    1 / einsum_iijj (sTensor C⁻¹) ≤ einsum_iijj (cTensor C) / 9 := by
  have hp := KRinv_pos hC
  have hq := KV_pos hC
  rw [einsum_s] at hp ⊢
  rw [einsum_c] at hq ⊢
  set X := quad C ![1, 1, 1, 0, 0, 0] ![1, 1, 1, 0, 0, 0]
  set Y := quad C⁻¹ ![1, 1, 1, 0, 0, 0] ![1, 1, 1, 0, 0, 0]
  have hX : 0 < X := by linarith
  have h := young_ineq hC ![1, 1, 1, 0, 0, 0] ![1, 1, 1, 0, 0, 0] (3 / X)
  have hd : (![1, 1, 1, 0, 0, 0] : Fin 6 → ℝ) ⬝ᵥ ![1, 1, 1, 0, 0, 0] = 3 := by
    simp only [dotProduct, Fin.sum_univ_six, Matrix.cons_val]; norm_num
  rw [hd] at h
  have h2 : (3 / X) ^ 2 * X - 2 * (3 / X) * 3 + Y = Y - 9 / X := by field_simp; ring
  change 0 ≤ (3 / X) ^ 2 * X - 2 * (3 / X) * 3 + Y at h
  rw [h2] at h
  rw [div_le_div_iff₀ hp (by norm_num)]
  have : 9 / X ≤ Y := by linarith
  rw [div_le_iff₀ hX] at this
  linarith

/-- Weighted Cauchy inequality over the shear basis. -/
theorem reuss_le_voigt_G {C : M6} (hC : C.PosDef) : reussG C⁻¹ ≤ voigtG C := by
  have hp := GRinv_pos hC
  have hq := GV_pos hC
  have hV := voigtG_quad (posDef_symm hC)
  have hR := reussG_quad (posDef_symm hC.inv)
  unfold reussG
  set Y := 4 * (C⁻¹ 0 0 + C⁻¹ 1 1 + C⁻¹ 2 2)
    - 4 * (C⁻¹ 0 1 + C⁻¹ 0 2 + C⁻¹ 1 2) + 3 * (C⁻¹ 3 3 + C⁻¹ 4 4 + C⁻¹ 5 5) with hY
  set G := voigtG C with hG
  rw [div_le_iff₀ hp]
  -- Sum the six scalar inequalities with parameter `t`.
  have key : ∀ t : ℝ, 0 ≤ t ^ 2 * (30 * G) - 2 * t * 30 + 2 * Y := by
    intro t
    have d : ∀ u : Fin 6 → ℝ, u ⬝ᵥ u = ∑ i, u i * u i := fun u => rfl
    have h1 := young_ineq hC ![1, -1, 0, 0, 0, 0] ![2, -2, 0, 0, 0, 0] t
    have h2 := young_ineq hC ![1, 0, -1, 0, 0, 0] ![2, 0, -2, 0, 0, 0] t
    have h3 := young_ineq hC ![0, 1, -1, 0, 0, 0] ![0, 2, -2, 0, 0, 0] t
    have h4 := young_ineq hC ![0, 0, 0, 1, 0, 0] ![0, 0, 0, 1, 0, 0] t
    have h5 := young_ineq hC ![0, 0, 0, 0, 1, 0] ![0, 0, 0, 0, 1, 0] t
    have h6 := young_ineq hC ![0, 0, 0, 0, 0, 1] ![0, 0, 0, 0, 0, 1] t
    have q : ∀ (a b c : ℝ), quad C⁻¹ ![2 * a, 2 * b, 2 * c, 0, 0, 0] ![2 * a, 2 * b, 2 * c, 0, 0, 0]
        = 4 * quad C⁻¹ ![a, b, c, 0, 0, 0] ![a, b, c, 0, 0, 0] := by
      intro a b c
      simp only [quad, Fin.sum_univ_six, Matrix.cons_val]; ring
    have q1 := q 1 (-1) 0
    have q2 := q 1 0 (-1)
    have q3 := q 0 1 (-1)
    norm_num at q1 q2 q3
    rw [q1] at h1
    rw [q2] at h2
    rw [q3] at h3
    simp only [dotProduct, Fin.sum_univ_six, Matrix.cons_val] at h1 h2 h3 h4 h5 h6
    rw [hV, hR]
    linarith
  have h := key (1 / G)
  have e : (1 / G) ^ 2 * (30 * G) - 2 * (1 / G) * 30 + 2 * Y = 2 * Y - 30 / G := by
    field_simp; ring
  rw [e] at h
  have : 30 / G ≤ 2 * Y := by linarith
  rw [div_le_iff₀ hq] at this
  linarith

theorem averageRow_relations {K G : ℝ} (hK : 0 < K) (hG : 0 < G) :
    (averageRow K G).E = 9 * K * G / (3 * K + G) ∧
    (averageRow K G).nu = (3 * K - 2 * G) / (2 * (3 * K + G)) ∧
    (averageRow K G).E = 2 * G * (1 + (averageRow K G).nu) := by
  have h : 3 * K + G ≠ 0 := by positivity
  have hK' := hK.ne'
  have hG' := hG.ne'
  have hE : (averageRow K G).E = 9 * K * G / (3 * K + G) := by
    have h2 : 1 / (3 * G) + 1 / (9 * K) = (3 * K + G) / (9 * K * G) := by field_simp; ring
    simp only [averageRow, h2, one_div_div]
  have hnu : (averageRow K G).nu = (3 * K - 2 * G) / (2 * (3 * K + G)) := by
    simp only [averageRow]; field_simp; ring
  refine ⟨hE, hnu, ?_⟩
  rw [hE, hnu]
  field_simp
  ring

end Verif.Elastic
