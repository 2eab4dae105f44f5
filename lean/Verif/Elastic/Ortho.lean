/- Helper lemmas: orthorhombic closed forms, isotropic matrices, averages. -/
import Verif.Elastic.Tensor

namespace Verif.Elastic
open Verif.Py Spec

/-- Orthorhombic compliance written out. -/
noncomputable def orthoMat (s : OrthoS) : M6 :=
  Matrix.of ![![s.s11, s.s12, s.s13, 0, 0, 0], ![s.s12, s.s22, s.s23, 0, 0, 0],
    ![s.s13, s.s23, s.s33, 0, 0, 0], ![0, 0, 0, s.s44, 0, 0], ![0, 0, 0, 0, s.s55, 0],
    ![0, 0, 0, 0, 0, s.s66]]

theorem orthoS_sTensor (S : M6) : orthoS (sTensor S) =
    { s11 := S 0 0, s22 := S 1 1, s33 := S 2 2, s44 := S 3 3, s55 := S 4 4, s66 := S 5 5,
      s12 := S 0 1, s13 := S 0 2, s23 := S 1 2 } := by
  simp only [orthoS, sTensor, vm, Matrix.cons_val, sc, OrthoS.mk.injEq]
  norm_num
  refine ⟨?_, ?_, ?_⟩ <;> ring

theorem ortho_form {S : M6} (h : OrthorhombicForm S) : S = orthoMat (orthoS (sTensor S)) := by
  obtain ⟨hs, hz⟩ := h
  rw [orthoS_sTensor]
  funext i j
  have z : ∀ I J : Fin 6, I ≠ J → (3 ≤ I.val ∨ 3 ≤ J.val) → S I J = 0 := hz
  fin_cases i <;> fin_cases j <;>
    simp only [orthoMat, Matrix.of_apply] <;>
    first
      | rfl
      | exact z _ _ (by decide) (by decide)
      | exact hs.apply _ _

theorem cos_sin (t : ℝ) : 1 - Real.cos t ^ 2 = Real.sin t ^ 2 := by
  linear_combination -Real.sin_sq_add_cos_sq t

theorem cos_sin' (t : ℝ) : 1 - Real.cos t * Real.cos t = Real.sin t ^ 2 := by
  linear_combination -Real.sin_sq_add_cos_sq t

theorem ortho_young {S : M6} (h : OrthorhombicForm S) (x : ℝ × ℝ) :
    orthoYoung (sTensor S) x = youngAlong (sTensor S) (vector x.1 x.2) := by
  unfold orthoYoung youngAlong
  simp only [cos_sin]
  congr 1
  rw [contract4_voigt]
  generalize ht : orthoS (sTensor S) = t at *
  rw [ortho_form h, ht]
  obtain ⟨s11, s22, s33, s44, s55, s66, s12, s13, s23⟩ := t
  simp only [orthoMat, dyad, vector, Matrix.of_apply, Fin.sum_univ_six, Matrix.cons_val]
  ring

theorem ortho_compressibility {S : M6} (h : OrthorhombicForm S) (x : ℝ × ℝ) :
    orthoCompressibility (sTensor S) x = compressibilityAlong (sTensor S) (vector x.1 x.2) := by
  unfold orthoCompressibility compressibilityAlong
  simp only [cos_sin]
  congr 1
  generalize ht : orthoS (sTensor S) = t at *
  rw [ortho_form h, ht]
  obtain ⟨s11, s22, s33, s44, s55, s66, s12, s13, s23⟩ := t
  simp only [orthoMat, vector, sTensor, sc, vm, Matrix.of_apply, Fin.sum_univ_three, Matrix.cons_val]
  norm_num
  ring

theorem ortho_shear {S : M6} (h : OrthorhombicForm S) (x : ℝ × ℝ × ℝ) :
    orthoShear (sTensor S) x =
      shearAlong (sTensor S) (vector x.1 x.2.1) (vectorChi x.1 x.2.1 x.2.2) := by
  rw [shearAlong_eq]
  unfold orthoShear
  simp only [cos_sin']
  congr 1
  rw [contract4_voigt]
  generalize ht : orthoS (sTensor S) = t at *
  rw [ortho_form h, ht]
  obtain ⟨s11, s22, s33, s44, s55, s66, s12, s13, s23⟩ := t
  simp only [orthoMat, dyad, vector, vectorChi, Matrix.of_apply, Fin.sum_univ_six, Matrix.cons_val]
  ring

theorem ortho_poisson {S : M6} (h : OrthorhombicForm S) (x : ℝ × ℝ × ℝ) :
    orthoPoisson (sTensor S) x =
      poissonAlong (sTensor S) (vector x.1 x.2.1) (vectorChi x.1 x.2.1 x.2.2) := by
  rw [poissonAlong_eq]
  unfold orthoPoisson
  simp only [cos_sin']
  rw [contract4_voigt, contract4_voigt]
  generalize ht : orthoS (sTensor S) = t at *
  rw [ortho_form h, ht]
  obtain ⟨s11, s22, s33, s44, s55, s66, s12, s13, s23⟩ := t
  simp only [orthoMat, dyad, vector, vectorChi, Matrix.of_apply, Fin.sum_univ_six, Matrix.cons_val]
  congr 1
  · ring
  · ring

/-- Sign change of the axes: an orthorhombic matrix is one that commutes with these. -/
def flip (k : Fin 2) : M6 :=
  Matrix.diagonal (![![1, 1, 1, 1, -1, -1], ![1, 1, 1, -1, 1, -1]] k)

theorem flip_sq (k : Fin 2) : flip k * flip k = 1 := by
  unfold flip
  rw [Matrix.diagonal_mul_diagonal, ← Matrix.diagonal_one]
  congr 1
  funext i
  fin_cases k <;> fin_cases i <;> norm_num

theorem flip_conj_apply (k : Fin 2) (C : M6) (i j : Fin 6) :
    (flip k * C) i j = (![![1, 1, 1, 1, -1, -1], ![1, 1, 1, -1, 1, -1]] k : Fin 6 → ℝ) i * C i j ∧
    (C * flip k) i j = C i j * (![![1, 1, 1, 1, -1, -1], ![1, 1, 1, -1, 1, -1]] k : Fin 6 → ℝ) j := by
  unfold flip
  exact ⟨Matrix.diagonal_mul _ _ _ _, Matrix.mul_diagonal _ _ _ _⟩

theorem ortho_comm {C : M6} (h : OrthorhombicForm C) (k : Fin 2) : flip k * C = C * flip k := by
  ext i j
  rw [(flip_conj_apply k C i j).1, (flip_conj_apply k C i j).2]
  by_cases hij : i = j
  · subst hij; ring
  · by_cases h3 : 3 ≤ i.val ∨ 3 ≤ j.val
    · rw [h.2 i j hij h3]; ring
    · push Not at h3
      obtain ⟨hi, hj⟩ := h3
      fin_cases k <;> fin_cases i <;> fin_cases j <;> 
        first | exact absurd hi (by decide) | exact absurd hj (by decide) | norm_num

theorem ortho_of_comm {C : M6} (hs : C.IsSymm) (h : ∀ k, flip k * C = C * flip k) :
    OrthorhombicForm C := by
  refine ⟨hs, fun i j hij h3 => ?_⟩
  have e0 := congrFun (congrFun (h 0) i) j
  have e1 := congrFun (congrFun (h 1) i) j
  rw [(flip_conj_apply 0 C i j).1, (flip_conj_apply 0 C i j).2] at e0
  rw [(flip_conj_apply 1 C i j).1, (flip_conj_apply 1 C i j).2] at e1
  fin_cases i <;> fin_cases j <;>
    first
      | (exact absurd rfl hij)
      | (exact absurd h3 (by decide))
      | (norm_num at e0 e1 ⊢; linarith)

/-- The compliance of an orthorhombic stiffness is orthorhombic. -/
theorem ortho_inv {C : M6} (h : OrthorhombicForm C) (hd : C.det ≠ 0) : OrthorhombicForm C⁻¹ := by
  have hu : IsUnit C.det := isUnit_iff_ne_zero.2 hd
  refine ortho_of_comm ?_ fun k => ?_
  · have : (C⁻¹).transpose = C⁻¹ := by rw [Matrix.transpose_nonsing_inv, h.1]
    exact this
  · have hc := ortho_comm h k
    calc flip k * C⁻¹ = C⁻¹ * (C * flip k) * C⁻¹ := by
          rw [← Matrix.mul_assoc, Matrix.nonsing_inv_mul C hu, Matrix.one_mul]
      _ = C⁻¹ * (flip k * C) * C⁻¹ := by rw [hc]
      _ = C⁻¹ * flip k := by
          rw [Matrix.mul_assoc, Matrix.mul_assoc, Matrix.mul_nonsing_inv C hu, Matrix.mul_one]

/-! ### Isotropic matrices -/

/-- Compliance of the isotropic stiffness. -/
noncomputable def isoS (K G : ℝ) : M6 :=
  Matrix.of ![![1 / (9 * K) + 1 / (3 * G), 1 / (9 * K) - 1 / (6 * G), 1 / (9 * K) - 1 / (6 * G), 0, 0, 0],
    ![1 / (9 * K) - 1 / (6 * G), 1 / (9 * K) + 1 / (3 * G), 1 / (9 * K) - 1 / (6 * G), 0, 0, 0],
    ![1 / (9 * K) - 1 / (6 * G), 1 / (9 * K) - 1 / (6 * G), 1 / (9 * K) + 1 / (3 * G), 0, 0, 0],
    ![0, 0, 0, 1 / G, 0, 0],
    ![0, 0, 0, 0, 1 / G, 0],
    ![0, 0, 0, 0, 0, 1 / G]]

theorem iso_mul {K G : ℝ} (hK : K ≠ 0) (hG : G ≠ 0) : isotropic K G * isoS K G = 1 := by
  have a1 : (K + 4 * G / 3) * (1 / (9 * K) + 1 / (3 * G))
      + 2 * ((K - 2 * G / 3) * (1 / (9 * K) - 1 / (6 * G))) = 1 := by field_simp; ring
  have a2 : (K + 4 * G / 3) * (1 / (9 * K) - 1 / (6 * G))
      + (K - 2 * G / 3) * (1 / (9 * K) + 1 / (3 * G))
      + (K - 2 * G / 3) * (1 / (9 * K) - 1 / (6 * G)) = 0 := by field_simp; ring
  have a3 : G * (1 / G) = 1 := by field_simp
  ext i j
  fin_cases i <;> fin_cases j <;>
    simp only [Matrix.mul_apply, isotropic, isoS, Matrix.of_apply, Fin.sum_univ_six] <;>
    simp only [Matrix.cons_val, Matrix.one_apply, Fin.reduceFinMk, Fin.zero_eta, Fin.mk_one, mul_zero,
      zero_mul, add_zero, zero_add, Fin.reduceEq, if_true, if_false] <;>
    first
      | rfl
      | exact a3
      | linear_combination a1
      | linear_combination a2

theorem iso_inv {K G : ℝ} (hK : K ≠ 0) (hG : G ≠ 0) : (isotropic K G)⁻¹ = isoS K G :=
  Matrix.inv_eq_right_inv (iso_mul hK hG)

theorem iso_det {K G : ℝ} (hK : K ≠ 0) (hG : G ≠ 0) : (isotropic K G).det ≠ 0 := by
  intro h
  have := congrArg Matrix.det (iso_mul hK hG)
  rw [Matrix.det_mul, h, zero_mul, Matrix.det_one] at this
  exact zero_ne_one this

theorem iso_contract (K G : ℝ) (a b c d : V3) :
    contract4 (sTensor (isoS K G)) a b c d =
      (1 / (9 * K) - 1 / (6 * G)) * (dot a b * dot c d)
        + 1 / (4 * G) * (dot a c * dot b d + dot a d * dot b c) := by
  rw [contract4_voigt]
  simp only [isoS, dyad, dot, Matrix.of_apply, Fin.sum_univ_six, Fin.sum_univ_three, Matrix.cons_val]
  ring

theorem iso_compressibility (K G : ℝ) (a : V3) :
    compressibilityAlong (sTensor (isoS K G)) a = 1000 * (1 / (3 * K) * dot a a) := by
  unfold compressibilityAlong
  simp only [isoS, sTensor, sc, vm, dot, Matrix.of_apply, Fin.sum_univ_three, Matrix.cons_val]
  norm_num
  ring

end Verif.Elastic
