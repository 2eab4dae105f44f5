/-
Crystals that are orthorhombic only within the tolerance of the classifier: the closed forms leave out the compliances outside
the upper left block and the diagonal.  What they compute are the properties of a crystal between two multiples of the given one.
-/
import Verif.Elastic.Sensitivity
import Verif.Elastic.Ortho
import Verif.Tac

namespace Verif.Elastic
open Verif.Py Spec

/-- The entries the closed forms use. -/
def orthoPart (S : M6) : M6 := Matrix.of fun i j => if i = j ∨ (i.val < 3 ∧ j.val < 3) then S i j else 0

/-- Signs of the shear components under the rotations by 180° about the axes. -/
def axisSigns : Fin 4 → Fin 6 → ℝ :=
  ![![1, 1, 1, 1, 1, 1], ![1, 1, 1, 1, -1, -1], ![1, 1, 1, -1, 1, -1], ![1, 1, 1, -1, -1, 1]]

/-- The moduli referred to rotated axes. -/
def flipped (k : Fin 4) (S : M6) : M6 := Matrix.of fun i j => axisSigns k i * S i j * axisSigns k j

theorem axisSigns_sq (k : Fin 4) (i : Fin 6) : axisSigns k i * axisSigns k i = 1 := by
  fin_cases k <;> fin_cases i <;> simp [axisSigns]

theorem flipped_diagonal (k : Fin 4) (S : M6) : flipped k S = Matrix.diagonal (axisSigns k) * S * Matrix.diagonal (axisSigns k) := by
  ext i j
  rw [Matrix.mul_diagonal, Matrix.diagonal_mul]
  rfl

theorem diagonal_axisSigns (k : Fin 4) : Matrix.diagonal (axisSigns k) * Matrix.diagonal (axisSigns k) = (1 : M6) := by
  rw [Matrix.diagonal_mul_diagonal, ← Matrix.diagonal_one]
  congr 1
  funext i
  exact axisSigns_sq k i

theorem flipped_inv (k : Fin 4) {S : M6} (h : S.det ≠ 0) : (flipped k S)⁻¹ = flipped k S⁻¹ := by
  refine Matrix.inv_eq_right_inv ?_
  rw [flipped_diagonal, flipped_diagonal]
  have h1 := diagonal_axisSigns k
  have h2 : S * S⁻¹ = 1 := Matrix.mul_nonsing_inv S (isUnit_iff_ne_zero.2 h)
  set D := Matrix.diagonal (axisSigns k)
  calc D * S * D * (D * S⁻¹ * D) = D * S * (D * D) * S⁻¹ * D := by simp only [Matrix.mul_assoc]
    _ = D * (S * S⁻¹) * D := by rw [h1, Matrix.mul_one]; simp only [Matrix.mul_assoc]
    _ = 1 := by rw [h2, Matrix.mul_one, h1]

/-- The part used is the mean over the four rotations. -/
theorem quad_orthoPart (S : M6) (e : Fin 6 → ℝ) : quad (orthoPart S) e e = (∑ k, quad (flipped k S) e e) / 4 := by
  have o : orthoPart S = Matrix.of ![![S 0 0, S 0 1, S 0 2, 0, 0, 0], ![S 1 0, S 1 1, S 1 2, 0, 0, 0],
      ![S 2 0, S 2 1, S 2 2, 0, 0, 0], ![0, 0, 0, S 3 3, 0, 0], ![0, 0, 0, 0, S 4 4, 0], ![0, 0, 0, 0, 0, S 5 5]] := by
    ext i j
    fin_cases i <;> fin_cases j <;> rfl
  rw [o]
  simp only [quad, flipped, Matrix.of_apply, Fin.sum_univ_six, Fin.sum_univ_four, axisSigns, Matrix.cons_val]
  ring

theorem flipped_symm (k : Fin 4) {S : M6} (h : S.IsSymm) : (flipped k S).IsSymm := by
  ext i j
  show axisSigns k j * S j i * axisSigns k i = axisSigns k i * S i j * axisSigns k j
  rw [h.apply]
  ring

theorem orthoPart_form {S : M6} (h : S.IsSymm) : OrthorhombicForm (orthoPart S) := by
  constructor
  · ext i j
    show (if j = i ∨ (j.val < 3 ∧ i.val < 3) then S j i else 0) = if i = j ∨ (i.val < 3 ∧ j.val < 3) then S i j else 0
    rw [h.apply]
    exact if_congr (by constructor <;> rintro (h | h) <;> first | exact .inl h.symm | exact .inr h.symm) rfl rfl
  · intro i j hij h3
    show (if i = j ∨ (i.val < 3 ∧ j.val < 3) then S i j else 0) = 0
    rw [if_neg]
    rintro (h | h)
    · exact hij h
    · omega

theorem orthoS_orthoPart (S : M6) : orthoS (sTensor (orthoPart S)) = orthoS (sTensor S) := by
  rw [orthoS_sTensor, orthoS_sTensor]
  rfl

/-- The crystal whose properties the closed forms compute. -/
theorem closed_between {C M : M6} (hs : C.IsSymm) (hM : M.IsSymm) {l t : ℝ} (ht : 0 ≤ t) (hl : 6 * t < l) (h : Resists C l)
    (hc : ∀ k, Close C (flipped k M) t) :
    ∃ D : M6, D.PosDef ∧ D⁻¹ = orthoPart M⁻¹ ∧ Stiffer ((1 - 6 * t / l) • C) D ∧ Stiffer D ((1 + 6 * t / l) • C) := by
  have key := fun k => close_crystals hs (flipped_symm k hM) ht hl h (hc k)
  obtain ⟨p, -, r1, -, -⟩ := key 0
  have r2 : 0 < 1 + 6 * t / l := by
    have : 0 ≤ 6 * t / l := div_nonneg (by linarith) (by linarith)
    linarith
  have pM : M.PosDef := by
    have := (key 0).2.1
    have e : flipped 0 M = M := by
      ext i j
      show axisSigns 0 i * M i j * axisSigns 0 j = M i j
      fin_cases i <;> fin_cases j <;> simp [axisSigns]
    rwa [e] at this
  have hd := posDef_det pM
  have up : ∀ u, quad (orthoPart M⁻¹) u u ≤ quad ((1 - 6 * t / l) • C)⁻¹ u u := by
    intro u
    rw [quad_orthoPart, div_le_iff₀ (by norm_num)]
    have : ∀ k, quad (flipped k M⁻¹) u u ≤ quad ((1 - 6 * t / l) • C)⁻¹ u u := by
      intro k
      have := stiffer_inv (posDef_smul r1 p) (key k).2.1 (key k).2.2.2.1 u
      rwa [flipped_inv k hd] at this
    rw [Fin.sum_univ_four]
    linarith [this 0, this 1, this 2, this 3]
  have lo : ∀ u, quad ((1 + 6 * t / l) • C)⁻¹ u u ≤ quad (orthoPart M⁻¹) u u := by
    intro u
    rw [quad_orthoPart, le_div_iff₀ (by norm_num)]
    have : ∀ k, quad ((1 + 6 * t / l) • C)⁻¹ u u ≤ quad (flipped k M⁻¹) u u := by
      intro k
      have := stiffer_inv (key k).2.1 (posDef_smul r2 p) (key k).2.2.2.2 u
      rwa [flipped_inv k hd] at this
    rw [Fin.sum_univ_four]
    linarith [this 0, this 1, this 2, this 3]
  have hsi : (M⁻¹).IsSymm := posDef_symm pM.inv
  have pS : (orthoPart M⁻¹).PosDef := by
    refine Matrix.PosDef.of_dotProduct_mulVec_pos ?_ fun e he => ?_
    · rw [Matrix.IsHermitian, Matrix.conjTranspose_eq_transpose_of_trivial]
      exact (orthoPart_form hsi).1
    · rw [star_trivial, ← quad_eq]
      exact (quad_posDef (posDef_smul r2 p).inv he).trans_le (lo e)
  have inv_inv : ∀ {A : M6}, A.PosDef → A⁻¹⁻¹ = A := fun hA => Matrix.nonsing_inv_nonsing_inv _ (isUnit_iff_ne_zero.2 (posDef_det hA))
  refine ⟨(orthoPart M⁻¹)⁻¹, pS.inv, inv_inv pS, stiffer_of_quad fun e => ?_, stiffer_of_quad fun e => ?_⟩
  · have := stiffer_inv pS (posDef_smul r1 p).inv (stiffer_of_quad up) e
    rwa [inv_inv (posDef_smul r1 p)] at this
  · have := stiffer_inv (posDef_smul r2 p).inv pS (stiffer_of_quad lo) e
    rwa [inv_inv (posDef_smul r2 p)] at this

/-- The closed forms applied to `M` are the properties of that crystal. -/
theorem closed_forms {M D : M6} (hM : M.IsSymm) (h : D⁻¹ = orthoPart M⁻¹) {density : ℝ} {s s' : Soec}
    (e : soec M density = .ok s) (e' : soec D density = .ok s') :
    (∀ x, orthoYoung s.Smat x = s'.youngModulus x) ∧ (∀ x, orthoCompressibility s.Smat x = s'.linearCompressibility x) ∧
    (∀ x, orthoShear s.Smat x = s'.shearModulus x) ∧ ∀ x, orthoPoisson s.Smat x = s'.poissonRatio x := by
  obtain ⟨hM0, rfl⟩ := soec_ok e
  obtain ⟨-, rfl⟩ := soec_ok e'
  have hs : (M⁻¹).IsSymm := by
    have : (M⁻¹).transpose = M⁻¹ := by rw [Matrix.transpose_nonsing_inv, hM]
    exact this
  have f := orthoPart_form hs
  have o := orthoS_orthoPart M⁻¹
  have k1 := ortho_young f
  have k2 := ortho_compressibility f
  have k3 := ortho_shear f
  have k4 := ortho_poisson f
  unfold orthoYoung at k1 ⊢
  unfold orthoCompressibility at k2 ⊢
  unfold orthoShear at k3 ⊢
  unfold orthoPoisson at k4 ⊢
  rw [o] at k1 k2 k3 k4
  rw [← h] at k1 k2 k3 k4
  exact ⟨fun x => k1 x, fun x => k2 x, fun x => k3 x, fun x => k4 x⟩

end Verif.Elastic
