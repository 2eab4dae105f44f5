/-
C122: scaling the stiffness and the density (elastic properties).
-/
import Verif.Elastic.Relations

namespace Verif.Elastic
open Verif.Py Spec

/-! ### Lemmas -/

theorem inv_scaled {C : M6} (hC : C.det ≠ 0) {l : ℝ} (hl : l ≠ 0) : (l • C)⁻¹ = l⁻¹ • C⁻¹ := by
  refine Matrix.inv_eq_left_inv ?_
  rw [Matrix.smul_mul, Matrix.mul_smul, smul_smul, inv_mul_cancel₀ hl, one_smul,
    Matrix.nonsing_inv_mul _ (isUnit_iff_ne_zero.2 hC)]

theorem det_scaled {C : M6} {l : ℝ} (hl : l ≠ 0) : (l • C).det = 0 ↔ C.det = 0 := by
  rw [Matrix.det_smul]
  simp [hl]

theorem cTensor_smul (l : ℝ) (C : M6) (i j k m : Fin 3) : cTensor (l • C) i j k m = l * cTensor C i j k m := rfl

theorem sTensor_smul (l : ℝ) (S : M6) (i j k m : Fin 3) : sTensor (l • S) i j k m = l * sTensor S i j k m := by
  simp only [sTensor, Matrix.smul_apply, smul_eq_mul]
  ring

theorem contract4_scaled {T T' : T4} {l : ℝ} (h : ∀ i j k m, T' i j k m = l * T i j k m) (a b c d : V3) :
    contract4 T' a b c d = l * contract4 T a b c d := by
  simp only [contract4, Finset.mul_sum, h]
  refine Finset.sum_congr rfl fun i _ => Finset.sum_congr rfl fun j _ => Finset.sum_congr rfl fun k _ =>
    Finset.sum_congr rfl fun m _ => by ring

theorem averageRow_scaled (l : ℝ) (hl : l ≠ 0) (K G : ℝ) :
    averageRow (l * K) (l * G) = ⟨l * (averageRow K G).K, l * (averageRow K G).E, l * (averageRow K G).G, (averageRow K G).nu⟩ := by
  have h1 : 1 / (1 / (3 * (l * G)) + 1 / (9 * (l * K))) = l * (1 / (1 / (3 * G) + 1 / (9 * K))) := by
    have e1 : 1 / (3 * (l * G)) = l⁻¹ * (1 / (3 * G)) := by rw [one_div, one_div, mul_inv, mul_inv, mul_inv]; ring
    have e2 : 1 / (9 * (l * K)) = l⁻¹ * (1 / (9 * K)) := by rw [one_div, one_div, mul_inv, mul_inv, mul_inv]; ring
    rw [e1, e2, ← mul_add, one_div (l⁻¹ * _), mul_inv, inv_inv, one_div (_ + _)]
  have h2 : 3 * (l * G) / (3 * (l * K) + l * G) = 3 * G / (3 * K + G) := by
    rw [show 3 * (l * G) = l * (3 * G) by ring, show 3 * (l * K) + l * G = l * (3 * K + G) by ring,
      mul_div_mul_left _ _ hl]
  simp only [averageRow, h1, h2]

/-! ### C122 -/

/-- C122: the same crystal with a stiffness `l` times as large and a density `m` times as large: it is accepted exactly when
the crystal is; along every direction Young's and shear moduli are `l` times as large, the linear compressibility is `l`
times as small, and Poisson's ratio is the same. -/
theorem C122_directional {l m : ℝ} (hl : 0 < l) (C : M6) (density : ℝ) :
    ((∃ s, soec C density = .ok s) ↔ ∃ s', soec (l • C) (m * density) = .ok s') ∧
    ∀ s s', soec C density = .ok s → soec (l • C) (m * density) = .ok s' →
      (∀ x, s'.youngModulus x = l * s.youngModulus x ∧ s'.linearCompressibility x = s.linearCompressibility x / l) ∧
      ∀ x, s'.shearModulus x = l * s.shearModulus x ∧ s'.poissonRatio x = s.poissonRatio x := by
  constructor
  · unfold soec
    by_cases h0 : C.det = 0
    · simp [h0, (det_scaled hl.ne').2 h0]
    · have h1 : ¬ (l • C).det = 0 := fun h => h0 ((det_scaled hl.ne').1 h)
      simp only [h0, h1, if_false, Except.ok.injEq, exists_eq']
  · intro s s' hs hs'
    obtain ⟨hC, rfl⟩ := soec_ok hs
    obtain ⟨hC', rfl⟩ := soec_ok hs'
    have key : ∀ i j k n, sTensor (l • C)⁻¹ i j k n = l⁻¹ * sTensor C⁻¹ i j k n := by
      intro i j k n
      rw [inv_scaled hC hl.ne', sTensor_smul]
    have k4 := fun a b c d => contract4_scaled key a b c d
    refine ⟨fun x => ⟨?_, ?_⟩, fun x => ⟨?_, ?_⟩⟩
    · simp only [Soec.youngModulus, youngAlong, k4, one_div, mul_inv, inv_inv]
    · simp only [Soec.linearCompressibility, compressibilityAlong, key, Fin.sum_univ_three]
      field_simp
    · simp only [Soec.shearModulus, shearAlong_eq, k4, one_div, mul_inv, inv_inv]
      ring
    · simp only [Soec.poissonRatio, poissonAlong_eq, k4]
      rw [← mul_neg, mul_div_mul_left _ _ (inv_ne_zero hl.ne')]

/-- C122: the averages of the crystal with the larger stiffness: moduli `l` times as large, the same Poisson's ratio; the
velocities of the isotropic aggregate are the square root of `l / m` times as large. -/
theorem C122_averages {l m : ℝ} (hl : 0 < l) (hm : 0 < m) {C : M6} {density : ℝ} {s s' : Soec}
    (hs : soec C density = .ok s) (hs' : soec (l • C) (m * density) = .ok s') :
    (∀ f, f = Averages.voigt ∨ f = Averages.reuss ∨ f = Averages.hill →
      (f s'.averages).K = l * (f s.averages).K ∧ (f s'.averages).E = l * (f s.averages).E ∧
      (f s'.averages).G = l * (f s.averages).G ∧ (f s'.averages).nu = (f s.averages).nu) ∧
    ∀ i, s'.isotropicVelocities i = Real.sqrt (l / m) * s.isotropicVelocities i := by
  obtain ⟨hC, rfl⟩ := soec_ok hs
  obtain ⟨hC', rfl⟩ := soec_ok hs'
  have h1 : einsum_iijj (cTensor (l • C)) / 9 = l * (einsum_iijj (cTensor C) / 9) := by
    simp only [einsum_iijj, cTensor_smul, Fin.sum_univ_three]
    ring
  have h2 : 1 / einsum_iijj (sTensor (l • C)⁻¹) = l * (1 / einsum_iijj (sTensor C⁻¹)) := by
    have : einsum_iijj (sTensor (l • C)⁻¹) = l⁻¹ * einsum_iijj (sTensor C⁻¹) := by
      simp only [einsum_iijj, inv_scaled hC hl.ne', sTensor_smul, Fin.sum_univ_three]
      ring
    rw [this, one_div, mul_inv, inv_inv, one_div]
  have h3 : voigtG (l • C) = l * voigtG C := by
    simp only [voigtG, Matrix.smul_apply, smul_eq_mul]
    ring
  have h4 : reussG (l • C)⁻¹ = l * reussG C⁻¹ := by
    rw [inv_scaled hC hl.ne']
    simp only [reussG, Matrix.smul_apply, smul_eq_mul]
    have e : ∀ a b c : ℝ, 15 / (4 * (l⁻¹ * a) - 4 * (l⁻¹ * b) + 3 * (l⁻¹ * c)) = l * (15 / (4 * a - 4 * b + 3 * c)) := by
      intro a b c
      rw [show 4 * (l⁻¹ * a) - 4 * (l⁻¹ * b) + 3 * (l⁻¹ * c) = l⁻¹ * (4 * a - 4 * b + 3 * c) by ring, div_mul_eq_div_div,
        div_inv_eq_mul]
      ring
    simp only [← mul_add]
    exact e _ _ _
  have h5 : ∀ x y : ℝ, 0.5 * (l * x + l * y) = l * (0.5 * (x + y)) := fun x y => by ring
  refine ⟨?_, ?_⟩
  · rintro f (rfl | rfl | rfl) <;> simp only [Soec.averages, h1, h2, h3, h4, h5, averageRow_scaled l hl.ne', and_self]
  · have e : ∀ x : ℝ, Real.sqrt (1000 * (l * x) / (m * density)) = Real.sqrt (l / m) * Real.sqrt (1000 * x / density) := by
      intro x
      rw [← Real.sqrt_mul (by positivity)]
      congr 1
      rw [div_mul_div_comm]
      congr 1
      ring
    have e' : ∀ x y : ℝ, l * x + 4 * (l * y) / 3 = l * (x + 4 * y / 3) := fun x y => by ring
    intro i
    simp only [Soec.isotropicVelocities, Soec.averages, h1, h2, h3, h4, h5, averageRow, e', e]
    fin_cases i <;> rfl

end Verif.Elastic
