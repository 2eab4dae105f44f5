/-
Property C119: the directional elastic properties obey the relations of elasticity theory.
-/
import Verif.Elastic.RotationProps
import Verif.Tac

namespace Verif.Elastic
open Verif.Py Spec

/-- Three mutually perpendicular directions. -/
def Spec.Triad (a b c : V3) : Prop := Orthonormal a b ∧ Orthonormal b c ∧ Orthonormal a c

/-! ### Completeness of a triad -/

theorem triad_orthogonal {a b c : V3} (h : Triad a b c) : Orthogonal fun i j => ![a, b, c] j i := by
  obtain ⟨⟨ha, hb, hab⟩, ⟨-, hc, hbc⟩, ⟨-, -, hac⟩⟩ := h
  simp only [UnitVector, dot] at *
  intro i j
  fin_cases i <;> fin_cases j <;> simp only [Matrix.cons_val, Fin.zero_eta, Fin.mk_one, Fin.reduceFinMk]
  · simpa using ha
  · simpa using hab
  · simpa using hac
  · simpa [mul_comm] using hab
  · simpa using hb
  · simpa using hbc
  · simpa [mul_comm] using hac
  · simpa [mul_comm] using hbc
  · simpa using hc

theorem triad_complete {a b c : V3} (h : Triad a b c) (i j : Fin 3) :
    a i * a j + b i * b j + c i * c j = if i = j then 1 else 0 := by
  have := orthogonal_rows (triad_orthogonal h) i j
  simpa [Fin.sum_univ_three] using this

/-- A uniaxial stress of each of the three directions makes a hydrostatic stress. -/
theorem triad_second (T : T4) {a b c : V3} (h : Triad a b c) (u : V3) :
    contract4 T u u a a + contract4 T u u b b + contract4 T u u c c = ∑ i, ∑ j, ∑ k, u i * u j * T i j k k := by
  have hc := triad_complete h
  calc _ = ∑ i, ∑ j, ∑ k, ∑ l, T i j k l * u i * u j * (a k * a l + b k * b l + c k * c l) := by
        simp only [contract4, ← Finset.sum_add_distrib]
        refine Finset.sum_congr rfl fun i _ => Finset.sum_congr rfl fun j _ => Finset.sum_congr rfl fun k _ =>
          Finset.sum_congr rfl fun l _ => by ring
    _ = _ := by
        simp only [hc, mul_ite, mul_one, mul_zero]
        refine Finset.sum_congr rfl fun i _ => Finset.sum_congr rfl fun j _ => Finset.sum_congr rfl fun k _ => ?_
        rw [Finset.sum_ite_eq]
        simp
        ring

theorem triad_first (T : T4) {a b c : V3} (h : Triad a b c) :
    compressibilityAlong T a + compressibilityAlong T b + compressibilityAlong T c = 1000 * einsum_iijj T := by
  have hc := triad_complete h
  have e : ∀ u, compressibilityAlong T u = 1000 * ∑ i, ∑ j, ∑ k, u i * u j * T i j k k := fun u => rfl
  rw [e, e, e, ← mul_add, ← mul_add]
  congr 1
  calc _ = ∑ i, ∑ j, (a i * a j + b i * b j + c i * c j) * ∑ k, T i j k k := by
        simp only [Finset.mul_sum, ← Finset.sum_add_distrib]
        refine Finset.sum_congr rfl fun i _ => Finset.sum_congr rfl fun j _ => Finset.sum_congr rfl fun k _ => by ring
    _ = _ := by
        simp only [hc, ite_mul, one_mul, zero_mul]
        unfold einsum_iijj
        refine Finset.sum_congr rfl fun i _ => ?_
        rw [Finset.sum_ite_eq]
        simp

theorem vectorChi_triad (theta phi chi : ℝ) :
    Triad (vector theta phi) (vectorChi theta phi chi) (vectorChi theta phi (chi + Real.pi / 2)) := by
  refine ⟨⟨vector_unit _ _, vectorChi_unit _ _ _, vector_orthogonal _ _ _⟩, ⟨vectorChi_unit _ _ _, vectorChi_unit _ _ _, ?_⟩,
    ⟨vector_unit _ _, vectorChi_unit _ _ _, vector_orthogonal _ _ _⟩⟩
  simp only [dot, vectorChi, Fin.sum_univ_three, Matrix.cons_val, Real.cos_add_pi_div_two, Real.sin_add_pi_div_two]
  have h1 := Real.sin_sq_add_cos_sq theta
  have h2 := Real.sin_sq_add_cos_sq phi
  linear_combination (-Real.cos chi * Real.sin chi) * h1 + (Real.cos chi * Real.sin chi) * (1 - Real.cos theta ^ 2) * h2

/-! ### C119 -/

/-- C119: the linear compressibilities along any three mutually perpendicular directions add up to the compressibility of
the crystal, the inverse of the Reuss bulk modulus. -/
theorem C119_compressibilities (C : M6) (hC : C.PosDef) (density : ℝ) (s : Soec) (h : soec C density = .ok s)
    (x y z : ℝ × ℝ) (ht : Triad (vector x.1 x.2) (vector y.1 y.2) (vector z.1 z.2)) :
    s.linearCompressibility x + s.linearCompressibility y + s.linearCompressibility z = 1000 / s.averages.reuss.K := by
  obtain ⟨-, rfl⟩ := soec_ok h
  show compressibilityAlong _ _ + compressibilityAlong _ _ + compressibilityAlong _ _ = 1000 / (1 / einsum_iijj (sTensor C⁻¹))
  rw [triad_first _ ht, one_div, div_inv_eq_mul]

/-- C119: the linear compressibility along a direction is what the Young's modulus and the Poisson's ratios towards two
perpendicular transverse directions give: `β = (1 - ν - ν') / E`. -/
theorem C119_hydrostatic (C : M6) (hC : C.PosDef) (density : ℝ) (s : Soec) (h : soec C density = .ok s)
    (theta phi chi : ℝ) :
    s.linearCompressibility (theta, phi) =
      1000 * ((1 - s.poissonRatio (theta, phi, chi) - s.poissonRatio (theta, phi, chi + Real.pi / 2)) /
        s.youngModulus (theta, phi)) := by
  obtain ⟨-, rfl⟩ := soec_ok h
  have hpos := (young_denominator_pos hC (vector_unit theta phi)).ne'
  show compressibilityAlong _ (vector theta phi) = 1000 * ((1 - poissonAlong _ (vector theta phi) (vectorChi theta phi chi) -
    poissonAlong _ (vector theta phi) (vectorChi theta phi (chi + Real.pi / 2))) / youngAlong _ (vector theta phi))
  have e : compressibilityAlong (sTensor C⁻¹) (vector theta phi) =
    1000 * ∑ i, ∑ j, ∑ k, vector theta phi i * vector theta phi j * sTensor C⁻¹ i j k k := rfl
  rw [e, ← triad_second _ (vectorChi_triad theta phi chi), poissonAlong_eq, poissonAlong_eq]
  unfold youngAlong
  congr 1
  field_simp
  ring

/-- The work of the stress of a strain. -/
theorem work {C : M6} {ε σ : T2} (h : Hooke C ε σ) :
    quad C (voigtStrain ε) (voigtStrain ε) = ∑ i, ∑ j, σ i j * ε i j := by
  obtain ⟨hε, hσ, h⟩ := h
  have e : quad C (voigtStrain ε) (voigtStrain ε) = ∑ I, voigtStrain ε I * voigtStress σ I := by
    simp only [quad, h, Finset.mul_sum, mul_assoc]
  rw [e]
  simp only [Fin.sum_univ_six, Fin.sum_univ_three, voigtStrain, voigtStress, Matrix.cons_val, hε 1 0, hε 2 0, hε 2 1,
    hσ 1 0, hσ 2 0, hσ 2 1]
  ring

theorem bound_of_ineq {c S e : ℝ} (hS : 0 < S) (h : ∀ t : ℝ, 0 ≤ t ^ 2 * c - 2 * t * e + S) : e ^ 2 ≤ c * S := by
  rcases lt_trichotomy c 0 with hc | rfl | hc
  · exfalso
    have h1 := h 1
    have h2 := h (-1)
    have h3 := h (S / -c + 1)
    have h4 := h (-(S / -c + 1))
    have hq : 0 < S / -c := div_pos hS (by linarith)
    have : S / -c * -c = S := div_mul_cancel₀ _ (by linarith)
    nlinarith
  · by_contra hne
    have he : e ≠ 0 := by
      rintro rfl
      simp at hne
    have := h (S / e)
    have h2 : (S / e) ^ 2 * 0 - 2 * (S / e) * e + S = -S := by field_simp; ring
    rw [h2] at this
    linarith
  · have := h (e / c)
    have h2 : (e / c) ^ 2 * c - 2 * (e / c) * e + S = S - e ^ 2 / c := by field_simp; ring
    rw [h2, sub_nonneg, div_le_iff₀ hc] at this
    linarith

/-- C119: Young's modulus, the resistance to a stress along a direction with the sides free, is at most the resistance to a
strain along that direction with the sides held; the shear modulus likewise. -/
theorem C119_bounds (C : M6) (hC : C.PosDef) (density : ℝ) (s : Soec) (h : soec C density = .ok s)
    (theta phi chi e : ℝ) (he : e ≠ 0) :
    (∀ σ, Hooke C (uniaxial e (vector theta phi)) σ →
      s.youngModulus (theta, phi) ≤ along σ (vector theta phi) (vector theta phi) / e) ∧
    (∀ σ, Hooke C (shear e (vector theta phi) (vectorChi theta phi chi)) σ →
      s.shearModulus (theta, phi, chi) ≤ along σ (vector theta phi) (vectorChi theta phi chi) / (2 * e)) := by
  obtain ⟨-, rfl⟩ := soec_ok h
  have ha := vector_unit theta phi
  have hb := vectorChi_unit theta phi chi
  have hab := vector_orthogonal theta phi chi
  set a := vector theta phi
  set b := vectorChi theta phi chi
  have q : ∀ u v : V3, contract4 (sTensor C⁻¹) u v u v = quad C⁻¹ (dyad u v) (dyad u v) := fun u v => contract4_voigt _ _ _ _ _
  constructor
  · intro σ hσ
    show youngAlong _ a ≤ _
    have hS := young_denominator_pos hC ha
    have hb := bound_of_ineq (e := voigtStrain (uniaxial e a) ⬝ᵥ dyad a a) (by rw [← q]; exact hS)
      (young_ineq hC (voigtStrain (uniaxial e a)) (dyad a a))
    have h1 : voigtStrain (uniaxial e a) ⬝ᵥ dyad a a = e := by
      have : voigtStrain (uniaxial e a) ⬝ᵥ dyad a a = e * dot a a ^ 2 := by
        simp only [dotProduct, Fin.sum_univ_six, voigtStrain, uniaxial, dyad, dot, Fin.sum_univ_three, Matrix.cons_val]
        ring
      rw [this, show dot a a = 1 from ha]
      ring
    have h2 : quad C (voigtStrain (uniaxial e a)) (voigtStrain (uniaxial e a)) = e * along σ a a := by
      rw [work hσ]
      simp only [uniaxial, along, Finset.mul_sum]
      refine Finset.sum_congr rfl fun i _ => Finset.sum_congr rfl fun j _ => by ring
    rw [h1, h2, ← q] at hb
    unfold youngAlong
    rw [div_le_iff₀ hS]
    have : along σ a a / e * contract4 (sTensor C⁻¹) a a a a = e * along σ a a * contract4 (sTensor C⁻¹) a a a a / e ^ 2 := by
      field_simp
    rw [this, le_div_iff₀ (by positivity)]
    linarith
  · intro σ hσ
    show shearAlong _ a b ≤ _
    rw [shearAlong_eq]
    have hS := shear_denominator_pos hC ⟨ha, hb, hab⟩
    have hb' := bound_of_ineq (e := voigtStrain (shear e a b) ⬝ᵥ dyad a b) (by rw [← q]; exact hS)
      (young_ineq hC (voigtStrain (shear e a b)) (dyad a b))
    have h1 : voigtStrain (shear e a b) ⬝ᵥ dyad a b = e := by
      have : voigtStrain (shear e a b) ⬝ᵥ dyad a b = e * (dot a a * dot b b + dot a b ^ 2) := by
        simp only [dotProduct, Fin.sum_univ_six, voigtStrain, shear, dyad, dot, Fin.sum_univ_three, Matrix.cons_val]
        ring
      rw [this, show dot a a = 1 from ha, show dot b b = 1 from hb, hab]
      ring
    have h2 : quad C (voigtStrain (shear e a b)) (voigtStrain (shear e a b)) = 2 * e * along σ a b := by
      rw [work hσ]
      have hs := hσ.2.1
      simp only [shear, along, Fin.sum_univ_three, hs 1 0, hs 2 0, hs 2 1]
      ring
    rw [h1, h2, ← q] at hb'
    rw [div_le_iff₀ (by positivity)]
    have : along σ a b / (2 * e) * (4 * contract4 (sTensor C⁻¹) a b a b) =
        2 * e * along σ a b * contract4 (sTensor C⁻¹) a b a b / e ^ 2 := by
      field_simp
      ring
    rw [this, le_div_iff₀ (by positivity)]
    linarith

/-- The hypotheses of `C119_compressibilities` and `C119_bounds` are met: three angles of perpendicular directions, and a
strain with its stress, for an isotropic crystal. -/
example : ∃ s, soec sampleIso 3000 = .ok s ∧ sampleIso.PosDef ∧
    Triad (vector (Real.pi / 2) 0) (vector (Real.pi / 2) (Real.pi / 2)) (vector 0 0) ∧
    (∃ σ, Hooke sampleIso (uniaxial 1 (vector 1 2)) σ) ∧ ∃ σ, Hooke sampleIso (shear 1 (vector 1 2) (vectorChi 1 2 3)) σ := by
  have hp : sampleIso.PosDef := isotropic_posDef (by norm_num) (by norm_num)
  obtain ⟨s, hs⟩ := soec_of_det (posDef_det hp) 3000
  refine ⟨s, hs, hp, ?_, ⟨_, hooke_app.2 ⟨symm_uniaxial _ _, rfl⟩⟩, ⟨_, hooke_app.2 ⟨symm_shear _ _ _, rfl⟩⟩⟩
  refine ⟨⟨?_, ?_, ?_⟩, ⟨?_, ?_, ?_⟩, ?_, ?_, ?_⟩ <;> simp [UnitVector, dot, vector, Fin.sum_univ_three]

end Verif.Elastic
