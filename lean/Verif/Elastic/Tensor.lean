/- Helper lemmas: tensors, Hooke's law, direction vectors. -/
import Mathlib.Analysis.SpecialFunctions.Complex.Arg
import Verif.Elastic.Spec

namespace Verif.Elastic
open Verif.Py Spec

theorem vm_comm (i j : Fin 3) : vm i j = vm j i := by
  fin_cases i <;> fin_cases j <;> rfl

theorem sc_comm (p q : Fin 6) : sc p q = sc q p := by
  unfold sc; rw [mul_comm]

theorem soec_ok {C : M6} {d : ℝ} {s : Soec} (h : soec C d = .ok s) :
    C.det ≠ 0 ∧ s = { C := C, density := d, S := C⁻¹, Smat := sTensor C⁻¹, Cmat := cTensor C } := by
  unfold soec at h
  split at h
  · cases h
  · rename_i hd
    cases h
    exact ⟨hd, rfl⟩

theorem seismic_ok {C : M6} {d : ℝ} {s : Seismic} (h : seismic C d = .ok s) :
    C.det ≠ 0 ∧ s = { C := C, density := d, S := C⁻¹, Smat := sTensor C⁻¹,
                      Cmat := fun i j k l => cTensor C i j k l * (1000 / d),
                      hessM := hessianChristoffel fun i j k l => cTensor C i j k l * (1000 / d) } := by
  unfold seismic at h
  split at h
  · cases h
  · rename_i hd
    cases h
    exact ⟨hd, rfl⟩

/-- Voigt weight of an index: 1 for normal components, 2 for shear components. -/
noncomputable def wt (I : Fin 6) : ℝ := 1 + ((I.val / 3 : ℕ) : ℝ)

theorem wt_pos (I : Fin 6) : 0 < wt I := by unfold wt; positivity

theorem sc_eq (p q : Fin 6) : sc p q = 1 / (wt p * wt q) := rfl

theorem sum_vm (f : Fin 6 → ℝ) : ∑ k, ∑ l, f (vm k l) = ∑ I, wt I * f I := by
  simp [wt, vm, Fin.sum_univ_three, Fin.sum_univ_six]
  ring

/-- The contraction of two tensors read from Voigt matrices. -/
theorem contraction {C S : M6} (h : C * S = 1) (i j m n : Fin 3) :
    ∑ k, ∑ l, cTensor C i j k l * sTensor S k l m n =
      if vm i j = vm m n then 1 / wt (vm m n) else 0 := by
  obtain ⟨F, hF⟩ : ∃ F : Fin 6 → ℝ,
      F = fun I => C (vm i j) I * (1 / (wt I * wt (vm m n)) * S I (vm m n)) := ⟨_, rfl⟩
  have e : ∀ k l, cTensor C i j k l * sTensor S k l m n = F (vm k l) := by
    intro k l; simp [hF, cTensor, sTensor, sc_eq]
  simp only [e, sum_vm]
  simp only [hF]
  have e2 : ∀ I, wt I * (C (vm i j) I * (1 / (wt I * wt (vm m n)) * S I (vm m n))) =
      1 / wt (vm m n) * (C (vm i j) I * S I (vm m n)) := by
    intro I
    have := (wt_pos I).ne'
    have := (wt_pos (vm m n)).ne'
    field_simp
  simp only [e2, ← Finset.mul_sum]
  have : ∑ I, C (vm i j) I * S I (vm m n) = (C * S) (vm i j) (vm m n) := by
    rw [Matrix.mul_apply]
  rw [this, h, Matrix.one_apply]
  split <;> simp

theorem contraction' {C S : M6} (h : S * C = 1) (i j m n : Fin 3) :
    ∑ k, ∑ l, sTensor S i j k l * cTensor C k l m n =
      if vm i j = vm m n then 1 / wt (vm m n) else 0 := by
  obtain ⟨F, hF⟩ : ∃ F : Fin 6 → ℝ,
      F = fun I => (1 / (wt (vm i j) * wt I) * S (vm i j) I) * C I (vm m n) := ⟨_, rfl⟩
  have e : ∀ k l, sTensor S i j k l * cTensor C k l m n = F (vm k l) := by
    intro k l; simp [hF, cTensor, sTensor, sc_eq]
  simp only [e, sum_vm]
  simp only [hF]
  have e2 : ∀ I, wt I * ((1 / (wt (vm i j) * wt I) * S (vm i j) I) * C I (vm m n)) =
      1 / wt (vm i j) * (S (vm i j) I * C I (vm m n)) := by
    intro I
    have := (wt_pos I).ne'
    have := (wt_pos (vm i j)).ne'
    field_simp
  simp only [e2, ← Finset.mul_sum]
  have : ∑ I, S (vm i j) I * C I (vm m n) = (S * C) (vm i j) (vm m n) := by
    rw [Matrix.mul_apply]
  rw [this, h, Matrix.one_apply]
  split
  · rename_i hh; rw [hh]; simp
  · simp

theorem identity_eq (i j m n : Fin 3) :
    (if vm i j = vm m n then 1 / wt (vm m n) else 0) =
      (((if i = m then 1 else 0) * (if j = n then 1 else 0)
        + (if i = n then 1 else 0) * (if j = m then 1 else 0)) / 2 : ℝ) := by
  fin_cases i <;> fin_cases j <;> fin_cases m <;> fin_cases n <;> norm_num [vm, wt] <;> decide

/-- Strain predicted by the compliance tensor. -/
noncomputable def strainOf (S : M6) (σ : T2) : T2 := fun i j => ∑ k, ∑ l, sTensor S i j k l * σ k l

theorem strainOf_voigt (S : M6) (σ : T2) (hσ : Symm σ) (i j : Fin 3) :
    strainOf S σ i j = 1 / wt (vm i j) * ∑ J, S (vm i j) J * voigtStress σ J := by
  obtain ⟨F, hF⟩ : ∃ F : Fin 6 → ℝ,
      F = fun J => 1 / (wt (vm i j) * wt J) * S (vm i j) J * voigtStress σ J := ⟨_, rfl⟩
  have e : ∀ k l, sTensor S i j k l * σ k l = F (vm k l) := by
    intro k l
    have : σ k l = voigtStress σ (vm k l) := by
      fin_cases k <;> fin_cases l <;> simp [voigtStress, vm, hσ 1 0, hσ 2 0, hσ 2 1]
    rw [this, hF]; rfl
  have e2 : strainOf S σ i j = ∑ I, wt I * F I := by
    rw [← sum_vm]
    exact Finset.sum_congr rfl fun k _ => Finset.sum_congr rfl fun l _ => e k l
  rw [e2, Finset.mul_sum, hF]
  refine Finset.sum_congr rfl fun J _ => ?_
  have := (wt_pos J).ne'
  have := (wt_pos (vm i j)).ne'
  field_simp

theorem voigtStrain_vm (ε : T2) (hε : Symm ε) (i j : Fin 3) :
    voigtStrain ε (vm i j) = wt (vm i j) * ε i j := by
  fin_cases i <;> fin_cases j <;>
    norm_num [voigtStrain, vm, wt, hε 1 0, hε 2 0, hε 2 1] <;>
    first | rfl | exact congrArg (2 * ·) (hε 0 2) | exact congrArg (2 * ·) (hε 1 2)

theorem vm_surj (I : Fin 6) : ∃ i j, vm i j = I := by
  fin_cases I
  exacts [⟨0, 0, rfl⟩, ⟨1, 1, rfl⟩, ⟨2, 2, rfl⟩, ⟨1, 2, rfl⟩, ⟨0, 2, rfl⟩, ⟨0, 1, rfl⟩]

theorem hooke_iff {C : M6} (hC : C.det ≠ 0) (ε σ : T2) (hσ : Symm σ) :
    Hooke C ε σ ↔ ε = strainOf C⁻¹ σ := by
  have hu : IsUnit C.det := isUnit_iff_ne_zero.2 hC
  have h1 : C * C⁻¹ = 1 := Matrix.mul_nonsing_inv C hu
  have h2 : C⁻¹ * C = 1 := Matrix.nonsing_inv_mul C hu
  have hv : ∀ ε : T2, (∀ I, voigtStress σ I = ∑ J, C I J * voigtStrain ε J) ↔
      voigtStress σ = C.mulVec (voigtStrain ε) := fun ε => by
    rw [funext_iff]; rfl
  constructor
  · rintro ⟨hε, _, h⟩
    rw [hv] at h
    have h3 : (C⁻¹).mulVec (voigtStress σ) = voigtStrain ε := by
      rw [h, Matrix.mulVec_mulVec, h2, Matrix.one_mulVec]
    funext i j
    rw [strainOf_voigt _ _ hσ]
    have : ∑ J, C⁻¹ (vm i j) J * voigtStress σ J = voigtStrain ε (vm i j) := by
      rw [← h3]; rfl
    rw [this, voigtStrain_vm ε hε]
    have := (wt_pos (vm i j)).ne'
    field_simp
  · intro h
    have hε : Symm ε := by
      intro i j
      rw [h, strainOf_voigt _ _ hσ, strainOf_voigt _ _ hσ, vm_comm]
    refine ⟨hε, hσ, ?_⟩
    rw [hv]
    have h3 : voigtStrain ε = (C⁻¹).mulVec (voigtStress σ) := by
      funext I
      obtain ⟨i, j, rfl⟩ := vm_surj I
      rw [voigtStrain_vm ε hε, h, strainOf_voigt _ _ hσ]
      have := (wt_pos (vm i j)).ne'
      field_simp
      rfl
    rw [h3, Matrix.mulVec_mulVec, h1, Matrix.one_mulVec]

theorem symm_uniaxial (p : ℝ) (a : V3) : Symm (uniaxial p a) := by
  intro i j; unfold uniaxial; ring

theorem symm_shear (p : ℝ) (a b : V3) : Symm (shear p a b) := by
  intro i j; unfold shear; ring

theorem symm_hydrostatic (p : ℝ) : Symm (hydrostatic p) := by
  intro i j; unfold hydrostatic; simp only [eq_comm]

theorem along_uniaxial (S : M6) (p : ℝ) (a b : V3) :
    along (strainOf S (uniaxial p a)) b b = p * contract4 (sTensor S) b b a a := by
  simp only [along, strainOf, uniaxial, contract4, Finset.mul_sum, Finset.sum_mul]
  refine Finset.sum_congr rfl fun i _ => Finset.sum_congr rfl fun j _ =>
    Finset.sum_congr rfl fun k _ => Finset.sum_congr rfl fun l _ => ?_
  ring

theorem along_shear (S : M6) (p : ℝ) (a b : V3) :
    along (strainOf S (shear p a b)) a b = p * (2 * contract4 (sTensor S) a b a b) := by
  have e : contract4 (sTensor S) a b a b = contract4 (sTensor S) a b b a := by
    unfold contract4
    refine Finset.sum_congr rfl fun i _ => Finset.sum_congr rfl fun j _ => ?_
    rw [Finset.sum_comm]
    refine Finset.sum_congr rfl fun k _ => Finset.sum_congr rfl fun l _ => ?_
    have : sTensor S i j l k = sTensor S i j k l := by simp [sTensor, vm_comm l k]
    rw [this]; ring
  have e2 : 2 * contract4 (sTensor S) a b a b =
      contract4 (sTensor S) a b a b + contract4 (sTensor S) a b b a := by rw [e]; ring
  rw [e2]
  simp only [along, strainOf, shear, contract4, Finset.mul_sum, Finset.sum_mul,
    ← Finset.sum_add_distrib]
  refine Finset.sum_congr rfl fun i _ => Finset.sum_congr rfl fun j _ =>
    Finset.sum_congr rfl fun k _ => Finset.sum_congr rfl fun l _ => ?_
  ring

theorem along_hydrostatic (S : M6) (p : ℝ) (a : V3) :
    along (strainOf S (hydrostatic p)) a a = -p * ∑ i, ∑ j, ∑ k, a i * a j * sTensor S i j k k := by
  simp only [along, strainOf, hydrostatic, Finset.mul_sum, Finset.sum_mul]
  refine Finset.sum_congr rfl fun i _ => Finset.sum_congr rfl fun j _ =>
    Finset.sum_congr rfl fun k _ => ?_
  simp only [mul_ite, mul_zero, ite_mul, zero_mul]
  rw [Finset.sum_ite_eq]
  simp; ring

theorem shearAlong_eq (S : M6) (a b : V3) :
    shearAlong (sTensor S) a b = 1 / (4 * contract4 (sTensor S) a b a b) := by
  unfold shearAlong contract4
  congr 2
  refine Finset.sum_congr rfl fun i _ => Finset.sum_congr rfl fun j _ =>
    Finset.sum_congr rfl fun k _ => Finset.sum_congr rfl fun l _ => ?_
  ring

theorem contract4_symm {S : M6} (hS : S.IsSymm) (a b : V3) :
    contract4 (sTensor S) a a b b = contract4 (sTensor S) b b a a := by
  have hsy : ∀ I J, S I J = S J I := fun I J => hS.apply J I
  simp only [contract4, sTensor]
  simp only [Fin.sum_univ_three, vm, Matrix.cons_val, sc, hsy 1 0, hsy 2 0, hsy 3 0, hsy 4 0,
    hsy 5 0, hsy 2 1, hsy 3 1, hsy 4 1, hsy 5 1, hsy 3 2, hsy 4 2, hsy 5 2, hsy 4 3, hsy 5 3, hsy 5 4]
  ring

theorem poissonAlong_eq (S : M6) (a b : V3) :
    poissonAlong (sTensor S) a b =
      -contract4 (sTensor S) a a b b / contract4 (sTensor S) a a a a := by
  have e : ∀ a b c d : V3, ∑ i, ∑ j, ∑ k, ∑ l, a i * b j * c k * d l * sTensor S i j k l =
      contract4 (sTensor S) a b c d := by
    intro a b c d
    unfold contract4
    refine Finset.sum_congr rfl fun i _ => Finset.sum_congr rfl fun j _ =>
      Finset.sum_congr rfl fun k _ => Finset.sum_congr rfl fun l _ => ?_
    ring
  simp only [poissonAlong, e]

/-- Voigt form of a dyad as a stress. -/
noncomputable def dyad (a b : V3) : Fin 6 → ℝ :=
  ![a 0 * b 0, a 1 * b 1, a 2 * b 2, (a 1 * b 2 + a 2 * b 1) / 2, (a 0 * b 2 + a 2 * b 0) / 2,
    (a 0 * b 1 + a 1 * b 0) / 2]

theorem contract4_voigt (S : M6) (a b c d : V3) :
    contract4 (sTensor S) a b c d = ∑ I, ∑ J, dyad a b I * S I J * dyad c d J := by
  simp only [contract4, sTensor, Fin.sum_univ_three, Fin.sum_univ_six, vm, Matrix.cons_val, sc, dyad]
  norm_num
  ring

theorem dyad_ne_zero {a : V3} (h : UnitVector a) : dyad a a ≠ 0 := by
  intro h0
  have e0 : a 0 * a 0 = 0 := congrFun h0 0
  have e1 : a 1 * a 1 = 0 := congrFun h0 1
  have e2 : a 2 * a 2 = 0 := congrFun h0 2
  simp only [UnitVector, dot, Fin.sum_univ_three, e0, e1, e2] at h
  norm_num at h

theorem dyad_ne_zero' {a b : V3} (h : Orthonormal a b) : dyad a b ≠ 0 := by
  intro h0
  have e0 : a 0 * b 0 = 0 := congrFun h0 0
  have e1 : a 1 * b 1 = 0 := congrFun h0 1
  have e2 : a 2 * b 2 = 0 := congrFun h0 2
  have e3 : (a 1 * b 2 + a 2 * b 1) / 2 = 0 := congrFun h0 3
  have e4 : (a 0 * b 2 + a 2 * b 0) / 2 = 0 := congrFun h0 4
  have e5 : (a 0 * b 1 + a 1 * b 0) / 2 = 0 := congrFun h0 5
  obtain ⟨ha, hb, -⟩ := h
  simp only [UnitVector, dot, Fin.sum_univ_three] at ha hb
  have : (a 0 * a 0 + a 1 * a 1 + a 2 * a 2) * (b 0 * b 0 + b 1 * b 1 + b 2 * b 2) = 1 := by
    rw [ha, hb]; norm_num
  have s : (a 0 * b 0) ^ 2 + (a 1 * b 1) ^ 2 + (a 2 * b 2) ^ 2 + (a 1 * b 2 + a 2 * b 1) ^ 2
      + (a 0 * b 2 + a 2 * b 0) ^ 2 + (a 0 * b 1 + a 1 * b 0) ^ 2
      - 2 * ((a 1 * b 1) * (a 2 * b 2) + (a 0 * b 0) * (a 2 * b 2) + (a 0 * b 0) * (a 1 * b 1)) = 1 := by
    linear_combination this
  have e3' : a 1 * b 2 + a 2 * b 1 = 0 := by linarith
  have e4' : a 0 * b 2 + a 2 * b 0 = 0 := by linarith
  have e5' : a 0 * b 1 + a 1 * b 0 = 0 := by linarith
  rw [e0, e1, e2, e3', e4', e5'] at s
  norm_num at s

theorem quad_pos {S : M6} (hS : S.PosDef) {v : Fin 6 → ℝ} (hv : v ≠ 0) :
    0 < ∑ I, ∑ J, v I * S I J * v J := by
  have := hS.dotProduct_mulVec_pos hv
  simpa [dotProduct, Matrix.mulVec, Finset.mul_sum, mul_assoc] using this

theorem young_denominator_pos {C : M6} (hC : C.PosDef) {a : V3} (h : UnitVector a) :
    0 < contract4 (sTensor C⁻¹) a a a a := by
  rw [contract4_voigt]
  exact quad_pos hC.inv (dyad_ne_zero h)

theorem shear_denominator_pos {C : M6} (hC : C.PosDef) {a b : V3} (h : Orthonormal a b) :
    0 < contract4 (sTensor C⁻¹) a b a b := by
  rw [contract4_voigt]
  exact quad_pos hC.inv (dyad_ne_zero' h)

/-! ### Direction vectors -/

theorem vector_unit (t p : ℝ) : UnitVector (vector t p) := by
  simp only [UnitVector, dot, vector, Fin.sum_univ_three, Matrix.cons_val]
  have h1 := Real.sin_sq_add_cos_sq t
  have h2 := Real.sin_sq_add_cos_sq p
  linear_combination h1 + Real.sin t ^ 2 * h2

theorem vectorChi_unit (t p x : ℝ) : UnitVector (vectorChi t p x) := by
  simp only [UnitVector, dot, vectorChi, Fin.sum_univ_three, Matrix.cons_val]
  have h1 := Real.sin_sq_add_cos_sq t
  have h2 := Real.sin_sq_add_cos_sq p
  have h3 := Real.sin_sq_add_cos_sq x
  linear_combination h3 + Real.cos x ^ 2 * h1 +
    (Real.cos t ^ 2 * Real.cos x ^ 2 + Real.sin x ^ 2) * h2

theorem vector_orthogonal (t p x : ℝ) : dot (vector t p) (vectorChi t p x) = 0 := by
  simp only [dot, vector, vectorChi, Fin.sum_univ_three, Matrix.cons_val]
  have h2 := Real.sin_sq_add_cos_sq p
  linear_combination Real.sin t * Real.cos t * Real.cos x * h2

theorem exists_polar (r x y : ℝ) (hr : 0 ≤ r) (h : x ^ 2 + y ^ 2 = r ^ 2) :
    ∃ φ, x = r * Real.cos φ ∧ y = r * Real.sin φ := by
  refine ⟨Complex.arg ⟨x, y⟩, ?_⟩
  have hn : ‖(⟨x, y⟩ : ℂ)‖ = r := by
    rw [Complex.norm_eq_sqrt_sq_add_sq]
    simp only
    rw [h, Real.sqrt_sq hr]
  have h1 := Complex.norm_mul_cos_arg (⟨x, y⟩ : ℂ)
  have h2 := Complex.norm_mul_sin_arg (⟨x, y⟩ : ℂ)
  rw [hn] at h1 h2
  exact ⟨h1.symm, h2.symm⟩

theorem exists_vector {a : V3} (h : UnitVector a) :
    ∃ t p, 0 ≤ t ∧ t ≤ Real.pi ∧ a = vector t p := by
  simp only [UnitVector, dot, Fin.sum_univ_three] at h
  have h2 : a 2 ^ 2 ≤ 1 := by nlinarith [sq_nonneg (a 0), sq_nonneg (a 1)]
  have hle := abs_le_one_iff_mul_self_le_one.2 (by nlinarith : a 2 * a 2 ≤ 1)
  obtain ⟨hl, hu⟩ := abs_le.1 hle
  have hc : Real.cos (Real.arccos (a 2)) = a 2 := Real.cos_arccos hl hu
  have hs : 0 ≤ Real.sin (Real.arccos (a 2)) :=
    Real.sin_nonneg_of_nonneg_of_le_pi (Real.arccos_nonneg _) (Real.arccos_le_pi _)
  have hq := Real.sin_sq_add_cos_sq (Real.arccos (a 2))
  rw [hc] at hq
  obtain ⟨p, hp1, hp2⟩ := exists_polar _ (a 0) (a 1) hs (by linear_combination h - hq)
  refine ⟨Real.arccos (a 2), p, Real.arccos_nonneg _, Real.arccos_le_pi _, ?_⟩
  funext i
  fin_cases i
  · exact hp1
  · exact hp2
  · exact hc.symm

theorem exists_vectorChi {t p : ℝ} {b : V3} (hb : UnitVector b) (h : dot (vector t p) b = 0) :
    ∃ x, b = vectorChi t p x := by
  simp only [UnitVector, dot, vector, Fin.sum_univ_three, Matrix.cons_val] at hb h
  set ct := Real.cos t with hct
  set st := Real.sin t
  set cf := Real.cos p
  set sf := Real.sin p
  have h1 : st ^ 2 + ct ^ 2 = 1 := Real.sin_sq_add_cos_sq t
  have h2 : sf ^ 2 + cf ^ 2 = 1 := Real.sin_sq_add_cos_sq p
  obtain ⟨x, hx, hy⟩ := exists_polar 1 (ct * cf * b 0 + ct * sf * b 1 - st * b 2)
    (-sf * b 0 + cf * b 1) zero_le_one (by
      have e : (cf * b 0 + sf * b 1) ^ 2 + (-sf * b 0 + cf * b 1) ^ 2 = b 0 ^ 2 + b 1 ^ 2 := by
        linear_combination (b 0 ^ 2 + b 1 ^ 2) * h2
      linear_combination hb + e + ((cf * b 0 + sf * b 1) ^ 2 + b 2 ^ 2) * h1
        - (st * (cf * b 0 + sf * b 1) + ct * b 2) * h)
  rw [one_mul] at hx hy
  refine ⟨x, ?_⟩
  funext i
  fin_cases i
  · show b 0 = ct * cf * Real.cos x - sf * Real.sin x
    rw [← hx, ← hy]
    linear_combination (-b 0) * h2 - (cf ^ 2 * b 0 + cf * sf * b 1) * h1 + st * cf * h
  · show b 1 = ct * sf * Real.cos x + cf * Real.sin x
    rw [← hx, ← hy]
    linear_combination (-b 1) * h2 - (sf ^ 2 * b 1 + cf * sf * b 0) * h1 + st * sf * h
  · show b 2 = -st * Real.cos x
    rw [← hx]
    linear_combination (-b 2) * h1 + ct * h

end Verif.Elastic
