/-
Properties of the elastic object: C31–C36.
-/
import Verif.Elastic.Averages
import Verif.Elastic.Run

namespace Verif.Elastic
open Verif.Py Spec

/-! ### Sample matrices -/

/-- An isotropic solid with `K = 10`, `G = 6`. -/
noncomputable def sampleIso : M6 := isotropic 10 6

theorem isotropic_symm (K G : ℝ) : (isotropic K G).IsSymm := by
  ext i j
  fin_cases i <;> fin_cases j <;> rfl

theorem sq3 {a b c : ℝ} (h : a ^ 2 + b ^ 2 + c ^ 2 = 0) : a = 0 ∧ b = 0 ∧ c = 0 := by
  have ha := sq_nonneg a
  have hb := sq_nonneg b
  have hc := sq_nonneg c
  refine ⟨?_, ?_, ?_⟩ <;> refine (pow_eq_zero_iff two_ne_zero).1 ?_ <;> linarith

theorem isotropic_posDef {K G : ℝ} (hK : 0 < K) (hG : 0 < G) : (isotropic K G).PosDef := by
  refine Matrix.PosDef.of_dotProduct_mulVec_pos ?_ fun v hv => ?_
  · rw [Matrix.IsHermitian, Matrix.conjTranspose_eq_transpose_of_trivial]
    exact isotropic_symm K G
  · have e : star v ⬝ᵥ (isotropic K G).mulVec v = K * (v 0 + v 1 + v 2) ^ 2
        + 2 / 3 * G * ((v 0 - v 1) ^ 2 + (v 0 - v 2) ^ 2 + (v 1 - v 2) ^ 2)
        + G * (v 3 ^ 2 + v 4 ^ 2 + v 5 ^ 2) := by
      simp only [star_trivial, dotProduct, Matrix.mulVec, isotropic, Matrix.of_apply,
        Fin.sum_univ_six, Matrix.cons_val]
      ring
    rw [e]
    by_contra hn
    push Not at hn
    have h1 : 0 ≤ K * (v 0 + v 1 + v 2) ^ 2 := by positivity
    have h2 : 0 ≤ 2 / 3 * G * ((v 0 - v 1) ^ 2 + (v 0 - v 2) ^ 2 + (v 1 - v 2) ^ 2) := by positivity
    have h3 : 0 ≤ G * (v 3 ^ 2 + v 4 ^ 2 + v 5 ^ 2) := by positivity
    have z1 : (v 0 + v 1 + v 2) ^ 2 = 0 := by
      have : K * (v 0 + v 1 + v 2) ^ 2 = 0 := by linarith
      rcases mul_eq_zero.1 this with h | h
      · exact absurd h hK.ne'
      · exact h
    have z2 : (v 0 - v 1) ^ 2 + (v 0 - v 2) ^ 2 + (v 1 - v 2) ^ 2 = 0 := by
      have : 2 / 3 * G * ((v 0 - v 1) ^ 2 + (v 0 - v 2) ^ 2 + (v 1 - v 2) ^ 2) = 0 := by linarith
      rcases mul_eq_zero.1 this with h | h
      · exact absurd h (by positivity)
      · exact h
    have z3 : v 3 ^ 2 + v 4 ^ 2 + v 5 ^ 2 = 0 := by
      have : G * (v 3 ^ 2 + v 4 ^ 2 + v 5 ^ 2) = 0 := by linarith
      rcases mul_eq_zero.1 this with h | h
      · exact absurd h hG.ne'
      · exact h
    obtain ⟨a1, a2, -⟩ := sq3 z2
    have a3 : v 0 + v 1 + v 2 = 0 := pow_eq_zero_iff (two_ne_zero) |>.1 z1
    obtain ⟨b3, b4, b5⟩ := sq3 z3
    apply hv
    funext i
    fin_cases i
    · show v 0 = 0
      linarith
    · show v 1 = 0
      linarith
    · show v 2 = 0
      linarith
    · exact b3
    · exact b4
    · exact b5

theorem soec_of_det {C : M6} (h : C.det ≠ 0) (d : ℝ) : ∃ s, soec C d = .ok s := by
  unfold soec; rw [if_neg h]; exact ⟨_, rfl⟩

theorem posDef_det {C : M6} (h : C.PosDef) : C.det ≠ 0 :=
  ((Matrix.isUnit_iff_isUnit_det C).1 h.isUnit).ne_zero

/-! ### C31 -/

/-- The identity on symmetric second-rank tensors. -/
noncomputable def symmetricIdentity : T4 := fun i j k l =>
  ((if i = k then 1 else 0) * (if j = l then 1 else 0)
    + (if i = l then 1 else 0) * (if j = k then 1 else 0)) / 2

/-- C31: the tensors of an accepted matrix have both minor symmetries, the major one when the
matrix is symmetric, and are inverse to each other on symmetric tensors, in both orders. -/
theorem C31_tensors (C : M6) (density : ℝ) (s : Soec) (h : soec C density = .ok s) :
    (∀ i j k l, s.Cmat i j k l = s.Cmat j i k l ∧ s.Cmat i j k l = s.Cmat i j l k ∧
      s.Smat i j k l = s.Smat j i k l ∧ s.Smat i j k l = s.Smat i j l k) ∧
    (C.IsSymm → ∀ i j k l, s.Cmat i j k l = s.Cmat k l i j ∧ s.Smat i j k l = s.Smat k l i j) ∧
    (∀ i j m n, ∑ k, ∑ l, s.Cmat i j k l * s.Smat k l m n = symmetricIdentity i j m n) ∧
    (∀ i j m n, ∑ k, ∑ l, s.Smat i j k l * s.Cmat k l m n = symmetricIdentity i j m n) := by
  obtain ⟨hd, rfl⟩ := soec_ok h
  have hu : IsUnit C.det := isUnit_iff_ne_zero.2 hd
  refine ⟨fun i j k l => ⟨?_, ?_, ?_, ?_⟩, fun hs i j k l => ⟨?_, ?_⟩, fun i j m n => ?_,
    fun i j m n => ?_⟩
  · show C _ _ = C _ _; rw [vm_comm i j]
  · show C _ _ = C _ _; rw [vm_comm k l]
  · show sTensor C⁻¹ i j k l = sTensor C⁻¹ j i k l; unfold sTensor; rw [vm_comm i j]
  · show sTensor C⁻¹ i j k l = sTensor C⁻¹ i j l k; unfold sTensor; rw [vm_comm k l]
  · exact hs.apply _ _
  · have hs' : (C⁻¹).IsSymm := by
      have : (C⁻¹).transpose = C⁻¹ := by rw [Matrix.transpose_nonsing_inv, hs]
      exact this
    show sTensor C⁻¹ i j k l = sTensor C⁻¹ k l i j
    unfold sTensor
    rw [sc_comm, hs'.apply]
  · exact (contraction (Matrix.mul_nonsing_inv C hu) i j m n).trans (identity_eq i j m n)
  · exact (contraction' (Matrix.nonsing_inv_mul C hu) i j m n).trans (identity_eq i j m n)

/-- C31: singular matrices, and only those, are refused, by both objects; the seismic object
keeps the same compliance tensor and the stiffness tensor per unit of density. -/
theorem C31_both_modules (C : M6) (density : ℝ) :
    (C.det = 0 → soec C density = .error .valueError ∧ seismic C density = .error .valueError) ∧
    (C.det ≠ 0 → ∃ s s', soec C density = .ok s ∧ seismic C density = .ok s' ∧ s'.Smat = s.Smat ∧
      ∀ i j k l, s'.Cmat i j k l = s.Cmat i j k l * (1000 / density)) := by
  unfold soec seismic
  constructor
  · intro h; simp [h]
  · intro h; simp [h]

example : ∃ s, soec sampleIso 3000 = .ok s :=
  soec_of_det (iso_det (by norm_num) (by norm_num)) _

/-! ### Hooke's law has exactly one response -/

theorem response_unique (C : M6) (hC : C.det ≠ 0) (σ : T2) (hσ : Symm σ) : ∃! ε, Hooke C ε σ :=
  ⟨strainOf C⁻¹ σ, (hooke_iff hC _ σ hσ).2 rfl, fun ε h => (hooke_iff hC ε σ hσ).1 h⟩

/-! ### C32 -/

/-- C32: Young's modulus is the ratio of a uniaxial stress to the axial strain it produces (the
quotient is `inf` in the code when that strain vanishes, which a positive definite stiffness
excludes). -/
theorem C32_young (C : M6) (density : ℝ) (s : Soec) (h : soec C density = .ok s)
    (theta phi p : ℝ) (ε : T2) (hε : Hooke C ε (uniaxial p (vector theta phi))) :
    (along ε (vector theta phi) (vector theta phi) ≠ 0 →
      s.youngModulus (theta, phi) = p / along ε (vector theta phi) (vector theta phi)) ∧
    (C.PosDef → 0 < s.youngModulus (theta, phi) ∧
      (p ≠ 0 → along ε (vector theta phi) (vector theta phi) ≠ 0)) := by
  obtain ⟨hd, rfl⟩ := soec_ok h
  rw [hooke_iff hd _ _ (symm_uniaxial _ _)] at hε
  subst hε
  rw [along_uniaxial]
  constructor
  · intro hne
    have hp : p ≠ 0 := left_ne_zero_of_mul hne
    show 1 / contract4 _ _ _ _ _ = _
    rw [div_mul_eq_div_div, div_self hp]
  · intro hC
    have hpos := young_denominator_pos hC (vector_unit theta phi)
    refine ⟨?_, fun hp => mul_ne_zero hp hpos.ne'⟩
    show 0 < 1 / contract4 _ _ _ _ _
    positivity

/-- C32: linear compressibility is minus the axial strain per unit of hydrostatic pressure,
times 1000. -/
theorem C32_compressibility (C : M6) (density : ℝ) (s : Soec) (h : soec C density = .ok s)
    (theta phi p : ℝ) (hp : p ≠ 0) (ε : T2) (hε : Hooke C ε (hydrostatic p)) :
    s.linearCompressibility (theta, phi) =
      1000 * (-along ε (vector theta phi) (vector theta phi) / p) := by
  obtain ⟨hd, rfl⟩ := soec_ok h
  rw [hooke_iff hd _ _ (symm_hydrostatic _)] at hε
  subst hε
  rw [along_hydrostatic]
  show 1000 * _ = _
  congr 1
  rw [neg_mul, neg_neg, mul_div_cancel_left₀ _ hp]

/-- C32: the two curves of the polar plot are the positive part and the absolute value of the
negative part of the linear compressibility. -/
theorem C32_polar (s : Soec) (x : ℝ × ℝ) :
    0 ≤ (s.polarCompressibility x).1 ∧ 0 ≤ (s.polarCompressibility x).2 ∧
    (s.polarCompressibility x).1 - (s.polarCompressibility x).2 = s.linearCompressibility x ∧
    (s.polarCompressibility x).1 + (s.polarCompressibility x).2 = |s.linearCompressibility x| := by
  unfold Soec.polarCompressibility
  rcases le_total 0 (s.linearCompressibility x) with h | h
  · simp [max_eq_right h, max_eq_left (neg_nonpos.2 h), abs_of_nonneg h, h]
  · simp [max_eq_left h, max_eq_right (neg_nonneg.2 h), abs_of_nonpos h, h]

/-- C32: both are unchanged when the direction is reversed. -/
theorem C32_reversal (s : Soec) (x y : ℝ × ℝ) (h : vector y.1 y.2 = -vector x.1 x.2) :
    s.youngModulus y = s.youngModulus x ∧
    s.linearCompressibility y = s.linearCompressibility x := by
  unfold Soec.youngModulus Soec.linearCompressibility
  rw [h]
  constructor
  · unfold youngAlong contract4
    congr 1
    refine Finset.sum_congr rfl fun i _ => Finset.sum_congr rfl fun j _ =>
      Finset.sum_congr rfl fun k _ => Finset.sum_congr rfl fun l _ => ?_
    simp only [Pi.neg_apply]; ring
  · unfold compressibilityAlong
    congr 1
    refine Finset.sum_congr rfl fun i _ => Finset.sum_congr rfl fun j _ =>
      Finset.sum_congr rfl fun k _ => ?_
    simp only [Pi.neg_apply]; ring

/-- Antipodal angles satisfy the hypothesis of `C32_reversal`. -/
example (theta phi : ℝ) : vector (Real.pi - theta) (phi + Real.pi) = -vector theta phi := by
  funext i
  fin_cases i <;> simp [vector, Real.cos_add_pi, Real.sin_add_pi, Real.sin_pi_sub, Real.cos_pi_sub]

/-- C32: an isotropic solid has the same Young's modulus `9KG/(3K+G)` and linear compressibility
`1000/(3K)` in every direction. -/
theorem C32_isotropic (K G density : ℝ) (hK : K ≠ 0) (hG : G ≠ 0) (_ : 3 * K + G ≠ 0) (s : Soec)
    (h : soec (isotropic K G) density = .ok s) (x : ℝ × ℝ) :
    s.youngModulus x = 9 * K * G / (3 * K + G) ∧ s.linearCompressibility x = 1000 / (3 * K) := by
  obtain ⟨hd, rfl⟩ := soec_ok h
  have hu : dot (vector x.1 x.2) (vector x.1 x.2) = 1 := vector_unit x.1 x.2
  constructor
  · show 1 / contract4 _ _ _ _ _ = _
    rw [iso_inv hK hG, iso_contract, hu]
    have : (1 / (9 * K) - 1 / (6 * G)) * (1 * 1) + 1 / (4 * G) * (1 * 1 + 1 * 1)
        = (3 * K + G) / (9 * K * G) := by field_simp; ring
    rw [this, one_div_div]
  · show compressibilityAlong _ _ = _
    rw [iso_inv hK hG, iso_compressibility, hu]
    field_simp

/-- The hypotheses of C32–C33 are met: the sample solid under unit tension along any direction. -/
example (theta phi : ℝ) : ∃ s ε, soec sampleIso 3000 = .ok s ∧ sampleIso.PosDef ∧
    Hooke sampleIso ε (uniaxial 1 (vector theta phi)) := by
  have hp := isotropic_posDef (K := 10) (G := 6) (by norm_num) (by norm_num)
  obtain ⟨s, hs⟩ := soec_of_det (posDef_det hp) 3000
  obtain ⟨ε, hε, -⟩ := response_unique sampleIso (posDef_det hp) _ (symm_uniaxial 1 (vector theta phi))
  exact ⟨s, ε, hs, hp, hε⟩

/-! ### C33 -/

/-- C33: the shear modulus is the shear stress divided by the engineering shear strain it
produces on the same pair of directions. -/
theorem C33_shear (C : M6) (density : ℝ) (s : Soec) (h : soec C density = .ok s)
    (theta phi chi p : ℝ) (ε : T2)
    (hε : Hooke C ε (shear p (vector theta phi) (vectorChi theta phi chi))) :
    -- `p` is the shear stress on the pair of directions
    along (shear p (vector theta phi) (vectorChi theta phi chi)) (vector theta phi)
      (vectorChi theta phi chi) = p ∧
    (along ε (vector theta phi) (vectorChi theta phi chi) ≠ 0 →
      s.shearModulus (theta, phi, chi) =
        p / (2 * along ε (vector theta phi) (vectorChi theta phi chi))) ∧
    (C.PosDef → 0 < s.shearModulus (theta, phi, chi) ∧
      (p ≠ 0 → along ε (vector theta phi) (vectorChi theta phi chi) ≠ 0)) := by
  obtain ⟨hd, rfl⟩ := soec_ok h
  rw [hooke_iff hd _ _ (symm_shear _ _ _)] at hε
  subst hε
  rw [along_shear]
  have ha : dot (vector theta phi) (vector theta phi) = 1 := vector_unit theta phi
  have hb : dot (vectorChi theta phi chi) (vectorChi theta phi chi) = 1 := vectorChi_unit theta phi chi
  have hab := vector_orthogonal theta phi chi
  refine ⟨?_, fun hne => ?_, fun hC => ?_⟩
  · have e : ∀ a b : V3, along (shear p a b) a b = p * (dot a a * dot b b + dot a b * dot a b) := by
      intro a b
      simp only [along, shear, dot, Fin.sum_univ_three]
      ring
    rw [e, ha, hb, hab]
    ring
  · have hp : p ≠ 0 := left_ne_zero_of_mul hne
    show shearAlong _ _ _ = _
    rw [shearAlong_eq]
    have : 2 * (p * (2 * contract4 (sTensor C⁻¹) (vector theta phi) (vectorChi theta phi chi)
        (vector theta phi) (vectorChi theta phi chi))) =
        p * (4 * contract4 (sTensor C⁻¹) (vector theta phi) (vectorChi theta phi chi)
        (vector theta phi) (vectorChi theta phi chi)) := by ring
    rw [this, div_mul_eq_div_div p, div_self hp]
  · have hpos := shear_denominator_pos hC ⟨ha, hb, hab⟩
    refine ⟨?_, fun hp => ?_⟩
    · show 0 < shearAlong _ _ _
      rw [shearAlong_eq]
      positivity
    · exact mul_ne_zero hp (by positivity)

/-- C33: Poisson's ratio is minus the transverse strain over the axial strain under uniaxial
stress. -/
theorem C33_poisson (C : M6) (density : ℝ) (hs : C.IsSymm) (s : Soec) (h : soec C density = .ok s)
    (theta phi chi p : ℝ) (ε : T2) (hε : Hooke C ε (uniaxial p (vector theta phi)))
    (hne : along ε (vector theta phi) (vector theta phi) ≠ 0) :
    s.poissonRatio (theta, phi, chi) =
      -along ε (vectorChi theta phi chi) (vectorChi theta phi chi) /
        along ε (vector theta phi) (vector theta phi) := by
  obtain ⟨hd, rfl⟩ := soec_ok h
  rw [hooke_iff hd _ _ (symm_uniaxial _ _)] at hε
  subst hε
  rw [along_uniaxial] at hne
  rw [along_uniaxial, along_uniaxial]
  have hp : p ≠ 0 := left_ne_zero_of_mul hne
  have hs' : (C⁻¹).IsSymm := by
    have : (C⁻¹).transpose = C⁻¹ := by rw [Matrix.transpose_nonsing_inv, hs]
    exact this
  show poissonAlong _ _ _ = _
  rw [poissonAlong_eq, contract4_symm hs', ← mul_neg, mul_div_mul_left _ _ hp]

/-- C33: the shear modulus is symmetric in the two directions, and `ν_ab/E_a = ν_ba/E_b`, for
every pair of angle triples that describes the two directions in the two orders. -/
theorem C33_reciprocity (C : M6) (density : ℝ) (hC : C.PosDef) (s : Soec)
    (h : soec C density = .ok s) (x y : ℝ × ℝ × ℝ)
    (h1 : vector y.1 y.2.1 = vectorChi x.1 x.2.1 x.2.2)
    (h2 : vectorChi y.1 y.2.1 y.2.2 = vector x.1 x.2.1) :
    s.shearModulus y = s.shearModulus x ∧
    s.poissonRatio x / s.youngModulus (x.1, x.2.1) =
      s.poissonRatio y / s.youngModulus (y.1, y.2.1) := by
  obtain ⟨hd, rfl⟩ := soec_ok h
  set a := vector x.1 x.2.1 with ha
  set b := vectorChi x.1 x.2.1 x.2.2 with hb
  have hs' : (C⁻¹).IsSymm := posDef_symm hC.inv
  constructor
  · show shearAlong _ (vector y.1 y.2.1) (vectorChi y.1 y.2.1 y.2.2) = shearAlong _ a b
    rw [h1, h2, shearAlong_eq, shearAlong_eq]
    congr 2
    unfold contract4
    rw [Finset.sum_comm]
    refine Finset.sum_congr rfl fun i _ => Finset.sum_congr rfl fun j _ => ?_
    rw [Finset.sum_comm]
    refine Finset.sum_congr rfl fun k _ => Finset.sum_congr rfl fun l _ => ?_
    have : sTensor C⁻¹ j i l k = sTensor C⁻¹ i j k l := by
      unfold sTensor; rw [vm_comm j i, vm_comm l k]
    rw [this]; ring
  · show poissonAlong _ a b / youngAlong _ a =
      poissonAlong _ (vector y.1 y.2.1) (vectorChi y.1 y.2.1 y.2.2) / youngAlong _ (vector y.1 y.2.1)
    rw [h1, h2, poissonAlong_eq, poissonAlong_eq, contract4_symm hs' a b]
    have p1 := young_denominator_pos hC (vector_unit x.1 x.2.1)
    have p2 := young_denominator_pos hC (vectorChi_unit x.1 x.2.1 x.2.2)
    rw [← ha] at p1
    rw [← hb] at p2
    unfold youngAlong
    rw [div_div_eq_mul_div, div_div_eq_mul_div]
    field_simp

/-- Angles that exchange the two directions exist: the pair (x, y). -/
example : vector (Real.pi / 2) (Real.pi / 2) = vectorChi (Real.pi / 2) 0 (Real.pi / 2) ∧
    vectorChi (Real.pi / 2) (Real.pi / 2) (-(Real.pi / 2)) = vector (Real.pi / 2) 0 := by
  constructor <;> funext i <;> fin_cases i <;> simp [vector, vectorChi]

/-! ### C34 -/

/-- C34: for a stiffness of orthorhombic form the closed forms of the fast path and the tensor
contractions give the same numbers for every choice of angles. -/
theorem C34_fast_path (C : M6) (hC : OrthorhombicForm C) (density : ℝ) (s : Soec)
    (h : soec C density = .ok s) :
    (∀ x, orthoYoung s.Smat x = s.youngModulus x) ∧
    (∀ x, orthoCompressibility s.Smat x = s.linearCompressibility x) ∧
    (∀ x, orthoShear s.Smat x = s.shearModulus x) ∧
    (∀ x, orthoPoisson s.Smat x = s.poissonRatio x) := by
  obtain ⟨hd, rfl⟩ := soec_ok h
  have ho := ortho_inv hC hd
  exact ⟨ortho_young ho, ortho_compressibility ho, ortho_shear ho, ortho_poisson ho⟩

/-- C34: whatever the classifier decided, the object kept by the calculator returns the generic
values when the stiffness has orthorhombic form. -/
theorem C34_calculator (C : M6) (hC : OrthorhombicForm C) (density : ℝ) (sys : System) (o : Solid)
    (h : load C density = .ok (sys, o)) (s : Soec) (hs : soec C density = .ok s) :
    (∀ x, o.youngModulus x = s.youngModulus x) ∧
    (∀ x, o.linearCompressibility x = s.linearCompressibility x) ∧
    (∀ x, o.shearModulus x = s.shearModulus x) ∧
    (∀ x, o.poissonRatio x = s.poissonRatio x) := by
  obtain ⟨h1, h2, h3, h4⟩ := C34_fast_path C hC density s hs
  unfold load at h
  simp only [bind, Except.bind, hs] at h
  split at h
  · cases h
  · simp only [pure, Except.pure, Except.ok.injEq, Prod.mk.injEq] at h
    obtain ⟨rfl, rfl⟩ := h
    refine ⟨fun x => ?_, fun x => ?_, fun x => ?_, fun x => ?_⟩
    · unfold Solid.youngModulus; split
      · exact h1 x
      · rfl
    · unfold Solid.linearCompressibility; split
      · exact h2 x
      · rfl
    · unfold Solid.shearModulus; split
      · exact h3 x
      · rfl
    · unfold Solid.poissonRatio; split
      · exact h4 x
      · rfl

/-! ### C35 -/

/-- C35: the first direction and the measurement direction are orthonormal for all angles. -/
theorem C35_orthonormal (theta phi chi : ℝ) :
    Orthonormal (vector theta phi) (vectorChi theta phi chi) :=
  ⟨vector_unit _ _, vectorChi_unit _ _ _, vector_orthogonal _ _ _⟩

/-- C35: every orthonormal pair is described by some angles, so no pair is left out. -/
theorem C35_complete (a b : V3) (h : Orthonormal a b) :
    ∃ theta phi chi, a = vector theta phi ∧ b = vectorChi theta phi chi := by
  obtain ⟨ha, hb, hab⟩ := h
  obtain ⟨t, p, -, -, rfl⟩ := exists_vector ha
  obtain ⟨x, hx⟩ := exists_vectorChi hb hab
  exact ⟨t, p, x, rfl, hx⟩

/-- C35: the direction functions of the three modules agree. -/
theorem C35_modules (theta phi : ℝ) :
    seismicVector theta phi = vector theta phi ∧ fastVector theta phi = vector theta phi := by
  constructor
  · rfl
  · funext i
    fin_cases i <;> simp [fastVector, vector]

example : Orthonormal ![1, 0, 0] ![0, 0, 1] := by
  refine ⟨?_, ?_, ?_⟩ <;> simp [UnitVector, dot, Fin.sum_univ_three]

/-! ### C36 -/

/-- C36: for a positive definite stiffness all moduli are positive, Reuss never exceeds Voigt and
Hill lies between. -/
theorem C36_ordered (C : M6) (hC : C.PosDef) (density : ℝ) (s : Soec)
    (h : soec C density = .ok s) :
    0 < s.averages.reuss.K ∧ s.averages.reuss.K ≤ s.averages.hill.K ∧
    s.averages.hill.K ≤ s.averages.voigt.K ∧
    0 < s.averages.reuss.G ∧ s.averages.reuss.G ≤ s.averages.hill.G ∧
    s.averages.hill.G ≤ s.averages.voigt.G := by
  obtain ⟨hd, rfl⟩ := soec_ok h
  have hK := reuss_le_voigt_K hC
  have hG := reuss_le_voigt_G hC
  have hK0 := KRinv_pos hC
  have hG0 := GRinv_pos hC
  have k0 : 0 < 1 / einsum_iijj (sTensor C⁻¹) := by positivity
  have g0 : 0 < reussG C⁻¹ := by unfold reussG; positivity
  simp only [Soec.averages, averageRow]
  have e : (0.5 : ℝ) = 1 / 2 := by norm_num
  rw [e]
  refine ⟨k0, ?_, ?_, g0, ?_, ?_⟩ <;> linarith

/-- C36: each scheme satisfies the relations between the isotropic moduli. -/
theorem C36_relations (C : M6) (hC : C.PosDef) (density : ℝ) (s : Soec)
    (h : soec C density = .ok s) (a : Average)
    (ha : a = s.averages.voigt ∨ a = s.averages.reuss ∨ a = s.averages.hill) :
    a.E = 9 * a.K * a.G / (3 * a.K + a.G) ∧ a.nu = (3 * a.K - 2 * a.G) / (2 * (3 * a.K + a.G)) ∧
    a.E = 2 * a.G * (1 + a.nu) := by
  obtain ⟨k1, k2, k3, g1, g2, g3⟩ := C36_ordered C hC density s h
  rcases ha with rfl | rfl | rfl
  · exact averageRow_relations (k1.trans_le (k2.trans k3)) (g1.trans_le (g2.trans g3))
  · exact averageRow_relations k1 g1
  · exact averageRow_relations (k1.trans_le k2) (g1.trans_le g2)

/-- C36: for an isotropic solid the three schemes coincide with its moduli. -/
theorem C36_isotropic (K G density : ℝ) (hK : K ≠ 0) (hG : G ≠ 0) (s : Soec)
    (h : soec (isotropic K G) density = .ok s) (a : Average)
    (ha : a = s.averages.voigt ∨ a = s.averages.reuss ∨ a = s.averages.hill) :
    a.K = K ∧ a.G = G := by
  obtain ⟨hd, rfl⟩ := soec_ok h
  have kv : einsum_iijj (cTensor (isotropic K G)) / 9 = K := by
    simp only [einsum_iijj, cTensor, vm, isotropic, Matrix.of_apply, Fin.sum_univ_three, Matrix.cons_val]
    ring
  have kr : 1 / einsum_iijj (sTensor (isotropic K G)⁻¹) = K := by
    rw [iso_inv hK hG, einsum_s]
    have e : quad (isoS K G) ![1, 1, 1, 0, 0, 0] ![1, 1, 1, 0, 0, 0] = 1 / K := by
      simp only [quad, isoS, Matrix.of_apply, Fin.sum_univ_six, Matrix.cons_val]
      ring
    rw [e, one_div_one_div]
  have gv : voigtG (isotropic K G) = G := by
    simp only [voigtG, isotropic, Matrix.of_apply, Matrix.cons_val]
    ring
  have gr : reussG (isotropic K G)⁻¹ = G := by
    rw [iso_inv hK hG]
    have e : 4 * (isoS K G 0 0 + isoS K G 1 1 + isoS K G 2 2)
        - 4 * (isoS K G 0 1 + isoS K G 0 2 + isoS K G 1 2)
        + 3 * (isoS K G 3 3 + isoS K G 4 4 + isoS K G 5 5) = 15 / G := by
      simp only [isoS, Matrix.of_apply, Matrix.cons_val]
      ring
    rw [reussG, e]
    field_simp
  rcases ha with rfl | rfl | rfl
  · exact ⟨kv, gv⟩
  · exact ⟨kr, gr⟩
  · simp only [Soec.averages, averageRow, kv, kr, gv, gr]
    constructor <;> ring

/-- C36: the seismic object reports the Hill averages of the elastic object. -/
theorem C36_modules (C : M6) (density : ℝ) (hd : density ≠ 0) (s : Soec) (s' : Seismic)
    (h : soec C density = .ok s) (h' : seismic C density = .ok s') :
    s'.bulkModulus = s.averages.hill.K ∧ s'.shearModulus = s.averages.hill.G ∧
    s'.isotropicVelocity = s.isotropicVelocities := by
  obtain ⟨_, rfl⟩ := soec_ok h
  obtain ⟨_, hs'⟩ := seismic_ok h'
  have hb : s'.bulkModulus =
      0.5 * (einsum_iijj (cTensor C) / 9 + 1 / einsum_iijj (sTensor C⁻¹)) := by
    have e : (fun i j k l => cTensor C i j k l * (1000 / density) * density / 1000) = cTensor C := by
      funext i j k l
      field_simp
    rw [hs']
    simp only [Seismic.bulkModulus, e]
    ring
  have hg : s'.shearModulus = 0.5 * (voigtG C + reussG C⁻¹) := by rw [hs']; rfl
  have hden : s'.density = density := by rw [hs']
  refine ⟨hb, hg, ?_⟩
  unfold Seismic.isotropicVelocity Soec.isotropicVelocities
  rw [hb, hg, hden]
  rfl

example : ∃ s, soec sampleIso 3000 = .ok s ∧ sampleIso.PosDef := by
  have hp := isotropic_posDef (K := 10) (G := 6) (by norm_num) (by norm_num)
  obtain ⟨s, hs⟩ := soec_of_det (posDef_det hp) 3000
  exact ⟨s, hs, hp⟩

end Verif.Elastic
