/-
Property C160: a crystal between two isotropic media has its moduli between theirs; a cubic crystal lies between the isotropic
media of its bulk modulus and of the smaller and the larger of its two shear constants.
-/
import Verif.Elastic.Classes
import Verif.Elastic.Stiffer

namespace Verif.Elastic
open Verif.Py Spec

/-! ### Specification -/

/-- Young's modulus of an isotropic medium. -/
noncomputable def Spec.youngOf (K G : ℝ) : ℝ := 9 * K * G / (3 * K + G)

/-- The bulk modulus of a cubic crystal. -/
noncomputable def Spec.cubicBulk (C : M6) : ℝ := (C 0 0 + 2 * C 0 1) / 3

/-- The shear constant of a cubic crystal for shears along the diagonals of its faces, `(C11 - C12)/2`; the one for shears
along its edges is `C44`. -/
noncomputable def Spec.faceShear (C : M6) : ℝ := (C 0 0 - C 0 1) / 2

/-! ### Isotropic media -/

theorem isotropic_cubic (K G : ℝ) : Cubic (isotropic K G) := by
  refine ⟨isotropic_symm K G, ?_, rfl, rfl, rfl, rfl, rfl, rfl⟩
  intro i j hij h
  fin_cases i <;> fin_cases j <;> first | rfl | exact absurd rfl hij | exact absurd h (by decide)

theorem isotropic_young {K G density : ℝ} (hK : 0 < K) (hG : 0 < G) {s : Soec} (hs : soec (isotropic K G) density = .ok s)
    (x : ℝ × ℝ) : s.youngModulus x = youngOf K G := by
  obtain ⟨theta, phi⟩ := x
  rw [C125_cubic_young (isotropic_cubic K G) (isotropic_posDef hK hG) hs theta phi _ _ _ rfl rfl rfl]
  have e0 : isotropic K G 0 0 = K + 4 * G / 3 := rfl
  have e1 : isotropic K G 0 1 = K - 2 * G / 3 := rfl
  have e3 : isotropic K G 3 3 = G := rfl
  rw [e0, e1, e3]
  have z : (K + 4 * G / 3 + (K - 2 * G / 3)) / ((K + 4 * G / 3 - (K - 2 * G / 3)) * (K + 4 * G / 3 + 2 * (K - 2 * G / 3))) -
      -(K - 2 * G / 3) / ((K + 4 * G / 3 - (K - 2 * G / 3)) * (K + 4 * G / 3 + 2 * (K - 2 * G / 3))) - 1 / G / 2 = 0 := by
    have a : K + 4 * G / 3 - (K - 2 * G / 3) = 2 * G := by ring
    have b : K + 4 * G / 3 + 2 * (K - 2 * G / 3) = 3 * K := by ring
    rw [a, b]
    field_simp
    ring
  rw [z, mul_zero, zero_mul, sub_zero]
  have a : K + 4 * G / 3 - (K - 2 * G / 3) = 2 * G := by ring
  have b : K + 4 * G / 3 + 2 * (K - 2 * G / 3) = 3 * K := by ring
  rw [a, b, youngOf, one_div_div]
  have : 0 < 3 * K + G := by positivity
  have : K + 4 * G / 3 + (K - 2 * G / 3) = 2 * (3 * K + G) / 3 := by ring
  rw [this]
  field_simp
  ring

theorem isotropic_shear {K G density : ℝ} (hK : 0 < K) (hG : 0 < G) {s : Soec} (hs : soec (isotropic K G) density = .ok s)
    (x : ℝ × ℝ × ℝ) : s.shearModulus x = G := by
  obtain ⟨theta, phi, chi⟩ := x
  obtain ⟨-, -, hab⟩ := C35_orthonormal theta phi chi
  have hh : Hooke (isotropic K G) (fun i j => shear 1 (vector theta phi) (vectorChi theta phi chi) i j / (2 * G))
      (shear 1 (vector theta phi) (vectorChi theta phi chi)) := by
    refine (hooke_cubic (isotropic_cubic K G)).2 ⟨fun i j => by simp only [shear]; ring, fun i j => by simp only [shear]; ring,
      fun i => ?_, fun i j _ => ?_⟩
    · have e0 : isotropic K G 0 0 - isotropic K G 0 1 = 2 * G := by
        show K + 4 * G / 3 - (K - 2 * G / 3) = 2 * G
        ring
      have tr : ∑ j, shear 1 (vector theta phi) (vectorChi theta phi chi) j j / (2 * G) = 0 := by
        simp only [dot, Fin.sum_univ_three] at hab
        simp only [shear, Fin.sum_univ_three]
        linear_combination 1 / G * hab
      rw [e0, tr]
      field_simp
      ring
    · show _ = 2 * G * _
      field_simp
  obtain ⟨h1, h2, h3⟩ := C33_shear _ _ s hs theta phi chi 1 _ hh
  rw [h2 ((h3 (isotropic_posDef hK hG)).2 one_ne_zero)]
  have : along (fun i j => shear 1 (vector theta phi) (vectorChi theta phi chi) i j / (2 * G)) (vector theta phi)
      (vectorChi theta phi chi) = 1 / (2 * G) := by
    have e : along (fun i j => shear 1 (vector theta phi) (vectorChi theta phi chi) i j / (2 * G)) (vector theta phi)
        (vectorChi theta phi chi) = along (shear 1 (vector theta phi) (vectorChi theta phi chi)) (vector theta phi)
          (vectorChi theta phi chi) / (2 * G) := by
      simp only [along, Fin.sum_univ_three]
      ring
    rw [e, h1]
  rw [this]
  field_simp

/-! ### C160 -/

/-- C160: a stable crystal that is stiffer than one isotropic medium and softer than another has Young's modulus and the
shear modulus of every direction, and the averages, between those of the two media. -/
theorem C160_between {C : M6} (hC : C.PosDef) {K G K' G' : ℝ} (hK : 0 < K) (hG : 0 < G) (hK' : 0 < K') (hG' : 0 < G')
    (h : Stiffer (isotropic K G) C) (h' : Stiffer C (isotropic K' G')) {density : ℝ} {s : Soec}
    (hs : soec C density = .ok s) :
    (∀ x, youngOf K G ≤ s.youngModulus x ∧ s.youngModulus x ≤ youngOf K' G') ∧
    (∀ x, G ≤ s.shearModulus x ∧ s.shearModulus x ≤ G') ∧
    ∀ a ∈ [s.averages.voigt, s.averages.reuss, s.averages.hill], K ≤ a.K ∧ a.K ≤ K' ∧ G ≤ a.G ∧ a.G ≤ G' := by
  have hp := isotropic_posDef hK hG
  have hp' := isotropic_posDef hK' hG'
  obtain ⟨s1, h1⟩ := soec_of_det (posDef_det hp) density
  obtain ⟨s2, h2⟩ := soec_of_det (posDef_det hp') density
  refine ⟨fun x => ?_, fun x => ?_, fun a ha => ?_⟩
  · have a := (C129_directional hp hC h h1 hs x.1 x.2 0).1
    have b := (C129_directional hC hp' h' hs h2 x.1 x.2 0).1
    rw [isotropic_young hK hG h1] at a
    rw [isotropic_young hK' hG' h2] at b
    exact ⟨a, b⟩
  · have a := (C129_directional hp hC h h1 hs x.1 x.2.1 x.2.2).2
    have b := (C129_directional hC hp' h' hs h2 x.1 x.2.1 x.2.2).2
    rw [isotropic_shear hK hG h1] at a
    rw [isotropic_shear hK' hG' h2] at b
    exact ⟨a, b⟩
  · obtain ⟨a1, a2, a3, -⟩ := C129_averages hp hC h h1 hs
    obtain ⟨b1, b2, b3, -⟩ := C129_averages hC hp' h' hs h2
    have i1 := fun a ha => C36_isotropic K G density hK.ne' hG.ne' s1 h1 a ha
    have i2 := fun a ha => C36_isotropic K' G' density hK'.ne' hG'.ne' s2 h2 a ha
    have fin : ∀ a b c : Average, Softer a b → Softer b c → a.K = K ∧ a.G = G → c.K = K' ∧ c.G = G' →
        K ≤ b.K ∧ b.K ≤ K' ∧ G ≤ b.G ∧ b.G ≤ G' := by
      rintro a b c ⟨x1, x2, -⟩ ⟨y1, y2, -⟩ ⟨rfl, rfl⟩ ⟨rfl, rfl⟩
      exact ⟨x1, y1, x2, y2⟩
    simp only [List.mem_cons, List.not_mem_nil, or_false] at ha
    rcases ha with rfl | rfl | rfl
    · exact fin _ _ _ a1 b1 (i1 _ (.inl rfl)) (i2 _ (.inl rfl))
    · exact fin _ _ _ a2 b2 (i1 _ (.inr (.inl rfl))) (i2 _ (.inr (.inl rfl)))
    · exact fin _ _ _ a3 b3 (i1 _ (.inr (.inr rfl))) (i2 _ (.inr (.inr rfl)))

/-- The elastic energy of a cubic crystal. -/
theorem cubic_energy {C : M6} (hC : Cubic C) {ε σ : T2} (h : Hooke C ε σ) :
    energy ε σ = (cubicBulk C * (ε 0 0 + ε 1 1 + ε 2 2) ^ 2 +
      2 / 3 * faceShear C * ((ε 0 0 - ε 1 1) ^ 2 + (ε 0 0 - ε 2 2) ^ 2 + (ε 1 1 - ε 2 2) ^ 2) +
      4 * C 3 3 * (ε 0 1 ^ 2 + ε 0 2 ^ 2 + ε 1 2 ^ 2)) / 2 := by
  obtain ⟨hε, hσ, hd, ho⟩ := (hooke_cubic hC).1 h
  have e1 := hε 1 0
  have e2 := hε 2 0
  have e3 := hε 2 1
  simp only [energy, Fin.sum_univ_three, hd, ho 0 1 (by decide), ho 0 2 (by decide), ho 1 0 (by decide), ho 1 2 (by decide),
    ho 2 0 (by decide), ho 2 1 (by decide), e1, e2, e3, cubicBulk, faceShear]
  ring

theorem isotropic_constants (K G : ℝ) : cubicBulk (isotropic K G) = K ∧ faceShear (isotropic K G) = G ∧ isotropic K G 3 3 = G := by
  refine ⟨?_, ?_, rfl⟩
  · show (K + 4 * G / 3 + 2 * (K - 2 * G / 3)) / 3 = K
    ring
  · show (K + 4 * G / 3 - (K - 2 * G / 3)) / 2 = G
    ring

/-- A stable cubic crystal has positive bulk modulus and shear constants. -/
theorem cubic_positive {C : M6} (hC : Cubic C) (hp : C.PosDef) : 0 < cubicBulk C ∧ 0 < faceShear C ∧ 0 < C 3 3 := by
  have q : ∀ v : Fin 6 → ℝ, v ≠ 0 → 0 < v ⬝ᵥ C.mulVec v := fun v hv => by simpa using hp.dotProduct_mulVec_pos hv
  have a := q ![1, 1, 1, 0, 0, 0] fun h => by simpa using congrFun h 0
  have b := q ![1, -1, 0, 0, 0, 0] fun h => by simpa using congrFun h 0
  have c := q ![0, 0, 0, 1, 0, 0] fun h => by simpa using congrFun h 3
  rw [cubic_mulVec hC] at a
  rw [cubic_mulVec' hC] at b
  rw [cubic_mulVec'' hC] at c
  simp [dotProduct, Fin.sum_univ_six] at a b c
  refine ⟨?_, ?_, c⟩
  · unfold cubicBulk; linarith
  · unfold faceShear; linarith

/-- A cubic crystal lies between the isotropic media of its bulk modulus and of its smaller and larger shear constant. -/
theorem cubic_between {C : M6} (hC : Cubic C) :
    Stiffer (isotropic (cubicBulk C) (min (C 3 3) (faceShear C))) C ∧
      Stiffer C (isotropic (cubicBulk C) (max (C 3 3) (faceShear C))) := by
  constructor <;> intro ε σ σ' h1 h2
  · rw [cubic_energy hC h2, cubic_energy (isotropic_cubic _ _) h1, (isotropic_constants _ _).1, (isotropic_constants _ _).2.1,
      (isotropic_constants _ _).2.2]
    have m1 := min_le_left (C 3 3) (faceShear C)
    have m2 := min_le_right (C 3 3) (faceShear C)
    have p1 : 0 ≤ (ε 0 0 - ε 1 1) ^ 2 + (ε 0 0 - ε 2 2) ^ 2 + (ε 1 1 - ε 2 2) ^ 2 := by positivity
    have p2 : 0 ≤ ε 0 1 ^ 2 + ε 0 2 ^ 2 + ε 1 2 ^ 2 := by positivity
    have r1 := mul_le_mul_of_nonneg_right m2 p1
    have r2 := mul_le_mul_of_nonneg_right m1 p2
    linarith
  · rw [cubic_energy hC h1, cubic_energy (isotropic_cubic _ _) h2, (isotropic_constants _ _).1, (isotropic_constants _ _).2.1,
      (isotropic_constants _ _).2.2]
    have m1 := le_max_left (C 3 3) (faceShear C)
    have m2 := le_max_right (C 3 3) (faceShear C)
    have p1 : 0 ≤ (ε 0 0 - ε 1 1) ^ 2 + (ε 0 0 - ε 2 2) ^ 2 + (ε 1 1 - ε 2 2) ^ 2 := by positivity
    have p2 : 0 ≤ ε 0 1 ^ 2 + ε 0 2 ^ 2 + ε 1 2 ^ 2 := by positivity
    have r1 := mul_le_mul_of_nonneg_right m2 p1
    have r2 := mul_le_mul_of_nonneg_right m1 p2
    linarith

/-- C160, cubic crystals: in every direction the shear modulus lies between the two shear constants and Young's modulus
between those of the isotropic media of these constants; so do the averages, which all have the bulk modulus of the crystal. -/
theorem C160_cubic {C : M6} (hC : Cubic C) (hp : C.PosDef) {density : ℝ} {s : Soec} (hs : soec C density = .ok s) :
    let lo := min (C 3 3) (faceShear C)
    let hi := max (C 3 3) (faceShear C)
    (∀ x, youngOf (cubicBulk C) lo ≤ s.youngModulus x ∧ s.youngModulus x ≤ youngOf (cubicBulk C) hi) ∧
    (∀ x, lo ≤ s.shearModulus x ∧ s.shearModulus x ≤ hi) ∧
    ∀ a ∈ [s.averages.voigt, s.averages.reuss, s.averages.hill], a.K = cubicBulk C ∧ lo ≤ a.G ∧ a.G ≤ hi := by
  obtain ⟨h1, h2, h3⟩ := cubic_positive hC hp
  obtain ⟨b1, b2⟩ := cubic_between hC
  obtain ⟨r1, r2, r3⟩ := C160_between hp h1 (lt_min h3 h2) h1 (lt_max_of_lt_left h3) b1 b2 hs
  exact ⟨r1, r2, fun a ha => ⟨le_antisymm (r3 a ha).2.1 (r3 a ha).1, (r3 a ha).2.2⟩⟩

/-- The shear modulus of a pair of directions whose shear is met by one constant. -/
theorem shear_attained {C : M6} (hp : C.PosDef) {density : ℝ} {s : Soec} (hs : soec C density = .ok s) {a b : V3}
    (hab : Spec.Orthonormal a b) {G : ℝ} (hG : 0 < G)
    (h : Hooke C (fun i j => shear 1 a b i j / (2 * G)) (shear 1 a b)) : ∃ x, s.shearModulus x = G := by
  obtain ⟨theta, phi, chi, rfl, rfl⟩ := C35_complete a b hab
  obtain ⟨h1, h2, h3⟩ := C33_shear _ _ s hs theta phi chi 1 _ h
  refine ⟨(theta, phi, chi), ?_⟩
  rw [h2 ((h3 hp).2 one_ne_zero)]
  have e : along (fun i j => shear 1 (vector theta phi) (vectorChi theta phi chi) i j / (2 * G)) (vector theta phi)
      (vectorChi theta phi chi) = along (shear 1 (vector theta phi) (vectorChi theta phi chi)) (vector theta phi)
        (vectorChi theta phi chi) / (2 * G) := by
    simp only [along, Fin.sum_univ_three]
    ring
  rw [e, h1]
  field_simp

/-- C160, sharpness: the bounds for cubic crystals are attained.  Along an edge of the cube Young's modulus is that of the
isotropic medium with the face-diagonal shear constant, along a body diagonal that with `C44`; and some pair of directions
has either shear constant as its shear modulus. -/
theorem C160_attained {C : M6} (hC : Cubic C) (hp : C.PosDef) {density : ℝ} {s : Soec} (hs : soec C density = .ok s) :
    (∀ x : ℝ × ℝ, vector x.1 x.2 = ![0, 0, 1] → s.youngModulus x = youngOf (cubicBulk C) (faceShear C)) ∧
    (∀ x : ℝ × ℝ, (∀ i, vector x.1 x.2 i ^ 2 = 1 / 3) → s.youngModulus x = youngOf (cubicBulk C) (C 3 3)) ∧
    (∃ x, s.shearModulus x = C 3 3) ∧ ∃ x, s.shearModulus x = faceShear C := by
  obtain ⟨pK, pF, p4⟩ := cubic_positive hC hp
  have e0 : C 0 0 = cubicBulk C + 4 * faceShear C / 3 := by unfold cubicBulk faceShear; ring
  have e1 : C 0 1 = cubicBulk C - 2 * faceShear C / 3 := by unfold cubicBulk faceShear; ring
  have d1 : C 0 0 - C 0 1 = 2 * faceShear C := by unfold faceShear; ring
  have d2 : C 0 0 + 2 * C 0 1 = 3 * cubicBulk C := by unfold cubicBulk; ring
  have d3 : C 0 0 + C 0 1 = 2 * (3 * cubicBulk C + faceShear C) / 3 := by rw [e0, e1]; ring
  refine ⟨fun x hx => ?_, fun x hx => ?_, ?_, ?_⟩
  · rw [C125_cubic_young hC hp hs x.1 x.2 _ _ _ rfl rfl rfl, hx, d1, d2, d3, youngOf]
    simp
    field_simp
    ring
  · rw [C125_cubic_young hC hp hs x.1 x.2 _ _ _ rfl rfl rfl, hx, hx, hx, d1, d2, d3, youngOf, e1]
    generalize cubicBulk C = K at *
    generalize faceShear C = F at *
    generalize C 3 3 = G at *
    rw [one_div]
    rw [inv_eq_iff_eq_inv, inv_div]
    field_simp
    ring
  · refine shear_attained hp hs (a := ![0, 0, 1]) (b := ![1, 0, 0])
      ⟨by simp [UnitVector, dot, Fin.sum_univ_three], by simp [UnitVector, dot, Fin.sum_univ_three],
        by simp [dot, Fin.sum_univ_three]⟩ p4 ((hooke_cubic hC).2 ⟨fun i j => by simp only [shear]; ring,
          fun i j => by simp only [shear]; ring, fun i => ?_, fun i j _ => ?_⟩)
    · fin_cases i <;> simp [shear, Fin.sum_univ_three]
    · field_simp
  · have r : (1 / Real.sqrt 2) * (1 / Real.sqrt 2) = 1 / 2 := by
      rw [div_mul_div_comm, Real.mul_self_sqrt (by norm_num), one_mul]
    refine shear_attained hp hs (a := ![1 / Real.sqrt 2, 1 / Real.sqrt 2, 0]) (b := ![1 / Real.sqrt 2, -(1 / Real.sqrt 2), 0])
      ⟨by simp only [UnitVector, dot, Fin.sum_univ_three, Matrix.cons_val]; linear_combination 2 * r,
        by simp only [UnitVector, dot, Fin.sum_univ_three, Matrix.cons_val]; linear_combination 2 * r,
        by simp only [dot, Fin.sum_univ_three, Matrix.cons_val]; ring⟩ pF
      ((hooke_cubic hC).2 ⟨fun i j => by simp only [shear]; ring, fun i j => by simp only [shear]; ring, fun i => ?_,
        fun i j hij => ?_⟩)
    · rw [d1]
      have tr : ∑ j, shear 1 ![1 / Real.sqrt 2, 1 / Real.sqrt 2, 0] ![1 / Real.sqrt 2, -(1 / Real.sqrt 2), 0] j j /
          (2 * faceShear C) = 0 := by
        simp only [shear, Fin.sum_univ_three, Matrix.cons_val]
        ring
      rw [tr]
      field_simp
      ring
    · have z : shear 1 ![1 / Real.sqrt 2, 1 / Real.sqrt 2, 0] ![1 / Real.sqrt 2, -(1 / Real.sqrt 2), 0] i j = 0 := by
        fin_cases i <;> fin_cases j <;> first | exact absurd rfl hij | (simp [shear])
      rw [z]
      simp

/-- Periclase: shear moduli between 101 and 156 GPa. -/
example {density : ℝ} {s : Soec} (hs : soec periclase density = .ok s) (x : ℝ × ℝ × ℝ) :
    101 ≤ s.shearModulus x ∧ s.shearModulus x ≤ 156 := by
  have h := (C160_cubic periclase_cubic periclase_posDef hs).2.1 x
  have e : min (periclase 3 3) (faceShear periclase) = 101 ∧ max (periclase 3 3) (faceShear periclase) = 156 := by
    have a : periclase 3 3 = 156 := rfl
    have b : faceShear periclase = 101 := by
      show ((297 : ℝ) - 95) / 2 = 101
      norm_num
    rw [a, b]
    norm_num
  rwa [e.1, e.2] at h

example {density : ℝ} {s : Soec} (hs : soec periclase density = .ok s) :=
  (C160_attained periclase_cubic periclase_posDef hs).1 (0, 0) (by simp [vector])

end Verif.Elastic
