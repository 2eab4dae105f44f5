/-
Property C141: how much the elastic results can change when the moduli are known, or written, with an error.
-/
import Verif.Elastic.Stiffer
import Verif.Elastic.Scaling
import Verif.Tac

namespace Verif.Elastic
open Verif.Py Spec

/-- The crystal resists every strain: its elastic energy is at least half of `l` times the sum of the squared Voigt components. -/
def Spec.Resists (C : M6) (l : ℝ) : Prop :=
  ∀ ε σ, Hooke C ε σ → l * ∑ I, voigtStrain ε I ^ 2 ≤ 2 * energy ε σ

/-- Two matrices of moduli that differ by at most `t` in each entry. -/
def Spec.Close (C C' : M6) (t : ℝ) : Prop := ∀ i j, |C' i j - C i j| ≤ t

/-- `y` is `x` up to the relative error `r`. -/
def Spec.Within (r x y : ℝ) : Prop := (1 - r) * x ≤ y ∧ y ≤ (1 + r) * x

theorem resists_quad {C : M6} {l : ℝ} (h : Resists C l) (e : Fin 6 → ℝ) : l * ∑ I, e I ^ 2 ≤ quad C e e := by
  have h1 := hooke_unvoigt C e
  have := h _ _ h1
  have w := work h1
  rw [voigt_unvoigtStrain] at this w
  unfold energy at this
  rw [w]
  linarith

theorem close_quad {C C' : M6} {t : ℝ} (h : Close C C' t) (e : Fin 6 → ℝ) :
    |quad C' e e - quad C e e| ≤ 6 * t * ∑ I, e I ^ 2 := by
  have h1 : quad C' e e - quad C e e = ∑ I, ∑ J, e I * (C' I J - C I J) * e J := by
    simp only [quad, ← Finset.sum_sub_distrib]
    exact Finset.sum_congr rfl fun I _ => Finset.sum_congr rfl fun J _ => by ring
  have h2 : ∀ I J, |e I * (C' I J - C I J) * e J| ≤ t * ((e I ^ 2 + e J ^ 2) / 2) := by
    intro I J
    have a1 : |e I * (C' I J - C I J) * e J| = |C' I J - C I J| * (|e I| * |e J|) := by
      rw [abs_mul, abs_mul]; ring
    have a2 : |e I| * |e J| ≤ (e I ^ 2 + e J ^ 2) / 2 := by
      nlinarith [sq_nonneg (|e I| - |e J|), sq_abs (e I), sq_abs (e J)]
    have a3 : 0 ≤ |e I| * |e J| := by positivity
    have a4 := h I J
    have a5 : 0 ≤ t := (abs_nonneg _).trans a4
    rw [a1]
    exact mul_le_mul a4 a2 a3 a5
  calc |quad C' e e - quad C e e| = |∑ I, ∑ J, e I * (C' I J - C I J) * e J| := by rw [h1]
    _ ≤ ∑ I, ∑ J, |e I * (C' I J - C I J) * e J| :=
      (Finset.abs_sum_le_sum_abs _ _).trans (Finset.sum_le_sum fun I _ => Finset.abs_sum_le_sum_abs _ _)
    _ ≤ ∑ I, ∑ J, t * ((e I ^ 2 + e J ^ 2) / 2) :=
      Finset.sum_le_sum fun I _ => Finset.sum_le_sum fun J _ => h2 I J
    _ = 6 * t * ∑ I, e I ^ 2 := by
      simp only [Fin.sum_univ_six]
      ring

section
variable {C C' : M6} {l t : ℝ}

/-- The two quadratic forms differ by a relative error. -/
theorem quad_within (ht : 0 ≤ t) (hl : 6 * t < l) (h : Resists C l) (hc : Close C C' t) (e : Fin 6 → ℝ) :
    Within (6 * t / l) (quad C e e) (quad C' e e) := by
  have l0 : 0 < l := by linarith
  have h1 := close_quad hc e
  have h2 := resists_quad h e
  have h3 : 6 * t * ∑ I, e I ^ 2 ≤ 6 * t / l * quad C e e := by
    have := mul_le_mul_of_nonneg_left h2 (show 0 ≤ 6 * t / l by positivity)
    calc 6 * t * ∑ I, e I ^ 2 = 6 * t / l * (l * ∑ I, e I ^ 2) := by field_simp
      _ ≤ _ := this
  have h4 := abs_le.1 (h1.trans h3)
  constructor <;> linarith [h4.1, h4.2]

theorem close_posDef {C : M6} {l : ℝ} (l0 : 0 < l) (hs : C.IsSymm) (h : ∀ e : Fin 6 → ℝ, l * ∑ I, e I ^ 2 ≤ quad C e e) :
    C.PosDef := by
  refine Matrix.PosDef.of_dotProduct_mulVec_pos ?_ fun e he => ?_
  · rw [Matrix.IsHermitian, Matrix.conjTranspose_eq_transpose_of_trivial]
    exact hs
  · rw [star_trivial, ← quad_eq]
    refine lt_of_lt_of_le (mul_pos l0 ?_) (h e)
    obtain ⟨i, hi⟩ := Function.ne_iff.1 he
    exact Finset.sum_pos' (fun j _ => sq_nonneg _) ⟨i, Finset.mem_univ _, by have : e i ≠ 0 := hi; positivity⟩

theorem quad_smul (a : ℝ) (C : M6) (e : Fin 6 → ℝ) : quad (a • C) e e = a * quad C e e := by
  simp only [quad, Matrix.smul_apply, smul_eq_mul, Finset.mul_sum]
  exact Finset.sum_congr rfl fun I _ => Finset.sum_congr rfl fun J _ => by ring

theorem posDef_smul {a : ℝ} (ha : 0 < a) (hC : C.PosDef) : (a • C).PosDef := by
  refine Matrix.PosDef.of_dotProduct_mulVec_pos ?_ fun e he => ?_
  · rw [Matrix.IsHermitian, Matrix.conjTranspose_eq_transpose_of_trivial, Matrix.transpose_smul, posDef_symm hC]
  · rw [star_trivial, ← quad_eq, quad_smul]
    exact mul_pos ha (quad_posDef hC he)

/-- What the two crystals are: stable, and one between two multiples of the other. -/
theorem close_crystals (hs : C.IsSymm) (hs' : C'.IsSymm) (ht : 0 ≤ t) (hl : 6 * t < l) (h : Resists C l) (hc : Close C C' t) :
    C.PosDef ∧ C'.PosDef ∧ 0 < 1 - 6 * t / l ∧ Stiffer ((1 - 6 * t / l) • C) C' ∧ Stiffer C' ((1 + 6 * t / l) • C) := by
  have l0 : 0 < l := by linarith
  have r1 : 6 * t / l < 1 := (div_lt_one l0).2 hl
  have q := quad_within ht hl h hc
  refine ⟨close_posDef l0 hs (resists_quad h), close_posDef (l := (1 - 6 * t / l) * l) ?_ hs' fun e => ?_, by linarith,
    stiffer_of_quad fun e => ?_, stiffer_of_quad fun e => ?_⟩
  · exact mul_pos (by linarith) l0
  · have := mul_le_mul_of_nonneg_left (resists_quad h e) (show 0 ≤ 1 - 6 * t / l by linarith)
    rw [mul_assoc]
    exact this.trans (q e).1
  · rw [quad_smul]; exact (q e).1
  · rw [quad_smul]; exact (q e).2

end

/-- One crystal lies between two multiples of another: moduli up to the relative error `r`. -/
theorem between_directional {C C' : M6} (p : C.PosDef) (p' : C'.PosDef) {r : ℝ} (r0 : 0 ≤ r) (r1 : 0 < 1 - r)
    (a : Stiffer ((1 - r) • C) C') (b : Stiffer C' ((1 + r) • C)) {density density' : ℝ} {s s' : Soec}
    (e : soec C density = .ok s) (e' : soec C' density' = .ok s') (theta phi chi : ℝ) :
    Within r (s.youngModulus (theta, phi)) (s'.youngModulus (theta, phi)) ∧
    Within r (s.shearModulus (theta, phi, chi)) (s'.shearModulus (theta, phi, chi)) := by
  have r' : 0 < 1 + r := by linarith
  obtain ⟨s1, e1⟩ := ((C122_directional (m := 1) r1 C density).1).1 ⟨s, e⟩
  obtain ⟨s2, e2⟩ := ((C122_directional (m := 1) r' C density).1).1 ⟨s, e⟩
  obtain ⟨y1, g1⟩ := (C122_directional (m := 1) r1 C density).2 s s1 e e1
  obtain ⟨y2, g2⟩ := (C122_directional (m := 1) r' C density).2 s s2 e e2
  have k1 := C129_directional (posDef_smul r1 p) p' a e1 e' theta phi chi
  have k2 := C129_directional p' (posDef_smul r' p) b e' e2 theta phi chi
  rw [(y1 _).1, (g1 _).1] at k1
  rw [(y2 _).1, (g2 _).1] at k2
  exact ⟨⟨k1.1, k2.1⟩, ⟨k1.2, k2.2⟩⟩

/-- C141: moduli that differ by at most `t` GPa in each entry, in a crystal that resists every strain with at least `l` GPa, give
the same Young's and shear moduli along every direction up to the relative error `6 t / l`; the second crystal is stable. -/
theorem C141_directional {C C' : M6} (hs : C.IsSymm) (hs' : C'.IsSymm) {l t : ℝ} (ht : 0 ≤ t) (hl : 6 * t < l)
    (h : Resists C l) (hc : Close C C' t) {density density' : ℝ} :
    C'.PosDef ∧ ∃ s s', soec C density = .ok s ∧ soec C' density' = .ok s' ∧ ∀ theta phi chi,
      Within (6 * t / l) (s.youngModulus (theta, phi)) (s'.youngModulus (theta, phi)) ∧
      Within (6 * t / l) (s.shearModulus (theta, phi, chi)) (s'.shearModulus (theta, phi, chi)) := by
  obtain ⟨p, p', r, a, b⟩ := close_crystals hs hs' ht hl h hc
  obtain ⟨s, e⟩ := soec_of_det (posDef_det p) density
  obtain ⟨s', e'⟩ := soec_of_det (posDef_det p') density'
  exact ⟨p', s, s', e, e', between_directional p p' (div_nonneg (by linarith) (by linarith)) r a b e e'⟩

/-- C141: so do the Voigt, Reuss and Hill averages, and the velocities of the isotropic aggregate up to the square root of the
relative errors of the moduli and of the density. -/
theorem C141_averages {C C' : M6} (hs : C.IsSymm) (hs' : C'.IsSymm) {l t : ℝ} (ht : 0 ≤ t) (hl : 6 * t < l)
    (h : Resists C l) (hc : Close C C' t) {density density' : ℝ} (hd : 0 < density) (hd' : 0 < density') {s s' : Soec}
    (e : soec C density = .ok s) (e' : soec C' density' = .ok s') :
    (∀ f, f = Averages.voigt ∨ f = Averages.reuss ∨ f = Averages.hill →
      Within (6 * t / l) (f s.averages).K (f s'.averages).K ∧ Within (6 * t / l) (f s.averages).G (f s'.averages).G ∧
      Within (6 * t / l) (f s.averages).E (f s'.averages).E) ∧
    ∀ i, √((1 - 6 * t / l) / (density' / density)) * s.isotropicVelocities i ≤ s'.isotropicVelocities i ∧
      s'.isotropicVelocities i ≤ √((1 + 6 * t / l) / (density' / density)) * s.isotropicVelocities i := by
  obtain ⟨p, p', r, a, b⟩ := close_crystals hs hs' ht hl h hc
  have r' : 0 < 1 + 6 * t / l := by
    have : 0 ≤ 6 * t / l := div_nonneg (by linarith) (by linarith)
    linarith
  have hm : 0 < density' / density := by positivity
  have em : density' / density * density = density' := by field_simp
  obtain ⟨s1, e1⟩ := ((C122_directional (m := density' / density) r C density).1).1 ⟨s, e⟩
  obtain ⟨s2, e2⟩ := ((C122_directional (m := density' / density) r' C density).1).1 ⟨s, e⟩
  obtain ⟨y1, v1⟩ := C122_averages r hm e e1
  obtain ⟨y2, v2⟩ := C122_averages r' hm e e2
  rw [em] at e1 e2
  obtain ⟨a1, a2, a3, a4⟩ := C129_averages (posDef_smul r p) p' a e1 e'
  obtain ⟨b1, b2, b3, b4⟩ := C129_averages p' (posDef_smul r' p) b e' e2
  constructor
  · intro f hf
    obtain ⟨z1, z2, z3, -⟩ := y1 f hf
    obtain ⟨w1, w2, w3, -⟩ := y2 f hf
    have ka : Softer (f s1.averages) (f s'.averages) := by rcases hf with rfl | rfl | rfl <;> assumption
    have kb : Softer (f s'.averages) (f s2.averages) := by rcases hf with rfl | rfl | rfl <;> assumption
    obtain ⟨a1, a2, a3⟩ := ka
    obtain ⟨b1, b2, b3⟩ := kb
    rw [z1] at a1; rw [z3] at a2; rw [z2] at a3
    rw [w1] at b1; rw [w3] at b2; rw [w2] at b3
    exact ⟨⟨a1, b1⟩, ⟨a2, b2⟩, ⟨a3, b3⟩⟩
  · intro i
    have a := a4 hd' le_rfl i
    have b := b4 hd' le_rfl i
    rw [v1] at a
    rw [v2] at b
    exact ⟨a, b⟩

/-! ### Compressibility and Poisson's ratio -/

theorem compressibility_quad {S : M6} (n : V3) :
    compressibilityAlong (sTensor S) n = 1000 * quad S (dyad n n) ![1, 1, 1, 0, 0, 0] := by
  simp only [compressibilityAlong, sTensor, sc, vm, quad, dyad, Fin.sum_univ_three, Fin.sum_univ_six, Matrix.cons_val]
  norm_num
  ring

/-- The value of a symmetric form on two vectors, when its values on one vector are small relative to another form. -/
theorem cross_bound {S S' : M6} (hS : S.IsSymm) (hS' : S'.IsSymm) {k : ℝ} (hk : 0 ≤ k)
    (hb : ∀ u, |quad S' u u - quad S u u| ≤ k * quad S u u) {u v : Fin 6 → ℝ} (hu : 0 < quad S u u) (hv : 0 < quad S v v) :
    |quad S' u v - quad S u v| ≤ k * (√(quad S u u) * √(quad S v v)) := by
  have expand : ∀ {T : M6}, T.IsSymm → ∀ a b : ℝ, quad T (a • u + b • v) (a • u + b • v) =
      a ^ 2 * quad T u u + 2 * (a * b) * quad T u v + b ^ 2 * quad T v v := by
    intro T hT a b
    have e : quad T v u = quad T u v := by
      rw [quad_eq, quad_eq, Matrix.dotProduct_mulVec, ← Matrix.mulVec_transpose, hT, dotProduct_comm]
    rw [quad_eq] at e ⊢
    rw [quad_eq T u v, quad_eq T u u, quad_eq T v v]
    rw [quad_eq T u v] at e
    simp only [Matrix.mulVec_add, Matrix.mulVec_smul, add_dotProduct, dotProduct_add, smul_dotProduct, dotProduct_smul,
      smul_eq_mul, e]
    ring
  set p := √(quad S u u) with hp
  set q := √(quad S v v) with hq
  have p0 : 0 < p := Real.sqrt_pos.2 hu
  have q0 : 0 < q := Real.sqrt_pos.2 hv
  have pp : quad S u u = p ^ 2 := (Real.sq_sqrt hu.le).symm
  have qq : quad S v v = q ^ 2 := (Real.sq_sqrt hv.le).symm
  have h1 := abs_le.1 (hb (q • u + p • v))
  have h2 := abs_le.1 (hb (q • u + (-p) • v))
  rw [expand hS, expand hS'] at h1 h2
  set D := quad S' u v - quad S u v with hD
  rw [pp, qq] at h1 h2
  have m : 0 < p * q := mul_pos p0 q0
  rw [abs_le]
  have key : ∀ x y : ℝ, p * q * x ≤ p * q * y → x ≤ y := fun x y h => le_of_mul_le_mul_left h m
  constructor
  · refine key _ _ ?_
    linarith [h1.1, h2.2]
  · refine key _ _ ?_
    linarith [h1.2, h2.1]

/-- One crystal lies between two multiples of another: compressibility and Poisson's ratio. -/
theorem between_ratios {C C' : M6} (p : C.PosDef) (p' : C'.PosDef) {density density' r κ : ℝ} (rn : 0 ≤ r) (r0 : 0 < 1 - r)
    (a : Stiffer ((1 - r) • C) C') (b : Stiffer C' ((1 + r) • C)) (hκ : κ = r / (1 - r)) {s s' : Soec}
    (e : soec C density = .ok s) (e' : soec C' density' = .ok s') (theta phi chi : ℝ) :
    |s'.linearCompressibility (theta, phi) - s.linearCompressibility (theta, phi)| ≤
      κ * (1000 / √(s.youngModulus (theta, phi) * s.averages.reuss.K)) ∧
    ∀ theta' phi', vector theta' phi' = vectorChi theta phi chi →
      |s'.poissonRatio (theta, phi, chi) - s.poissonRatio (theta, phi, chi)| ≤
        κ * (1 + r) * √(s.youngModulus (theta, phi) / s.youngModulus (theta', phi')) +
          r * |s.poissonRatio (theta, phi, chi)| := by
  have r1 : 0 < 1 + r := by linarith
  have κ0 : 0 ≤ κ := by rw [hκ]; positivity
  have hI : ∀ {a : ℝ}, 0 < a → ∀ u, quad (a • C)⁻¹ u u = quad C⁻¹ u u / a := by
    intro a ha u
    rw [inv_scaled (posDef_det p) ha.ne', quad_smul, inv_mul_eq_div]
  have hb : ∀ u, |quad C'⁻¹ u u - quad C⁻¹ u u| ≤ κ * quad C⁻¹ u u := by
    intro u
    have q1 := stiffer_inv (posDef_smul r0 p) p' a u
    have q2 := stiffer_inv p' (posDef_smul r1 p) b u
    rw [hI r0] at q1
    rw [hI r1] at q2
    have n : 0 ≤ quad C⁻¹ u u := by
      by_cases hz : u = 0
      · rw [hz]; simp [quad]
      · exact (quad_posDef p.inv hz).le
    rw [abs_le]
    constructor
    · have : (1 - κ) * quad C⁻¹ u u ≤ quad C⁻¹ u u / (1 + r) := by
        rw [le_div_iff₀ r1]
        have : (1 - κ) * (1 + r) ≤ 1 := by
          rw [hκ]
          rw [one_sub_div r0.ne', div_mul_eq_mul_div, div_le_one r0]
          nlinarith
        nlinarith
      linarith
    · have : quad C⁻¹ u u / (1 - r) = (1 + κ) * quad C⁻¹ u u := by
        rw [hκ]
        field_simp
        ring
      linarith
  have hSi := posDef_symm p.inv
  have hSi' := posDef_symm p'.inv
  have w : Within r (s.youngModulus (theta, phi)) (s'.youngModulus (theta, phi)) :=
    (between_directional p p' rn r0 a b e e' theta phi chi).1
  obtain ⟨-, rfl⟩ := soec_ok e
  obtain ⟨-, rfl⟩ := soec_ok e'
  have pos : ∀ n : V3, UnitVector n → 0 < quad C⁻¹ (dyad n n) (dyad n n) := fun n hn =>
    quad_posDef p.inv (dyad_ne_zero hn)
  have pos' : ∀ n : V3, UnitVector n → 0 < quad C'⁻¹ (dyad n n) (dyad n n) := fun n hn =>
    quad_posDef p'.inv (dyad_ne_zero hn)
  have young : ∀ (D : M6) (n : V3), youngAlong (sTensor D⁻¹) n = 1 / quad D⁻¹ (dyad n n) (dyad n n) := by
    intro D n
    rw [youngAlong, contract4_voigt]
    rfl
  constructor
  · show |compressibilityAlong (sTensor C'⁻¹) (vector theta phi) - compressibilityAlong (sTensor C⁻¹) (vector theta phi)| ≤
      κ * (1000 / √(youngAlong (sTensor C⁻¹) (vector theta phi) * (1 / einsum_iijj (sTensor C⁻¹))))
    have hK := KRinv_pos p
    rw [einsum_s] at hK ⊢
    have := cross_bound hSi hSi' κ0 hb (pos _ (vector_unit theta phi)) hK
    rw [compressibility_quad, compressibility_quad, ← mul_sub, abs_mul, abs_of_pos (show (0 : ℝ) < 1000 by norm_num), young,
      one_div_mul_one_div, Real.sqrt_div zero_le_one, Real.sqrt_one, div_div_eq_mul_div, div_one,
      Real.sqrt_mul (pos _ (vector_unit theta phi)).le]
    linarith
  · intro theta' phi' hv
    show |poissonAlong (sTensor C'⁻¹) (vector theta phi) (vectorChi theta phi chi) -
        poissonAlong (sTensor C⁻¹) (vector theta phi) (vectorChi theta phi chi)| ≤
      κ * (1 + r) * √(youngAlong (sTensor C⁻¹) (vector theta phi) / youngAlong (sTensor C⁻¹) (vector theta' phi')) +
        r * |poissonAlong (sTensor C⁻¹) (vector theta phi) (vectorChi theta phi chi)|
    replace w : Within r (youngAlong (sTensor C⁻¹) (vector theta phi)) (youngAlong (sTensor C'⁻¹) (vector theta phi)) := w
    rw [← hv]
    set n := vector theta phi
    set m := vector theta' phi'
    have hn := pos n (vector_unit _ _)
    have hm := pos m (vector_unit _ _)
    have ν : ∀ D : M6, poissonAlong (sTensor D⁻¹) n m = -(quad D⁻¹ (dyad n n) (dyad m m) * youngAlong (sTensor D⁻¹) n) := by
      intro D
      rw [poissonAlong_eq, young, contract4_voigt, contract4_voigt, mul_one_div, neg_div]
      rfl
    have cb := cross_bound hSi hSi' κ0 hb hn hm
    have E0 : 0 < youngAlong (sTensor C⁻¹) n := by rw [young]; positivity
    have E0' : 0 ≤ youngAlong (sTensor C'⁻¹) n := (mul_nonneg r0.le E0.le).trans w.1
    have dE : |youngAlong (sTensor C'⁻¹) n - youngAlong (sTensor C⁻¹) n| ≤ r * youngAlong (sTensor C⁻¹) n := by
      obtain ⟨w1, w2⟩ := w
      rw [abs_le]
      constructor <;> linarith
    have hsq : youngAlong (sTensor C⁻¹) n * (√(quad C⁻¹ (dyad n n) (dyad n n)) * √(quad C⁻¹ (dyad m m) (dyad m m))) =
        √(youngAlong (sTensor C⁻¹) n / youngAlong (sTensor C⁻¹) m) := by
      have swap : ∀ x y : ℝ, 1 / x / (1 / y) = y / x := fun x y => by rw [div_div_eq_mul_div, div_one, one_div_mul_eq_div]
      rw [young, young, swap, Real.sqrt_div hm.le]
      have := Real.mul_self_sqrt hn.le
      have q0 := (Real.sqrt_pos.2 hn).ne'
      rw [div_mul_eq_mul_div, one_mul, div_eq_div_iff hn.ne' q0]
      rw [show √(quad C⁻¹ (dyad n n) (dyad n n)) * √(quad C⁻¹ (dyad m m) (dyad m m)) * √(quad C⁻¹ (dyad n n) (dyad n n)) =
        √(quad C⁻¹ (dyad m m) (dyad m m)) * (√(quad C⁻¹ (dyad n n) (dyad n n)) * √(quad C⁻¹ (dyad n n) (dyad n n))) by ring, this]
    rw [ν, ν, ← hsq]
    set A := quad C⁻¹ (dyad n n) (dyad m m)
    set A' := quad C'⁻¹ (dyad n n) (dyad m m)
    set E := youngAlong (sTensor C⁻¹) n
    set E' := youngAlong (sTensor C'⁻¹) n
    set R := √(quad C⁻¹ (dyad n n) (dyad n n)) * √(quad C⁻¹ (dyad m m) (dyad m m))
    have split : -(A' * E') - -(A * E) = -((A' - A) * E') - A * (E' - E) := by ring
    rw [split]
    refine (abs_sub _ _).trans (add_le_add ?_ ?_)
    · rw [abs_neg, abs_mul, abs_of_nonneg E0']
      calc |A' - A| * E' ≤ κ * R * ((1 + r) * E) := mul_le_mul cb w.2 E0' ((abs_nonneg _).trans cb)
        _ = _ := by ring
    · rw [abs_mul, abs_neg, abs_mul, abs_of_pos E0]
      calc |A| * |E' - E| ≤ |A| * (r * E) := mul_le_mul_of_nonneg_left dE (abs_nonneg _)
        _ = _ := by ring

/-- C141: the linear compressibility changes by at most `κ 1000 / √(E K)`, with `κ = r / (1 - r)`, `E` Young's modulus along the
direction and `K` the Reuss bulk modulus; Poisson's ratio by at most `κ (1 + r) √(E(n) / E(m)) + r |ν|`. -/
theorem C141_ratios {C C' : M6} (hs : C.IsSymm) (hs' : C'.IsSymm) {l t : ℝ} (ht : 0 ≤ t) (hl : 6 * t < l)
    (h : Resists C l) (hc : Close C C' t) {density density' r κ : ℝ} (hr : r = 6 * t / l) (hκ : κ = r / (1 - r)) {s s' : Soec}
    (e : soec C density = .ok s) (e' : soec C' density' = .ok s') (theta phi chi : ℝ) :
    |s'.linearCompressibility (theta, phi) - s.linearCompressibility (theta, phi)| ≤
      κ * (1000 / √(s.youngModulus (theta, phi) * s.averages.reuss.K)) ∧
    ∀ theta' phi', vector theta' phi' = vectorChi theta phi chi →
      |s'.poissonRatio (theta, phi, chi) - s.poissonRatio (theta, phi, chi)| ≤
        κ * (1 + r) * √(s.youngModulus (theta, phi) / s.youngModulus (theta', phi')) +
          r * |s.poissonRatio (theta, phi, chi)| := by
  obtain ⟨p, p', r0, a, b⟩ := close_crystals hs hs' ht hl h hc
  rw [← hr] at r0 a b
  have rn : 0 ≤ r := by
    rw [hr]
    exact div_nonneg (by linarith) (by linarith)
  exact between_ratios p p' rn r0 a b hκ e e' theta phi chi

end Verif.Elastic
