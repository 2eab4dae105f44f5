/-
Property C181: how Young's modulus changes from one direction to another.
-/
import Verif.Elastic.Transverse
import Verif.Seismic.RayBound
import Verif.Tac

namespace Verif.Elastic
open Verif.Py Spec
open Verif.Seismic (quad_cauchy quad_symm quad_combine quad_nonneg)

/-! ### Lemmas -/

theorem dyad_difference (n m : V3) (I : Fin 6) :
    1 * dyad n n I + -1 * dyad m m I = dyad (fun i => n i + m i) (fun i => n i - m i) I := by
  fin_cases I <;> simp [dyad] <;> ring

theorem dyad_scale (a b : ℝ) (n m : V3) (I : Fin 6) :
    dyad (fun i => a * n i) (fun i => b * m i) I = a * b * dyad n m I := by
  fin_cases I <;> simp [dyad] <;> ring

/-- The triangle inequality for the root of the elastic energy. -/
theorem root_triangle {S : M6} (hS : S.PosDef) (hsym : ∀ i j, S i j = S j i) {a b : Fin 6 → ℝ} (ha : 0 < quad S a a)
    (hb : 0 < quad S b b) :
    (√(quad S a a) - √(quad S b b)) ^ 2 ≤ quad S (fun i => 1 * a i + -1 * b i) (fun i => 1 * a i + -1 * b i) := by
  rw [quad_combine, quad_symm hsym b a]
  have hc := quad_cauchy hS a b hb
  have h1 : quad S a b ≤ √(quad S a a) * √(quad S b b) := by
    rw [← Real.sqrt_mul ha.le]
    exact Real.le_sqrt_of_sq_le hc
  have e1 := Real.sq_sqrt ha.le
  have e2 := Real.sq_sqrt hb.le
  nlinarith

/-! ### C181 -/

/-- C181: the inverse roots of the Young's moduli along two directions at an angle `ψ` differ by at most `sin ψ` over the root of
the shear modulus of their bisectors, in a stable crystal. -/
theorem C181_young (C : M6) (hC : C.PosDef) (density : ℝ) (s : Soec) (h : soec C density = .ok s) (x y : ℝ × ℝ)
    (z : ℝ × ℝ × ℝ) (a b : ℝ) (hz : ∀ i, a * vector z.1 z.2.1 i = vector x.1 x.2 i + vector y.1 y.2 i)
    (hz' : ∀ i, b * vectorChi z.1 z.2.1 z.2.2 i = vector x.1 x.2 i - vector y.1 y.2 i) :
    (1 / √(s.youngModulus x) - 1 / √(s.youngModulus y)) ^ 2 ≤
      (1 - dot (vector x.1 x.2) (vector y.1 y.2) ^ 2) / s.shearModulus z := by
  obtain ⟨-, rfl⟩ := soec_ok h
  have q : ∀ u v : V3, contract4 (sTensor C⁻¹) u v u v = quad C⁻¹ (dyad u v) (dyad u v) := fun u v => contract4_voigt _ _ _ _ _
  have hx := young_denominator_pos hC (vector_unit x.1 x.2)
  have hy := young_denominator_pos hC (vector_unit y.1 y.2)
  have hsh := shear_denominator_pos hC (C35_orthonormal z.1 z.2.1 z.2.2)
  have E : ∀ x : ℝ × ℝ, 0 < contract4 (sTensor C⁻¹) (vector x.1 x.2) (vector x.1 x.2) (vector x.1 x.2) (vector x.1 x.2) →
      1 / √(youngAlong (sTensor C⁻¹) (vector x.1 x.2)) = √(quad C⁻¹ (dyad (vector x.1 x.2) (vector x.1 x.2))
        (dyad (vector x.1 x.2) (vector x.1 x.2))) := by
    intro x hx
    unfold youngAlong
    rw [← q, one_div, one_div, Real.sqrt_inv, inv_inv]
  show (1 / √(youngAlong _ (vector x.1 x.2)) - 1 / √(youngAlong _ (vector y.1 y.2))) ^ 2 ≤
    _ / shearAlong _ (vector z.1 z.2.1) (vectorChi z.1 z.2.1 z.2.2)
  rw [E x hx, E y hy, shearAlong_eq]
  have ht := root_triangle hC.inv (fun i j => (posDef_symm hC.inv).apply j i) (by rw [← q]; exact hx) (by rw [← q]; exact hy)
  refine ht.trans (le_of_eq ?_)
  have e1 : (fun i => 1 * dyad (vector x.1 x.2) (vector x.1 x.2) i + -1 * dyad (vector y.1 y.2) (vector y.1 y.2) i) =
      fun i => a * b * dyad (vector z.1 z.2.1) (vectorChi z.1 z.2.1 z.2.2) i + 0 *
        dyad (vector z.1 z.2.1) (vectorChi z.1 z.2.1 z.2.2) i := by
    funext I
    rw [dyad_difference, ← funext hz, ← funext hz', dyad_scale]
    ring
  rw [e1, quad_combine, ← q]
  -- the lengths of sum and difference
  have ux : dot (vector x.1 x.2) (vector x.1 x.2) = 1 := vector_unit x.1 x.2
  have uy : dot (vector y.1 y.2) (vector y.1 y.2) = 1 := vector_unit y.1 y.2
  have uz : dot (vector z.1 z.2.1) (vector z.1 z.2.1) = 1 := vector_unit z.1 z.2.1
  have uw : dot (vectorChi z.1 z.2.1 z.2.2) (vectorChi z.1 z.2.1 z.2.2) = 1 := vectorChi_unit z.1 z.2.1 z.2.2
  have la : a ^ 2 = 2 + 2 * dot (vector x.1 x.2) (vector y.1 y.2) := by
    have e : a ^ 2 * dot (vector z.1 z.2.1) (vector z.1 z.2.1) = ∑ i, (a * vector z.1 z.2.1 i) * (a * vector z.1 z.2.1 i) := by
      simp only [dot, Finset.mul_sum]
      exact Finset.sum_congr rfl fun i _ => by ring
    rw [uz, mul_one] at e
    rw [e]
    simp only [hz]
    simp only [dot, Fin.sum_univ_three] at ux uy ⊢
    linear_combination ux + uy
  have lb : b ^ 2 = 2 - 2 * dot (vector x.1 x.2) (vector y.1 y.2) := by
    have e : b ^ 2 * dot (vectorChi z.1 z.2.1 z.2.2) (vectorChi z.1 z.2.1 z.2.2) =
        ∑ i, (b * vectorChi z.1 z.2.1 z.2.2 i) * (b * vectorChi z.1 z.2.1 z.2.2 i) := by
      simp only [dot, Finset.mul_sum]
      exact Finset.sum_congr rfl fun i _ => by ring
    rw [uw, mul_one] at e
    rw [e]
    simp only [hz']
    simp only [dot, Fin.sum_univ_three] at ux uy ⊢
    linear_combination ux + uy
  rw [mul_pow, la, lb, div_div_eq_mul_div, div_one]
  ring

/-- A vector and its length. -/
theorem normalise {v : V3} (hv : v ≠ 0) : ∃ r, 0 < r ∧ r ^ 2 = dot v v ∧ UnitVector fun i => v i / r := by
  have hp : 0 < dot v v := by
    obtain ⟨i, hi⟩ := Function.ne_iff.1 hv
    exact Finset.sum_pos' (fun j _ => mul_self_nonneg _) ⟨i, Finset.mem_univ _, mul_self_pos.2 hi⟩
  refine ⟨√(dot v v), Real.sqrt_pos.2 hp, Real.sq_sqrt hp.le, ?_⟩
  show ∑ i, v i / √(dot v v) * (v i / √(dot v v)) = 1
  have : ∀ i, v i / √(dot v v) * (v i / √(dot v v)) = v i * v i / dot v v := fun i => by
    rw [div_mul_div_comm, Real.mul_self_sqrt hp.le]
  simp only [this, ← Finset.sum_div]
  exact div_self hp.ne'

/-- C181: angles of the bisectors exist for every two directions, so the bound holds for every two directions. -/
theorem C181_bisectors (x y : ℝ × ℝ) : ∃ (z : ℝ × ℝ × ℝ) (a b : ℝ),
    (∀ i, a * vector z.1 z.2.1 i = vector x.1 x.2 i + vector y.1 y.2 i) ∧
    ∀ i, b * vectorChi z.1 z.2.1 z.2.2 i = vector x.1 x.2 i - vector y.1 y.2 i := by
  have ux : dot (vector x.1 x.2) (vector x.1 x.2) = 1 := vector_unit x.1 x.2
  have uy : dot (vector y.1 y.2) (vector y.1 y.2) = 1 := vector_unit y.1 y.2
  by_cases hm : vector x.1 x.2 = vector y.1 y.2
  · exact ⟨(x.1, x.2, 0), 2, 0, fun i => by rw [← hm]; ring, fun i => by rw [← hm]; ring⟩
  by_cases hp : vector x.1 x.2 = -vector y.1 y.2
  · obtain ⟨h1, h2, h3⟩ := C35_orthonormal x.1 x.2 0
    obtain ⟨t, p, c, e1, e2⟩ := C35_complete (vectorChi x.1 x.2 0) (vector x.1 x.2) ⟨h2, h1, by rw [dot_comm']; exact h3⟩
    refine ⟨(t, p, c), 0, 2, fun i => ?_, fun i => ?_⟩
    · rw [hp]
      simp
    · show 2 * vectorChi t p c i = _
      rw [← e2, ← neg_eq_iff_eq_neg.2 hp]
      simp
      ring
  · have hs : (fun i => vector x.1 x.2 i + vector y.1 y.2 i) ≠ 0 := fun h => hp (funext fun i => by
      have := congrFun h i
      simp only [Pi.zero_apply, Pi.neg_apply] at this ⊢
      linarith)
    have hd : (fun i => vector x.1 x.2 i - vector y.1 y.2 i) ≠ 0 := fun h => hm (funext fun i => by
      have := congrFun h i
      simp only [Pi.zero_apply] at this
      linarith)
    obtain ⟨r, hr, -, hru⟩ := normalise hs
    obtain ⟨q, hq, -, hqu⟩ := normalise hd
    have hort : dot (fun i => (vector x.1 x.2 i + vector y.1 y.2 i) / r) (fun i => (vector x.1 x.2 i - vector y.1 y.2 i) / q) = 0 := by
      have e : dot (fun i => (vector x.1 x.2 i + vector y.1 y.2 i) / r) (fun i => (vector x.1 x.2 i - vector y.1 y.2 i) / q) =
          (dot (vector x.1 x.2) (vector x.1 x.2) - dot (vector y.1 y.2) (vector y.1 y.2)) / (r * q) := by
        simp only [dot, Fin.sum_univ_three]
        field_simp
        ring
      rw [e, ux, uy]
      simp
    obtain ⟨t, p, c, e1, e2⟩ := C35_complete _ _ ⟨hru, hqu, hort⟩
    refine ⟨(t, p, c), r, q, fun i => ?_, fun i => ?_⟩
    · show r * vector t p i = _
      rw [← e1]
      exact mul_div_cancel₀ _ hr.ne'
    · show q * vectorChi t p c i = _
      rw [← e2]
      exact mul_div_cancel₀ _ hq.ne'

end Verif.Elastic
