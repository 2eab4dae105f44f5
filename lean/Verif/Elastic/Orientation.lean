/-
Means over all orientations: integrals of products of direction components over the sphere.
-/
import Verif.Elastic.Props
import Mathlib.Analysis.SpecialFunctions.Integrals.Basic
import Mathlib.MeasureTheory.Integral.DominatedConvergence
import Mathlib.Analysis.Calculus.ParametricIntervalIntegral
import Verif.Tac

namespace Verif.Elastic
open Verif.Py Spec

/-- The mean over all directions of a function of the polar angle and the azimuth: the integral over the unit sphere divided by
its area `4π`. -/
noncomputable def Spec.directionMean (f : ℝ → ℝ → ℝ) : ℝ :=
  (∫ phi in (0 : ℝ)..(2 * Real.pi), ∫ theta in (0 : ℝ)..Real.pi, f theta phi * Real.sin theta) / (4 * Real.pi)

/-- The mean over all orientations of a pair of perpendicular directions: over the directions, and over the angle of the second
direction in the plane perpendicular to the first. -/
noncomputable def Spec.orientationMean (f : ℝ → ℝ → ℝ → ℝ) : ℝ :=
  directionMean fun theta phi => (∫ chi in (0 : ℝ)..(2 * Real.pi), f theta phi chi) / (2 * Real.pi)

/-! ### Linearity and order -/

theorem directionMean_inner {f : ℝ → ℝ → ℝ} (hf : Continuous fun x : ℝ × ℝ => f x.1 x.2) :
    Continuous fun phi => ∫ theta in (0 : ℝ)..Real.pi, f theta phi * Real.sin theta := by
  apply intervalIntegral.continuous_parametric_intervalIntegral_of_continuous'
  have : Continuous fun x : ℝ × ℝ => f x.2 x.1 := hf.comp continuous_swap
  exact this.mul (Real.continuous_sin.comp continuous_snd)

theorem directionMean_add {f g : ℝ → ℝ → ℝ} (hf : Continuous fun x : ℝ × ℝ => f x.1 x.2)
    (hg : Continuous fun x : ℝ × ℝ => g x.1 x.2) :
    directionMean (fun t p => f t p + g t p) = directionMean f + directionMean g := by
  unfold directionMean
  rw [← add_div, ← intervalIntegral.integral_add ((directionMean_inner hf).intervalIntegrable _ _)
    ((directionMean_inner hg).intervalIntegrable _ _)]
  congr 1
  refine intervalIntegral.integral_congr fun phi _ => ?_
  have cf : Continuous fun t => f t phi * Real.sin t :=
    (hf.comp (Continuous.prodMk continuous_id continuous_const)).mul Real.continuous_sin
  have cg : Continuous fun t => g t phi * Real.sin t :=
    (hg.comp (Continuous.prodMk continuous_id continuous_const)).mul Real.continuous_sin
  show _ = _ + _
  rw [← intervalIntegral.integral_add (cf.intervalIntegrable _ _) (cg.intervalIntegrable _ _)]
  refine intervalIntegral.integral_congr fun t _ => ?_
  show _ = _
  ring

theorem directionMean_mul (c : ℝ) (f : ℝ → ℝ → ℝ) : directionMean (fun t p => c * f t p) = c * directionMean f := by
  unfold directionMean
  simp only [mul_assoc, intervalIntegral.integral_const_mul]
  ring

theorem directionMean_sum {f : Fin 3 → ℝ → ℝ → ℝ} (hf : ∀ i, Continuous fun x : ℝ × ℝ => f i x.1 x.2) :
    directionMean (fun t p => ∑ i, f i t p) = ∑ i, directionMean (f i) := by
  simp only [Fin.sum_univ_three]
  rw [directionMean_add ((hf 0).add (hf 1)) (hf 2), directionMean_add (hf 0) (hf 1)]

theorem directionMean_const (c : ℝ) : directionMean (fun _ _ => c) = c := by
  unfold directionMean
  have := Real.pi_pos
  simp only [intervalIntegral.integral_const_mul, integral_sin, intervalIntegral.integral_const, Real.cos_zero, Real.cos_pi,
    smul_eq_mul]
  field_simp
  ring

theorem directionMean_mono {f g : ℝ → ℝ → ℝ} (hf : Continuous fun x : ℝ × ℝ => f x.1 x.2)
    (hg : Continuous fun x : ℝ × ℝ => g x.1 x.2) (h : ∀ t p, f t p ≤ g t p) : directionMean f ≤ directionMean g := by
  unfold directionMean
  have hp := Real.pi_pos
  refine div_le_div_of_nonneg_right ?_ (by positivity)
  refine intervalIntegral.integral_mono_on (by positivity) ((directionMean_inner hf).intervalIntegrable _ _)
    ((directionMean_inner hg).intervalIntegrable _ _) fun phi _ => ?_
  have cf : Continuous fun t => f t phi * Real.sin t :=
    (hf.comp (Continuous.prodMk continuous_id continuous_const)).mul Real.continuous_sin
  have cg : Continuous fun t => g t phi * Real.sin t :=
    (hg.comp (Continuous.prodMk continuous_id continuous_const)).mul Real.continuous_sin
  refine intervalIntegral.integral_mono_on hp.le (cf.intervalIntegrable _ _) (cg.intervalIntegrable _ _) fun t ht => ?_
  exact mul_le_mul_of_nonneg_right (h t phi) (Real.sin_nonneg_of_mem_Icc ht)

theorem directionMean_congr {f g : ℝ → ℝ → ℝ} (h : ∀ t p, f t p = g t p) : directionMean f = directionMean g := by
  have : f = g := funext fun t => funext fun p => h t p
  rw [this]

theorem vector_continuous (i : Fin 3) : Continuous fun x : ℝ × ℝ => vector x.1 x.2 i := by
  fin_cases i <;> simp only [vector, Matrix.cons_val] <;> fun_prop

/-! ### Moments of the direction -/

/-- Kronecker's delta. -/
def delta (i j : Fin 3) : ℝ := if i = j then 1 else 0

/-- The integral over the azimuth. -/
noncomputable def azimuth (a b : ℕ) : ℝ := ∫ p in (0 : ℝ)..(2 * Real.pi), Real.sin p ^ b * Real.cos p ^ a

/-- The integral over the polar angle. -/
noncomputable def polar (m c : ℕ) : ℝ := ∫ t in (0 : ℝ)..Real.pi, Real.sin t ^ m * Real.cos t ^ c

theorem mean_monomial (a b c : ℕ) :
    directionMean (fun t p => vector t p 0 ^ a * vector t p 1 ^ b * vector t p 2 ^ c) =
      polar (a + b + 1) c * azimuth a b / (4 * Real.pi) := by
  unfold directionMean polar azimuth
  congr 1
  rw [← intervalIntegral.integral_const_mul]
  refine intervalIntegral.integral_congr fun p _ => ?_
  show _ = _ * _
  rw [← intervalIntegral.integral_mul_const]
  refine intervalIntegral.integral_congr fun t _ => ?_
  simp only [vector, Matrix.cons_val_zero, Matrix.cons_val_one, Matrix.cons_val, mul_pow]
  ring

theorem azimuth_odd (a b : ℕ) (h : a % 2 = 1 ∨ b % 2 = 1) : azimuth a b = 0 := by
  unfold azimuth
  rcases h with h | h
  · obtain ⟨k, rfl⟩ : ∃ k, a = 2 * k + 1 := ⟨a / 2, by omega⟩
    rw [integral_sin_pow_mul_cos_pow_odd, Real.sin_zero, Real.sin_two_pi, intervalIntegral.integral_same]
  · obtain ⟨k, rfl⟩ : ∃ k, b = 2 * k + 1 := ⟨b / 2, by omega⟩
    rw [integral_sin_pow_odd_mul_cos_pow, Real.cos_zero, Real.cos_two_pi, intervalIntegral.integral_same]

theorem polar_odd (m c : ℕ) (h : c % 2 = 1) : polar m c = 0 := by
  unfold polar
  obtain ⟨k, rfl⟩ : ∃ k, c = 2 * k + 1 := ⟨c / 2, by omega⟩
  rw [integral_sin_pow_mul_cos_pow_odd, Real.sin_zero, Real.sin_pi, intervalIntegral.integral_same]

theorem azimuth_00 : azimuth 0 0 = 2 * Real.pi := by simp [azimuth]

theorem azimuth_20 : azimuth 2 0 = Real.pi := by simp [azimuth, integral_cos_sq]

theorem azimuth_02 : azimuth 0 2 = Real.pi := by simp [azimuth, integral_sin_sq]

theorem azimuth_22 : azimuth 2 2 = Real.pi / 4 := by
  have h : Real.sin (4 * (2 * Real.pi)) = 0 := by
    rw [show (4 : ℝ) * (2 * Real.pi) = ((8 : ℕ) : ℝ) * Real.pi by push_cast; ring]
    exact Real.sin_nat_mul_pi 8
  rw [azimuth, integral_sin_sq_mul_cos_sq, h]
  simp
  ring

theorem azimuth_40 : azimuth 4 0 = 3 * Real.pi / 4 := by
  simp only [azimuth, pow_zero, one_mul]
  rw [integral_cos_pow]
  simp [integral_cos_sq]
  ring

theorem azimuth_04 : azimuth 0 4 = 3 * Real.pi / 4 := by
  simp only [azimuth, pow_zero, mul_one]
  rw [integral_sin_pow]
  simp [integral_sin_sq]
  ring

theorem polar_10 : polar 1 0 = 2 := by
  simp [polar]
  norm_num

theorem polar_12 : polar 1 2 = 2 / 3 := by
  simp [polar]
  norm_num

theorem polar_14 : polar 1 4 = 2 / 5 := by
  have := @integral_sin_pow_odd_mul_cos_pow 0 Real.pi 0 4
  simp only [mul_zero, zero_add, pow_zero, mul_one] at this
  rw [polar, this]
  simp
  norm_num

theorem polar_30 : polar 3 0 = 4 / 3 := by
  simp [polar]
  norm_num

theorem polar_32 : polar 3 2 = 4 / 15 := by
  have := @integral_sin_pow_odd_mul_cos_pow 0 Real.pi 1 2
  simp only [mul_one, Nat.reduceAdd, pow_one] at this
  rw [polar, this]
  have e : ∀ u : ℝ, u ^ 2 * (1 - u ^ 2) = u ^ 2 - u ^ 4 := fun u => by ring
  simp only [e]
  rw [intervalIntegral.integral_sub (by apply Continuous.intervalIntegrable; fun_prop)
    (by apply Continuous.intervalIntegrable; fun_prop)]
  simp
  norm_num

theorem polar_50 : polar 5 0 = 16 / 15 := by
  simp only [polar, pow_zero, mul_one]
  rw [integral_sin_pow_odd (n := 2)]
  simp [Finset.prod_range_succ]
  norm_num

/-- The exponent with which component `x` occurs. -/
def ex (x i : Fin 3) : ℕ := if i = x then 1 else 0

theorem component (n : V3) (i : Fin 3) : n i = n 0 ^ ex 0 i * n 1 ^ ex 1 i * n 2 ^ ex 2 i := by
  fin_cases i <;> simp [ex]

/-- The mean of the product of two components of the direction. -/
theorem mean_two (i j : Fin 3) : directionMean (fun t p => vector t p i * vector t p j) = delta i j / 3 := by
  have h : ∀ t p, vector t p i * vector t p j =
      vector t p 0 ^ (ex 0 i + ex 0 j) * vector t p 1 ^ (ex 1 i + ex 1 j) * vector t p 2 ^ (ex 2 i + ex 2 j) := by
    intro t p
    rw [component (vector t p) i, component (vector t p) j]
    simp only [pow_add]
    ring
  rw [directionMean_congr h, mean_monomial]
  have hp := Real.pi_ne_zero
  fin_cases i <;> fin_cases j <;>
    simp [ex, delta, polar_12, polar_30, azimuth_00, azimuth_20, azimuth_02, azimuth_odd, polar_odd] <;>
    field_simp <;> norm_num

/-- The mean of the product of four components of the direction. -/
theorem mean_four (i j k l : Fin 3) :
    directionMean (fun t p => vector t p i * vector t p j * vector t p k * vector t p l) =
      (delta i j * delta k l + delta i k * delta j l + delta i l * delta j k) / 15 := by
  have h : ∀ t p, vector t p i * vector t p j * vector t p k * vector t p l =
      vector t p 0 ^ (ex 0 i + ex 0 j + ex 0 k + ex 0 l) * vector t p 1 ^ (ex 1 i + ex 1 j + ex 1 k + ex 1 l) *
        vector t p 2 ^ (ex 2 i + ex 2 j + ex 2 k + ex 2 l) := by
    intro t p
    rw [component (vector t p) i, component (vector t p) j, component (vector t p) k, component (vector t p) l]
    simp only [pow_add]
    ring
  rw [directionMean_congr h, mean_monomial]
  have hp := Real.pi_ne_zero
  fin_cases i <;> fin_cases j <;> fin_cases k <;> fin_cases l <;>
    simp [ex, delta, polar_14, polar_32, polar_50, azimuth_00, azimuth_20, azimuth_02, azimuth_22, azimuth_40, azimuth_04,
      azimuth_odd, polar_odd] <;>
    field_simp <;> norm_num

/-- The integral of the product of two components of the transverse direction over its angle. -/
theorem mean_transverse (t p : ℝ) (i j : Fin 3) :
    (∫ c in (0 : ℝ)..(2 * Real.pi), vectorChi t p c i * vectorChi t p c j) / (2 * Real.pi) =
      (delta i j - vector t p i * vector t p j) / 2 := by
  obtain ⟨u, w, hu⟩ : ∃ u w : V3, ∀ c k, vectorChi t p c k = u k * Real.cos c + w k * Real.sin c := by
    refine ⟨![Real.cos t * Real.cos p, Real.cos t * Real.sin p, -Real.sin t], ![-Real.sin p, Real.cos p, 0], fun c k => ?_⟩
    fin_cases k <;> simp [vectorChi] <;> ring
  have e : ∀ c, vectorChi t p c i * vectorChi t p c j = u i * u j * (Real.sin c ^ 0 * Real.cos c ^ 2) +
      ((u i * w j + w i * u j) * (Real.sin c ^ 1 * Real.cos c ^ 1) + w i * w j * (Real.sin c ^ 2 * Real.cos c ^ 0)) := by
    intro c
    rw [hu, hu]
    ring
  have i0 : (∫ c in (0 : ℝ)..(2 * Real.pi), vectorChi t p c i * vectorChi t p c j) = Real.pi * (u i * u j + w i * w j) := by
    simp only [e]
    rw [intervalIntegral.integral_add (by apply Continuous.intervalIntegrable; fun_prop)
        (by apply Continuous.intervalIntegrable; fun_prop),
      intervalIntegral.integral_add (by apply Continuous.intervalIntegrable; fun_prop)
        (by apply Continuous.intervalIntegrable; fun_prop)]
    simp only [intervalIntegral.integral_const_mul]
    have a1 := azimuth_20
    have a2 := azimuth_odd 1 1 (by norm_num)
    have a3 := azimuth_02
    unfold azimuth at a1 a2 a3
    rw [a1, a2, a3]
    ring
  have hu0 : ∀ k, u k = vectorChi t p 0 k := fun k => by rw [hu]; simp
  have hw0 : ∀ k, w k = vectorChi t p (Real.pi / 2) k := fun k => by rw [hu]; simp
  have id : u i * u j + w i * w j = delta i j - vector t p i * vector t p j := by
    rw [hu0, hu0, hw0, hw0]
    have h1 := Real.sin_sq_add_cos_sq t
    have h2 := Real.sin_sq_add_cos_sq p
    fin_cases i <;> fin_cases j <;> simp [vectorChi, vector, delta] <;> 
      first | nlinarith | linear_combination (Real.cos p * Real.sin p) * h1
  have hp := Real.pi_ne_zero
  rw [i0, id]
  field_simp

end Verif.Elastic
