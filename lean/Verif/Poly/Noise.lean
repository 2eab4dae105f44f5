/-
How errors of the data reach a least-squares polynomial and its slope.
-/
import Verif.Poly.LeastSquares
import Verif.Poly.Props
import Mathlib.Analysis.Normed.Module.FiniteDimension
import Mathlib.Analysis.Calculus.Deriv.Pow
import Mathlib.Analysis.Calculus.Deriv.Add
import Mathlib.Analysis.Calculus.Deriv.Mul

namespace Verif.Poly
open Verif.Poly.Spec

variable {nx nc : ℕ}

namespace Spec

/-- `K` bounds the slope, between `a` and `b`, of every polynomial with `nc` coefficients in terms of its size at the points
`X`. -/
def SlopeFactor (X : Fin nx → ℝ) (nc : ℕ) (a b K : ℝ) : Prop :=
  ∀ (q : Fin nc → ℝ) (m : ℝ), (∀ n, |value q (X n)| ≤ m) → ∀ v, a ≤ v → v ≤ b → |deriv (value q) v| ≤ K * m

end Spec

/-- Fits of two sets of data differ by no more than the data, in the mean square. -/
theorem fit_contracts {X Y Z : Fin nx → ℝ} {c d : Fin nc → ℝ} (hc : IsLeastSquares X Y c) (hd : IsLeastSquares X Z d) :
    ∑ n, (value c (X n) - value d (X n)) ^ 2 ≤ ∑ n, (Y n - Z n) ^ 2 := by
  have oc := orthogonal hc fun j => c j - d j
  have od := orthogonal hd fun j => c j - d j
  simp only [value_sub] at oc od
  have e : ∑ n, (Y n - Z n) ^ 2 = ∑ n, (value c (X n) - value d (X n)) ^ 2 +
      ∑ n, ((Y n - value c (X n)) - (Z n - value d (X n))) ^ 2 +
      2 * (∑ n, (Y n - value c (X n)) * (value c (X n) - value d (X n)) -
        ∑ n, (Z n - value d (X n)) * (value c (X n) - value d (X n))) := by
    rw [← Finset.sum_sub_distrib, Finset.mul_sum, ← Finset.sum_add_distrib, ← Finset.sum_add_distrib]
    exact Finset.sum_congr rfl fun n _ => by ring
  rw [e, oc, od]
  have : 0 ≤ ∑ n, ((Y n - value c (X n)) - (Z n - value d (X n))) ^ 2 := Finset.sum_nonneg fun n _ => sq_nonneg _
  linarith

/-- At each point the fits differ by at most `√n` times the largest error. -/
theorem fit_noise {X Y Z : Fin nx → ℝ} {c d : Fin nc → ℝ} (hc : IsLeastSquares X Y c) (hd : IsLeastSquares X Z d) {m : ℝ}
    (hm : ∀ n, |Y n - Z n| ≤ m) (n : Fin nx) : |value c (X n) - value d (X n)| ≤ √nx * m := by
  have h0 : 0 ≤ m := (abs_nonneg _).trans (hm n)
  have h1 : (value c (X n) - value d (X n)) ^ 2 ≤ nx * m ^ 2 := by
    calc _ ≤ ∑ n, (value c (X n) - value d (X n)) ^ 2 :=
          Finset.single_le_sum (f := fun n => (value c (X n) - value d (X n)) ^ 2) (fun _ _ => sq_nonneg _) (Finset.mem_univ n)
      _ ≤ ∑ n, (Y n - Z n) ^ 2 := fit_contracts hc hd
      _ ≤ ∑ _n : Fin nx, m ^ 2 := Finset.sum_le_sum fun n _ => by
          rw [← sq_abs]; exact pow_le_pow_left₀ (abs_nonneg _) (hm n) 2
      _ = nx * m ^ 2 := by simp
  have h2 : (√nx * m) ^ 2 = nx * m ^ 2 := by rw [mul_pow, Real.sq_sqrt (by positivity)]
  rw [← h2] at h1
  exact abs_le_of_sq_le_sq h1 (by positivity)

theorem hasDerivAt_sum_value (q : Fin nc → ℝ) (v : ℝ) :
    HasDerivAt (value q) (∑ j : Fin nc, q j * ((j : ℕ) * v ^ ((j : ℕ) - 1))) v := by
  have : HasDerivAt (fun x => ∑ j : Fin nc, q j * x ^ (j : ℕ)) (∑ j : Fin nc, q j * ((j : ℕ) * v ^ ((j : ℕ) - 1))) v :=
    HasDerivAt.fun_sum fun j _ => (hasDerivAt_pow (j : ℕ) v).const_mul (q j)
  exact this

/-- Values at the points, as a linear map of the coefficients. -/
def valueMap (X : Fin nx → ℝ) (nc : ℕ) : (Fin nc → ℝ) →ₗ[ℝ] (Fin nx → ℝ) where
  toFun q n := value q (X n)
  map_add' p q := funext fun n => by
    have := value_add p q 1 (X n)
    simp only [one_mul] at this
    exact this
  map_smul' t q := funext fun n => value_smul q t (X n)

/-- With enough points there is such a factor, on every interval. -/
theorem slopeFactor_exists {X : Fin nx → ℝ} (hX : Function.Injective X) (hn : nc ≤ nx) (a b : ℝ) :
    ∃ K, 0 ≤ K ∧ SlopeFactor X nc a b K := by
  have hker : LinearMap.ker (valueMap X nc) = ⊥ := by
    rw [LinearMap.ker_eq_bot]
    exact fun p q h => value_injective hX hn fun n => congrFun h n
  obtain ⟨C, hC0, hC⟩ := LinearMap.exists_antilipschitzWith (valueMap X nc) hker
  set M := max |a| |b| with hM
  set S := ∑ j : Fin nc, ((j : ℕ) : ℝ) * M ^ ((j : ℕ) - 1) with hS
  have hM0 : 0 ≤ M := (abs_nonneg a).trans (le_max_left _ _)
  have hS0 : 0 ≤ S := Finset.sum_nonneg fun j _ => by positivity
  refine ⟨C * S, by positivity, fun q m hq v h1 h2 => ?_⟩
  rcases Nat.eq_zero_or_pos nx with h0 | h0
  · obtain rfl : nc = 0 := by omega
    have hd := (hasDerivAt_sum_value q v).deriv
    simp only [Finset.univ_eq_empty, Finset.sum_empty] at hd
    simp [hd, hS]
  have hm : 0 ≤ m := (abs_nonneg _).trans (hq ⟨0, h0⟩)
  have hv : |v| ≤ M := by
    rw [abs_le]
    have := neg_abs_le a; have := le_abs_self b; have := le_max_left |a| |b|; have := le_max_right |a| |b|
    constructor <;> linarith
  have hnorm : ‖q‖ ≤ C * m := by
    have := hC.le_mul_dist q 0
    rw [map_zero, dist_zero_right, dist_zero_right] at this
    refine this.trans (mul_le_mul_of_nonneg_left ?_ C.2)
    exact (pi_norm_le_iff_of_nonneg hm).2 fun n => by rw [Real.norm_eq_abs]; exact hq n
  rw [(hasDerivAt_sum_value q v).deriv]
  calc |∑ j : Fin nc, q j * ((j : ℕ) * v ^ ((j : ℕ) - 1))| ≤ ∑ j : Fin nc, |q j * ((j : ℕ) * v ^ ((j : ℕ) - 1))| :=
        Finset.abs_sum_le_sum_abs _ _
    _ ≤ ∑ j : Fin nc, (C * m) * (((j : ℕ) : ℝ) * M ^ ((j : ℕ) - 1)) := Finset.sum_le_sum fun j _ => by
        rw [abs_mul, abs_mul, abs_pow, Nat.abs_cast]
        refine mul_le_mul ?_ ?_ (by positivity) (by positivity)
        · have := norm_le_pi_norm q j
          rw [Real.norm_eq_abs] at this
          exact this.trans hnorm
        · exact mul_le_mul_of_nonneg_left (pow_le_pow_left₀ (abs_nonneg _) hv _) (by positivity)
    _ = C * S * m := by rw [← Finset.mul_sum, ← hS]; ring

/-- Slopes of two fits. -/
theorem fit_slope {X Y Z : Fin nx → ℝ} {c d : Fin nc → ℝ} (hc : IsLeastSquares X Y c) (hd : IsLeastSquares X Z d) {m : ℝ}
    (hm : ∀ n, |Y n - Z n| ≤ m) {a b K : ℝ} (hK : SlopeFactor X nc a b K) {v : ℝ} (ha : a ≤ v) (hb : v ≤ b) :
    |deriv (value c) v - deriv (value d) v| ≤ K * (√nx * m) := by
  have h := hK (fun j => c j - d j) (√nx * m) (fun n => by rw [value_sub]; exact fit_noise hc hd hm n) v ha hb
  have e : value (fun j => c j - d j) = fun x => value c x - value d x := funext fun x => value_sub c d x
  rw [e, deriv_fun_sub (hasDerivAt_sum_value c v).differentiableAt (hasDerivAt_sum_value d v).differentiableAt] at h
  exact h

end Verif.Poly
