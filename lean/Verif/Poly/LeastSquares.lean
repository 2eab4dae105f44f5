/- Existence, uniqueness and linearity of polynomial least squares. -/
import Mathlib.LinearAlgebra.Matrix.ToLin
import Mathlib.Algebra.Polynomial.Roots
import Mathlib.LinearAlgebra.BilinearForm.Properties
import Mathlib.Analysis.InnerProductSpace.Projection.Minimal
import Mathlib.Analysis.InnerProductSpace.PiL2
import Verif.Poly.Props

namespace Verif.Poly
open Verif.Poly.Spec

variable {nx nc : ℕ}

theorem value_sub (c d : Fin nc → ℝ) (x : ℝ) :
    value (fun j => c j - d j) x = value c x - value d x := by
  simp only [value, ← Finset.sum_sub_distrib]
  exact Finset.sum_congr rfl fun j _ => by ring

theorem value_smul (c : Fin nc → ℝ) (t x : ℝ) :
    value (fun j => t * c j) x = t * value c x := by
  simp only [value, Finset.mul_sum]
  exact Finset.sum_congr rfl fun j _ => by ring

/-- Polynomials of degree below `nc` that agree at `nc` or more distinct points are equal. -/
theorem value_injective {X : Fin nx → ℝ} (hX : Function.Injective X) (hn : nc ≤ nx)
    {c d : Fin nc → ℝ} (h : ∀ k, value c (X k) = value d (X k)) : c = d := by
  classical
  let p : Polynomial ℝ := ∑ j : Fin nc, Polynomial.C (c j - d j) * Polynomial.X ^ (j : ℕ)
  have hev : ∀ x, p.eval x = value (fun j => c j - d j) x := by
    intro x; simp [p, value, Polynomial.eval_finsetSum]
  have hdeg : p.degree < nc := by
    refine lt_of_le_of_lt (Polynomial.degree_sum_le _ _) ?_
    rw [Finset.sup_lt_iff (WithBot.bot_lt_coe _)]
    intro j _
    refine lt_of_le_of_lt (Polynomial.degree_C_mul_X_pow_le _ _) ?_
    exact_mod_cast j.isLt
  have hp : p = 0 := by
    by_contra hne
    have hcard : Multiset.card p.roots < nc := by
      have := Polynomial.card_roots hne
      exact_mod_cast lt_of_le_of_lt this hdeg
    have hsub : (Finset.univ.image X) ⊆ p.roots.toFinset := by
      intro x hx
      obtain ⟨k, _, rfl⟩ := Finset.mem_image.1 hx
      rw [Multiset.mem_toFinset, Polynomial.mem_roots hne, Polynomial.IsRoot, hev, value_sub, h k,
        sub_self]
    have h1 := Finset.card_le_card hsub
    rw [Finset.card_image_of_injective _ hX, Finset.card_univ, Fintype.card_fin] at h1
    have h2 := Multiset.toFinset_card_le p.roots
    omega
  funext j
  have hc : p.coeff j = c j - d j := by
    simp only [p, Polynomial.finsetSum_coeff, Polynomial.coeff_C_mul, Polynomial.coeff_X_pow]
    rw [Finset.sum_eq_single j]
    · simp
    · intro b _ hb
      rw [if_neg fun h => hb (Fin.ext h.symm), mul_zero]
    · simp
  rw [hp, Polynomial.coeff_zero] at hc
  linarith

/-- Least squares is linear in the data. -/
theorem leastSquares_linear {X Y Z : Fin nx → ℝ} (hX : Function.Injective X) (hn : nc ≤ nx) (t : ℝ)
    {c d e : Fin nc → ℝ} (hc : IsLeastSquares X Y c) (hd : IsLeastSquares X Z d)
    (he : IsLeastSquares X (fun k => Y k + t * Z k) e) : e = fun j => c j + t * d j := by
  set q : Fin nc → ℝ := fun j => e j - (c j + t * d j) with hq
  have oc := orthogonal hc q
  have od := orthogonal hd q
  have oe := orthogonal he q
  have hv : ∀ x, value q x = value e x - (value c x + t * value d x) := fun x => by
    rw [hq, value_sub, value_add]
  have hz : ∑ k, value q (X k) ^ 2 = 0 := by
    have : ∑ k, value q (X k) ^ 2 =
        ∑ k, (Y k - value c (X k)) * value q (X k) + t * ∑ k, (Z k - value d (X k)) * value q (X k)
        - ∑ k, (Y k + t * Z k - value e (X k)) * value q (X k) := by
      rw [Finset.mul_sum, ← Finset.sum_add_distrib, ← Finset.sum_sub_distrib]
      refine Finset.sum_congr rfl fun k _ => ?_
      rw [pow_two]
      nth_rw 1 [hv]
      ring
    rw [this, oc, od, oe]; ring
  rw [Finset.sum_eq_zero_iff_of_nonneg fun k _ => sq_nonneg _] at hz
  refine value_injective hX hn fun k => ?_
  have := pow_eq_zero_iff two_ne_zero |>.1 (hz k (Finset.mem_univ _))
  rw [hv] at this
  rw [value_add]
  linarith

/-- Data lying on a polynomial of the family are reproduced. -/
theorem leastSquares_exact {X Y : Fin nx → ℝ} {c d : Fin nc → ℝ} (hc : IsLeastSquares X Y c)
    (hd : ∀ k, Y k = value d (X k)) (k : Fin nx) : value c (X k) = Y k := by
  have h := hc d
  have h0 : ssres X Y d = 0 := Finset.sum_eq_zero fun k _ => by rw [hd k]; ring
  rw [h0] at h
  have hz : ssres X Y c = 0 := le_antisymm h (Finset.sum_nonneg fun _ _ => sq_nonneg _)
  rw [ssres, Finset.sum_eq_zero_iff_of_nonneg fun k _ => sq_nonneg _] at hz
  have := pow_eq_zero_iff two_ne_zero |>.1 (hz k (Finset.mem_univ _))
  linarith

/-- A least-squares fit always exists. -/
theorem leastSquares_exists (X Y : Fin nx → ℝ) : ∃ c : Fin nc → ℝ, IsLeastSquares X Y c := by
  let f : (Fin nc → ℝ) →ₗ[ℝ] EuclideanSpace ℝ (Fin nx) :=
    { toFun := fun c => WithLp.toLp 2 fun k => value c (X k)
      map_add' := by
        intro c d
        ext k
        have := value_add c d 1 (X k)
        simp only [one_mul] at this
        exact this
      map_smul' := by
        intro t c
        ext k
        exact value_smul c t (X k) }
  let y : EuclideanSpace ℝ (Fin nx) := WithLp.toLp 2 Y
  obtain ⟨v, hv, hmin⟩ := (LinearMap.range f).exists_norm_eq_iInf_of_complete_subspace
    (Submodule.complete_of_finiteDimensional _) y
  obtain ⟨c, rfl⟩ := hv
  refine ⟨c, fun c' => ?_⟩
  have hle : ‖y - f c‖ ≤ ‖y - f c'‖ := by
    rw [hmin]
    exact ciInf_le (f := fun w : (LinearMap.range f : Submodule ℝ _) => ‖y - w‖)
      ⟨(0:ℝ), by rintro _ ⟨w, rfl⟩; exact norm_nonneg _⟩
      ⟨f c', LinearMap.mem_range_self f c'⟩
  have hs : ∀ c, ssres X Y c = ‖y - f c‖ ^ 2 := by
    intro c
    rw [EuclideanSpace.norm_sq_eq]
    refine Finset.sum_congr rfl fun k _ => ?_
    rw [Real.norm_eq_abs, sq_abs]
    rfl
  rw [hs, hs]
  gcongr

end Verif.Poly
