/-
Property theorems C20 (root selection), C21, C22.
-/
import Mathlib.Analysis.Complex.Norm
import Mathlib.Data.Complex.BigOperators
import Mathlib.Algebra.Polynomial.Roots
import Verif.Poly.Lemmas
import Verif.Poly.Spec

namespace Verif.Poly
open Verif.Poly.Spec

/-! ### C20  stationary points with positive curvature -/

theorem zero_of_polyval_ne {c : List ℝ} {x : ℝ} (h : polyval c x ≠ 0) : ∃ a ∈ c, a ≠ 0 := by
  by_contra hc
  push Not at hc
  apply h
  rw [polyval_eq_sum]
  exact Finset.sum_eq_zero fun i _ => by rw [hc _ (List.get_mem c i), zero_mul]

theorem polyder_ne {c : List ℝ} (h : ∃ a ∈ polyder c, a ≠ 0) : ∃ a ∈ c, a ≠ 0 := by
  obtain ⟨a, ha, hne⟩ := h
  have ha := List.mem_of_mem_tail ha
  obtain ⟨p, hp, rfl⟩ := List.mem_map.1 ha
  refine ⟨p.1, ?_, fun h => hne (by rw [h, mul_zero])⟩
  exact List.fst_mem_of_mem_zipIdx hp

theorem addConst_ne {c : List ℝ} (p : ℝ) (h : ∃ a ∈ polyder c, a ≠ 0) :
    ∃ a ∈ addConst c p, a ≠ 0 := by
  obtain ⟨a, ha, hne⟩ := h
  cases c with
  | nil => simp [polyder] at ha
  | cons b c =>
    obtain ⟨q, hq, rfl⟩ := List.mem_map.1 (by simpa [polyder, List.zipIdx_cons] using ha :
      a ∈ (c.zipIdx 1).map fun p => (p.2 : ℝ) * p.1)
    refine ⟨q.1, ?_, fun h => hne (by simp [h])⟩
    simp only [addConst, List.mem_cons]
    exact .inr (List.fst_mem_of_mem_zipIdx hq)

theorem mem_findPolynomialMinimum {roots : List ℝ → List ℂ} (hr : RootFinder roots)
    (f : List ℝ) (P x : ℝ) :
    x ∈ findPolynomialMinimum roots f (some P) ↔
      polyval (polyder f) x + P = 0 ∧ 0 < polyval (polyder (polyder f)) x := by
  simp only [findPolynomialMinimum, List.mem_filter, List.mem_map, decide_eq_true_eq, gt_iff_lt]
  constructor
  · rintro ⟨⟨z, ⟨hz, him⟩, rfl⟩, hc⟩
    refine ⟨?_, hc⟩
    have hne := addConst_ne P (zero_of_polyval_ne hc.ne')
    have := (hr.zeros _ hne z).1 hz
    have hzz : z = ((z.re : ℝ) : ℂ) := Complex.ext rfl (by simpa using him)
    have h2 := polyval_eq_sum (addConst (polyder f) P) z.re
    rw [polyval_addConst] at h2
    rw [h2]
    have h3 : ((∑ i : Fin (addConst (polyder f) P).length,
        (addConst (polyder f) P).get i * z.re ^ (i : ℕ) : ℝ) : ℂ) = 0 := by
      rw [hzz] at this
      rw [Complex.ofReal_sum]
      simpa only [Complex.ofReal_mul, Complex.ofReal_pow] using this
    exact_mod_cast h3
  · rintro ⟨h1, hc⟩
    refine ⟨⟨(x : ℂ), ⟨?_, by simp⟩, by simp⟩, hc⟩
    have hne := addConst_ne P (zero_of_polyval_ne hc.ne')
    refine (hr.zeros _ hne _).2 ?_
    have h2 := polyval_eq_sum (addConst (polyder f) P) x
    rw [polyval_addConst, h1] at h2
    have h3 := congrArg (fun t : ℝ => (t : ℂ)) h2.symm
    rw [Complex.ofReal_sum] at h3
    simpa only [Complex.ofReal_mul, Complex.ofReal_pow, Complex.ofReal_zero] using h3

/-- The values returned are exactly the points where the slope of `f` is `-P` and the curvature
is positive. -/
theorem C20_candidates {roots : List ℝ → List ℂ} (hr : RootFinder roots) (f : List ℝ)
    (P x : ℝ) :
    x ∈ findPolynomialMinimum roots f (some P) ↔
      deriv (polyval f) x = -P ∧ 0 < deriv (deriv (polyval f)) x := by
  rw [mem_findPolynomialMinimum hr, deriv_polyval, deriv_polyval]
  constructor
  · rintro ⟨h, h'⟩; exact ⟨by linarith, h'⟩
  · rintro ⟨h, h'⟩; exact ⟨by linarith, h'⟩

/-- Each of them is a strict local minimum of `f(V) + P V`. -/
theorem C20_strict_local_minimum {roots : List ℝ → List ℂ} (hr : RootFinder roots)
    (f : List ℝ) (P x : ℝ) (hx : x ∈ findPolynomialMinimum roots f (some P)) :
    ∀ᶠ V in nhdsWithin x {x}ᶜ, polyval f x + P * x < polyval f V + P * V := by
  obtain ⟨h1, h2⟩ := (mem_findPolynomialMinimum hr f P x).1 hx
  have hd : ∀ t, HasDerivAt (fun V => polyval f V + P * V) (polyval (polyder f) t + P) t := by
    intro t
    have h : HasDerivAt (fun V => polyval f V + P * V) (polyval (polyder f) t + P * 1) t :=
      (hasDerivAt_polyval f t).add ((hasDerivAt_id t).const_mul P)
    exact h.congr_deriv (by ring)
  have e : deriv (fun V => polyval f V + P * V) = fun t => polyval (polyder f) t + P :=
    funext fun t => (hd t).deriv
  refine strict_local_min (f := fun V => polyval f V + P * V)
    (fun t => (hd t).differentiableAt) ?_ ?_
  · rw [e]; exact h1
  · rw [e, deriv_add_const, deriv_polyval]; exact h2

/-- A correct root finder exists (so the hypothesis of C20 can be met). -/
theorem rootFinder_exists : ∃ roots, RootFinder roots := by
  classical
  let poly : List ℝ → Polynomial ℂ := fun c =>
    ∑ i : Fin c.length, Polynomial.C ((c.get i : ℝ) : ℂ) * Polynomial.X ^ (i : ℕ)
  have hev : ∀ c z, (poly c).eval z = ∑ i : Fin c.length, ((c.get i : ℝ) : ℂ) * z ^ (i : ℕ) := by
    intro c z; simp [poly, Polynomial.eval_finsetSum]
  refine ⟨fun c => (poly c).roots.toList, ⟨fun c hc z => ?_, fun c hc => ?_⟩⟩
  · have hne : poly c ≠ 0 := by
      obtain ⟨a, ha, hne⟩ := hc
      obtain ⟨i, rfl⟩ := List.mem_iff_get.1 ha
      intro h0
      have := congrArg (fun p => Polynomial.coeff p i) h0
      simp only [poly, Polynomial.finsetSum_coeff, Polynomial.coeff_C_mul,
        Polynomial.coeff_X_pow, Polynomial.coeff_zero] at this
      rw [Finset.sum_eq_single i] at this
      · simp at this; exact hne this
      · intro j _ hj
        have : (i : ℕ) ≠ j := fun h => hj (Fin.ext h.symm)
        simp [this]
      · simp
    rw [Multiset.mem_toList, Polynomial.mem_roots hne, Polynomial.IsRoot.def, hev]
  · have : poly c = 0 := by
      refine Finset.sum_eq_zero fun i _ => ?_
      rw [hc _ (List.get_mem c i)]; simp
    simp [this]

/-- Witness for C20: `f(V) = V^2 - 6 V` at `P = 2` has the minimum 2. -/
example (roots) (hr : RootFinder roots) : (2:ℝ) ∈ findPolynomialMinimum roots [0, -6, 1] (some 2) := by
  rw [mem_findPolynomialMinimum hr]
  simp [polyder, polyval, List.zipIdx]
  norm_num

/-- The values `polyval` computes are those of the polynomial with the given coefficients. -/
theorem C21_polyval (c : List ℝ) (x : ℝ) : polyval c x = value c.get x := polyval_eq_sum c x

/-! ### C21  interpolation -/

variable {np nv nc nx : ℕ}

theorem multiInterpolateArray_eq (X : Fin nx → ℝ) (c : Fin nv → Fin nc → ℝ) (i : Fin nv)
    (k : Fin nx) : multiInterpolateArray X c i k = value (c i) (X k) := by
  simp only [multiInterpolateArray, sInterp, value]
  exact foldl_finRange nc fun j => c i j * X k ^ (j : ℕ)

theorem multiInterpolateScalar_eq (x : ℝ) (c : Fin nv → Fin nc → ℝ) (i : Fin nv) :
    multiInterpolateScalar x c i = value (c i) x := by
  simp only [multiInterpolateScalar, sInterp, value]
  exact foldl_finRange nc fun j => c i j * x ^ (j : ℕ)

/-- Both code paths evaluate the polynomial of each row. -/
theorem C21_multi_interpolate (X : Fin nx → ℝ) (c : Fin nv → Fin nc → ℝ) (i : Fin nv)
    (k : Fin nx) :
    multiInterpolateArray X c i k = value (c i) (X k) ∧
    multiInterpolateScalar (X k) c i = multiInterpolateArray X c i k :=
  ⟨multiInterpolateArray_eq X c i k, by
    rw [multiInterpolateScalar_eq, multiInterpolateArray_eq]⟩

/-- Linear in the coefficients. -/
theorem C21_linear (X : Fin nx → ℝ) (c d : Fin nv → Fin nc → ℝ) (a b : ℝ) (i : Fin nv)
    (k : Fin nx) :
    multiInterpolateArray X (fun i j => a * c i j + b * d i j) i k =
      a * multiInterpolateArray X c i k + b * multiInterpolateArray X d i k := by
  simp only [multiInterpolateArray_eq, value, Finset.mul_sum, ← Finset.sum_add_distrib]
  exact Finset.sum_congr rfl fun j _ => by ring

/-- `interpolate` gives the same numbers whatever the rank of the coefficient array: rows of a
rank-2 or rank-3 array are evaluated like a rank-1 array. -/
theorem C21_ranks (X : Fin nx → ℝ) (c : Fin np → Fin nv → Fin nc → ℝ) (q : Fin np) (i : Fin nv)
    (k : Fin nx) :
    (∃ v3, interpolate X (.three nc c) = .three v3 ∧
      ∃ v2, interpolate X (.two nc (c q) : Coeffs np nv) = .two v2 ∧
      ∃ v1, interpolate X (.one (List.ofFn (c q i)) : Coeffs np nv) = .one v1 ∧
      v3 q i k = v2 i k ∧ v2 i k = v1 k ∧ v1 k = value (c q i) (X k)) := by
  refine ⟨_, rfl, _, rfl, _, rfl, rfl, ?_, ?_⟩
  · rw [multiInterpolateArray_eq, polyval_eq_sum]
    exact sum_ofFn (c q i) (X k)
  · rw [polyval_eq_sum]
    exact (sum_ofFn (c q i) (X k)).symm
where
  sum_ofFn {n : ℕ} (c : Fin n → ℝ) (x : ℝ) : value c x =
      ∑ m : Fin (List.ofFn c).length, (List.ofFn c).get m * x ^ (m : ℕ) := by
    unfold value
    refine (Fintype.sum_equiv (finCongr (List.length_ofFn)) _ _ fun m => ?_).symm
    simp only [List.get_ofFn]
    rfl

/-! ### C22  goodness of fit -/

theorem multiR2_eq (X : Fin nx → ℝ) (Y : Fin nv → Fin nx → ℝ) (c : Fin nv → Fin nc → ℝ)
    (i : Fin nv) :
    multiR2 X Y c i =
      if sstot (Y i) = 0 then 0
      else (∑ k, (value (c i) (X k) - mean (Y i)) ^ 2) / sstot (Y i) := by
  have hm : (List.finRange nx).foldl (fun acc j => acc + Y i j / (nx:ℝ)) 0 = mean (Y i) := by
    rw [foldl_finRange nx fun j => Y i j / (nx:ℝ), mean, Finset.sum_div]
  simp only [multiR2, hm, multiInterpolateArray_eq]
  rw [foldl_finRange nx fun j => (Y i j - mean (Y i)) ^ 2,
    foldl_finRange nx fun j => (value (c i) (X j) - mean (Y i)) ^ 2]
  rfl

theorem sstot_eq_zero_iff (Y : Fin nx → ℝ) : sstot Y = 0 ↔ ∀ k k', Y k = Y k' := by
  unfold sstot
  rw [Finset.sum_eq_zero_iff_of_nonneg fun k _ => sq_nonneg _]
  constructor
  · intro h k k'
    have h1 := pow_eq_zero_iff (two_ne_zero) |>.1 (h k (Finset.mem_univ _))
    have h2 := pow_eq_zero_iff (two_ne_zero) |>.1 (h k' (Finset.mem_univ _))
    linarith
  · intro h k _
    have hn : (nx:ℝ) ≠ 0 := by
      have := k.pos
      positivity
    have : mean Y = Y k := by
      unfold mean
      rw [Finset.sum_congr rfl fun k' _ => h k' k]
      simp only [Finset.sum_const, Finset.card_univ, Fintype.card_fin, nsmul_eq_mul]
      field_simp
    rw [this]; ring

/-- Never negative. -/
theorem C22_nonneg (X : Fin nx → ℝ) (Y : Fin nv → Fin nx → ℝ) (c : Fin nv → Fin nc → ℝ)
    (i : Fin nv) : 0 ≤ multiR2 X Y c i := by
  rw [multiR2_eq]
  split
  · exact le_refl _
  · exact div_nonneg (Finset.sum_nonneg fun _ _ => sq_nonneg _)
      (Finset.sum_nonneg fun _ _ => sq_nonneg _)

/-- Exactly 1 when the polynomial goes through all points and the data are not constant. -/
theorem C22_exact_fit (X : Fin nx → ℝ) (Y : Fin nv → Fin nx → ℝ) (c : Fin nv → Fin nc → ℝ)
    (i : Fin nv) (hfit : ∀ k, value (c i) (X k) = Y i k) (hne : ∃ k k', Y i k ≠ Y i k') :
    multiR2 X Y c i = 1 := by
  have h : sstot (Y i) ≠ 0 := by
    rw [Ne, sstot_eq_zero_iff]; push Not; exact hne
  rw [multiR2_eq, if_neg h]
  simp only [hfit]
  exact div_self h

/-- The one-dimensional and the two-dimensional routine agree on data that are not constant; on
constant data the latter reports 0 and the former is not a number. -/
theorem C22_agree (X : Fin nx → ℝ) (Y : Fin nv → Fin nx → ℝ) (c : Fin nv → Fin nc → ℝ)
    (i : Fin nv) :
    ((∃ k k', Y i k ≠ Y i k') →
      singleRSquared X (Y i) (List.ofFn (c i)) = some (multiR2 X Y c i)) ∧
    ((∀ k k', Y i k = Y i k') →
      singleRSquared X (Y i) (List.ofFn (c i)) = none ∧ multiR2 X Y c i = 0) := by
  have hp : ∀ x, polyval (List.ofFn (c i)) x = value (c i) x := fun x => by
    rw [polyval_eq_sum]; exact (C21_ranks.sum_ofFn (c i) x).symm
  have hs : singleRSquared X (Y i) (List.ofFn (c i)) = if sstot (Y i) = 0 then none
      else some ((∑ k, (value (c i) (X k) - mean (Y i)) ^ 2) / sstot (Y i)) := by
    simp only [singleRSquared, hp]
    rfl
  constructor
  · intro hne
    have h : sstot (Y i) ≠ 0 := by
      rw [Ne, sstot_eq_zero_iff]; push Not; exact hne
    rw [hs, multiR2_eq, if_neg h, if_neg h]
  · intro hc
    have h := (sstot_eq_zero_iff (Y i)).2 hc
    rw [hs, multiR2_eq, if_pos h, if_pos h]
    exact ⟨rfl, rfl⟩

theorem value_add (c d : Fin nc → ℝ) (t x : ℝ) :
    value (fun j => c j + t * d j) x = value c x + t * value d x := by
  simp only [value, Finset.mul_sum, ← Finset.sum_add_distrib]
  exact Finset.sum_congr rfl fun j _ => by ring

/-- Normal equations: the residuals of a least-squares fit are orthogonal to every polynomial of
the same family. -/
theorem orthogonal {X Y : Fin nx → ℝ} {c : Fin nc → ℝ} (h : IsLeastSquares X Y c)
    (d : Fin nc → ℝ) : ∑ k, (Y k - value c (X k)) * value d (X k) = 0 := by
  set a := ∑ k, (Y k - value c (X k)) * value d (X k) with ha
  set b := ∑ k, value d (X k) ^ 2 with hb
  have key : ∀ t : ℝ, 0 ≤ -2 * t * a + t ^ 2 * b := by
    intro t
    have := h fun j => c j + t * d j
    simp only [ssres, value_add] at this
    have e : ∑ k, (Y k - (value c (X k) + t * value d (X k))) ^ 2 =
        ∑ k, (Y k - value c (X k)) ^ 2 + (-2 * t * a + t ^ 2 * b) := by
      rw [ha, hb, Finset.mul_sum, Finset.mul_sum, ← Finset.sum_add_distrib,
        ← Finset.sum_add_distrib]
      exact Finset.sum_congr rfl fun k _ => by ring
    rw [e] at this
    linarith
  have hb0 : 0 ≤ b := Finset.sum_nonneg fun _ _ => sq_nonneg _
  rcases hb0.eq_or_lt with h0 | hp
  · have h1 := key 1; have h2 := key (-1)
    rw [← h0] at h1 h2
    linarith
  · have h1 := key (a / b)
    have e : -2 * (a / b) * a + (a / b) ^ 2 * b = -(a ^ 2 / b) := by field_simp; ring
    rw [e] at h1
    have h2 : a ^ 2 / b ≤ 0 := by linarith
    have h3 : a ^ 2 ≤ 0 := by
      by_contra hcon
      push Not at hcon
      have := div_pos hcon hp
      linarith
    exact pow_eq_zero_iff (two_ne_zero) |>.1 (le_antisymm h3 (sq_nonneg a))

/-- For a least-squares fit (with a constant term) the figure is the usual `1 - SSres/SStot`,
hence at most 1. -/
theorem C22_least_squares (X : Fin nx → ℝ) (Y : Fin nv → Fin nx → ℝ)
    (c : Fin nv → Fin (nc + 1) → ℝ) (i : Fin nv) (h : IsLeastSquares X (Y i) (c i))
    (hne : ∃ k k', Y i k ≠ Y i k') :
    multiR2 X Y c i = 1 - ssres X (Y i) (c i) / sstot (Y i) ∧ multiR2 X Y c i ≤ 1 := by
  have hs : sstot (Y i) ≠ 0 := by
    rw [Ne, sstot_eq_zero_iff]; push Not; exact hne
  have hone : ∀ x, value (Fin.cons 1 (fun _ => 0) : Fin (nc + 1) → ℝ) x = 1 := by
    intro x; simp [value, Fin.sum_univ_succ]
  have o1 := orthogonal h (c i)
  have o2 := orthogonal h (Fin.cons 1 (fun _ => 0))
  simp only [hone, mul_one] at o2
  have e : sstot (Y i) = ssres X (Y i) (c i) +
      ∑ k, (value (c i) (X k) - mean (Y i)) ^ 2 := by
    have : ∀ k, (Y i k - mean (Y i)) ^ 2 = (Y i k - value (c i) (X k)) ^ 2 +
        (value (c i) (X k) - mean (Y i)) ^ 2 +
        (2 * ((Y i k - value (c i) (X k)) * value (c i) (X k)) -
          2 * mean (Y i) * (Y i k - value (c i) (X k))) := fun k => by ring
    simp only [sstot, ssres, this, Finset.sum_add_distrib, Finset.sum_sub_distrib,
      ← Finset.mul_sum, o1, o2]
    ring
  have hr : multiR2 X Y c i = 1 - ssres X (Y i) (c i) / sstot (Y i) := by
    rw [multiR2_eq, if_neg hs]
    field_simp
    linarith
  refine ⟨hr, ?_⟩
  rw [hr]
  have : 0 ≤ ssres X (Y i) (c i) / sstot (Y i) :=
    div_nonneg (Finset.sum_nonneg fun _ _ => sq_nonneg _)
      (Finset.sum_nonneg fun _ _ => sq_nonneg _)
  linarith

/-- Witnesses for C22: the line `1 + 2 x` through (0,1), (1,3) fits exactly, hence is a
least-squares fit, and the data are not constant. -/
example : (∀ k : Fin 2, value (![1, 2] : Fin 2 → ℝ) ((![0, 1] : Fin 2 → ℝ) k) =
      (![1, 3] : Fin 2 → ℝ) k) ∧
    (∃ k k', (![1, 3] : Fin 2 → ℝ) k ≠ (![1, 3] : Fin 2 → ℝ) k') ∧
    IsLeastSquares (![0, 1] : Fin 2 → ℝ) ![1, 3] (![1, 2] : Fin 2 → ℝ) := by
  have h : ∀ k : Fin 2, value (![1, 2] : Fin 2 → ℝ) ((![0, 1] : Fin 2 → ℝ) k) =
      (![1, 3] : Fin 2 → ℝ) k := by
    intro k; fin_cases k <;> simp [value, Fin.sum_univ_two]
    norm_num
  refine ⟨h, ⟨0, 1, by simp⟩, fun c' => ?_⟩
  have : ssres (![0, 1] : Fin 2 → ℝ) ![1, 3] (![1, 2] : Fin 2 → ℝ) = 0 := by
    simp only [ssres, h]; simp
  rw [this]
  exact Finset.sum_nonneg fun _ _ => sq_nonneg _

end Verif.Poly
