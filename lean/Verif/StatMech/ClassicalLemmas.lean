/-
Inequalities for hyperbolic functions behind C165.
-/
import Mathlib.Analysis.SpecialFunctions.Trigonometric.DerivHyp
import Mathlib.Analysis.SpecialFunctions.Exponential
import Mathlib.Analysis.SpecialFunctions.Trigonometric.Series
import Mathlib.Analysis.SpecialFunctions.Log.Deriv
import Mathlib.Analysis.Calculus.Deriv.MeanValue

namespace Verif.StatMech
open Real

theorem sinh_pos' {y : ℝ} (hy : 0 < y) : 0 < sinh y := sinh_pos_iff.2 hy

/-- `sinh y ≤ y cosh y`. -/
theorem sinh_le_mul_cosh {y : ℝ} (hy : 0 ≤ y) : sinh y ≤ y * cosh y := by
  have hd : ∀ x, HasDerivAt (fun x => x * cosh x - sinh x) (x * sinh x) x := fun x => by
    have := ((hasDerivAt_id x).mul (hasDerivAt_cosh x)).sub (hasDerivAt_sinh x)
    refine this.congr_deriv ?_
    simp
  have hm : MonotoneOn (fun x => x * cosh x - sinh x) (Set.Ici 0) := by
    refine monotoneOn_of_deriv_nonneg (convex_Ici 0) (fun x _ => (hd x).continuousAt.continuousWithinAt)
      (fun x _ => (hd x).differentiableAt.differentiableWithinAt) fun x hx => ?_
    rw [interior_Ici] at hx
    rw [(hd x).deriv]
    exact mul_nonneg hx.le (sinh_nonneg_iff.2 hx.le)
  have := hm (Set.mem_Ici.2 le_rfl) (Set.mem_Ici.2 hy) hy
  simp at this
  exact this

/-- `y coth y ≤ 1 + y² / 3`. -/
theorem mul_cosh_le {y : ℝ} (hy : 0 ≤ y) : y * cosh y ≤ (1 + y ^ 2 / 3) * sinh y := by
  have hd : ∀ x, HasDerivAt (fun x => (1 + x ^ 2 / 3) * sinh x - x * cosh x) (x / 3 * (x * cosh x - sinh x)) x := fun x => by
    have h1 : HasDerivAt (fun x : ℝ => 1 + x ^ 2 / 3) (2 * x / 3) x := by
      have := (((hasDerivAt_id x).pow 2).div_const 3).const_add 1
      refine this.congr_deriv ?_
      simp
    have := (h1.mul (hasDerivAt_sinh x)).sub ((hasDerivAt_id x).mul (hasDerivAt_cosh x))
    refine this.congr_deriv ?_
    simp
    ring
  have hm : MonotoneOn (fun x => (1 + x ^ 2 / 3) * sinh x - x * cosh x) (Set.Ici 0) := by
    refine monotoneOn_of_deriv_nonneg (convex_Ici 0) (fun x _ => (hd x).continuousAt.continuousWithinAt)
      (fun x _ => (hd x).differentiableAt.differentiableWithinAt) fun x hx => ?_
    rw [interior_Ici] at hx
    rw [(hd x).deriv]
    have hx' : 0 < x := hx
    exact mul_nonneg (by positivity) (sub_nonneg.2 (sinh_le_mul_cosh hx'.le))
  have := hm (Set.mem_Ici.2 le_rfl) (Set.mem_Ici.2 hy) hy
  simp at this
  exact this

/-- A monotone function on the positive axis bounded below by `-C a²` near zero is not negative. -/
theorem nonneg_of_mono {f : ℝ → ℝ} (hm : MonotoneOn f (Set.Ioi 0)) {C : ℝ} (hC : 0 ≤ C) (h : ∀ a, 0 < a → -(C * a ^ 2) ≤ f a)
    {y : ℝ} (hy : 0 < y) : 0 ≤ f y := by
  refine le_of_forall_pos_le_add fun ε hε => ?_
  set a := min y (min 1 (ε / (C + 1))) with ha
  have hC1 : 0 < C + 1 := by linarith
  have ha0 : 0 < a := lt_min hy (lt_min one_pos (div_pos hε hC1))
  have hay : a ≤ y := min_le_left _ _
  have ha1 : a ≤ 1 := (min_le_right _ _).trans (min_le_left _ _)
  have haε : a ≤ ε / (C + 1) := (min_le_right _ _).trans (min_le_right _ _)
  have h1 := hm (Set.mem_Ioi.2 ha0) (Set.mem_Ioi.2 hy) hay
  have h2 := h a ha0
  have h3 : C * a ^ 2 ≤ ε := by
    have : a ^ 2 ≤ a := by nlinarith
    have h4 : (C + 1) * a ≤ ε := by rw [le_div_iff₀ hC1] at haε; linarith
    nlinarith
  linarith

/-- `0 ≤ log (sinh y / y) ≤ y² / 6`. -/
theorem log_sinh_bounds {y : ℝ} (hy : 0 < y) : 0 ≤ log (sinh y / y) ∧ log (sinh y / y) ≤ y ^ 2 / 6 := by
  constructor
  · exact log_nonneg ((one_le_div hy).2 (self_le_sinh_iff.2 hy.le))
  have hd : ∀ x, 0 < x → HasDerivAt (fun x => x ^ 2 / 6 - log (sinh x / x)) (x / 3 - cosh x / sinh x + 1 / x) x := fun x hx => by
    have hs := (sinh_pos' hx).ne'
    have h1 : HasDerivAt (fun x => log (sinh x / x)) ((cosh x * x - sinh x * 1) / x ^ 2 / (sinh x / x)) x :=
      ((hasDerivAt_sinh x).div (hasDerivAt_id x) hx.ne').log (div_ne_zero hs hx.ne')
    have := (((hasDerivAt_id x).pow 2).div_const 6).sub h1
    refine this.congr_deriv ?_
    simp
    field_simp
    ring
  have hm : MonotoneOn (fun x => x ^ 2 / 6 - log (sinh x / x)) (Set.Ioi 0) := by
    refine monotoneOn_of_deriv_nonneg (convex_Ioi 0) (fun x hx => (hd x hx).continuousAt.continuousWithinAt)
      (fun x hx => (hd x (interior_subset hx)).differentiableAt.differentiableWithinAt) fun x hx => ?_
    rw [interior_Ioi] at hx
    have hx : 0 < x := hx
    rw [(hd x hx).deriv]
    have hs := sinh_pos' hx
    have := mul_cosh_le hx.le
    have e : x / 3 - cosh x / sinh x + 1 / x = ((1 + x ^ 2 / 3) * sinh x - x * cosh x) / (x * sinh x) := by
      field_simp
      ring
    rw [e]
    exact div_nonneg (by linarith) (by positivity)
  have := nonneg_of_mono hm (C := 1 / 3) (by norm_num) (fun a ha => by
    have h1 : sinh a / a ≤ cosh a := by rw [div_le_iff₀ ha]; linarith [sinh_le_mul_cosh ha.le]
    have h2 : log (sinh a / a) ≤ a ^ 2 / 2 := by
      rw [log_le_iff_le_exp (div_pos (sinh_pos' ha) ha)]
      exact h1.trans (cosh_le_exp_half_sq a)
    linarith) hy
  linarith

/-- `1 - y² / 3 ≤ (y / sinh y)² ≤ 1`. -/
theorem sq_div_sinh_bounds {y : ℝ} (hy : 0 < y) : 1 - y ^ 2 / 3 ≤ (y / sinh y) ^ 2 ∧ (y / sinh y) ^ 2 ≤ 1 := by
  have hs := sinh_pos' hy
  constructor
  · have h1 := (log_sinh_bounds hy).2
    have e : (y / sinh y) ^ 2 = exp (-(2 * log (sinh y / y))) := by
      rw [exp_neg, two_mul, exp_add, exp_log (div_pos hs hy)]
      field_simp
    rw [e]
    have := add_one_le_exp (-(2 * log (sinh y / y)))
    linarith
  · have : y / sinh y ≤ 1 := (div_le_one hs).2 (self_le_sinh_iff.2 hy.le)
    have h0 : 0 ≤ y / sinh y := by positivity
    nlinarith

/-- `1 ≤ y coth y - log (sinh y / y) ≤ 1 + y² / 6`. -/
theorem entropy_bounds {y : ℝ} (hy : 0 < y) : 1 ≤ y * cosh y / sinh y - log (sinh y / y) ∧
    y * cosh y / sinh y - log (sinh y / y) ≤ 1 + y ^ 2 / 6 := by
  have hd : ∀ x, 0 < x → HasDerivAt (fun x => x * cosh x / sinh x - log (sinh x / x)) (1 / x * (1 - (x / sinh x) ^ 2)) x :=
    fun x hx => by
    have hs := (sinh_pos' hx).ne'
    have h1 : HasDerivAt (fun x => log (sinh x / x)) ((cosh x * x - sinh x * 1) / x ^ 2 / (sinh x / x)) x :=
      ((hasDerivAt_sinh x).div (hasDerivAt_id x) hx.ne').log (div_ne_zero hs hx.ne')
    have h2 : HasDerivAt (fun x => x * cosh x / sinh x)
        (((1 * cosh x + x * sinh x) * sinh x - x * cosh x * cosh x) / sinh x ^ 2) x :=
      ((hasDerivAt_id x).mul (hasDerivAt_cosh x)).div (hasDerivAt_sinh x) hs
    refine (h2.sub h1).congr_deriv ?_
    have := cosh_sq x
    field_simp
    rw [this]
    ring
  have hd' : ∀ x, 0 < x → HasDerivAt (fun x => 1 + x ^ 2 / 6 - (x * cosh x / sinh x - log (sinh x / x)))
      (x / 3 - 1 / x * (1 - (x / sinh x) ^ 2)) x := fun x hx => by
    have := ((((hasDerivAt_id x).pow 2).div_const 6).const_add 1).sub (hd x hx)
    refine this.congr_deriv ?_
    simp
    ring
  have near : ∀ a, 0 < a → -(1 / 6 * a ^ 2) ≤ a * cosh a / sinh a - log (sinh a / a) - 1 ∧
      -(1 / 3 * a ^ 2) ≤ 1 + a ^ 2 / 6 - (a * cosh a / sinh a - log (sinh a / a)) := fun a ha => by
    have hs := sinh_pos' ha
    have h1 : 1 ≤ a * cosh a / sinh a := by rw [le_div_iff₀ hs]; linarith [sinh_le_mul_cosh ha.le]
    have h2 : a * cosh a / sinh a ≤ 1 + a ^ 2 / 3 := by rw [div_le_iff₀ hs]; exact mul_cosh_le ha.le
    have := log_sinh_bounds ha
    constructor <;> linarith
  constructor
  · have hm : MonotoneOn (fun x => x * cosh x / sinh x - log (sinh x / x) - 1) (Set.Ioi 0) := by
      refine monotoneOn_of_deriv_nonneg (convex_Ioi 0) (fun x hx => ((hd x hx).sub_const 1).continuousAt.continuousWithinAt)
        (fun x hx => ((hd x (interior_subset hx)).sub_const 1).differentiableAt.differentiableWithinAt) fun x hx => ?_
      rw [interior_Ioi] at hx
      have hx : 0 < x := hx
      rw [((hd x hx).sub_const 1).deriv]
      exact mul_nonneg (by positivity) (by linarith [(sq_div_sinh_bounds hx).2])
    have := nonneg_of_mono hm (C := 1 / 6) (by norm_num) (fun a ha => (near a ha).1) hy
    linarith
  · have hm : MonotoneOn (fun x => 1 + x ^ 2 / 6 - (x * cosh x / sinh x - log (sinh x / x))) (Set.Ioi 0) := by
      refine monotoneOn_of_deriv_nonneg (convex_Ioi 0) (fun x hx => (hd' x hx).continuousAt.continuousWithinAt)
        (fun x hx => (hd' x (interior_subset hx)).differentiableAt.differentiableWithinAt) fun x hx => ?_
      rw [interior_Ioi] at hx
      have hx : 0 < x := hx
      rw [(hd' x hx).deriv]
      have h1 := (sq_div_sinh_bounds hx).1
      have h2 : 1 / x * (1 - (x / sinh x) ^ 2) ≤ 1 / x * (x ^ 2 / 3) :=
        mul_le_mul_of_nonneg_left (by linarith) (by positivity)
      have e : 1 / x * (x ^ 2 / 3) = x / 3 := by field_simp
      linarith
    have := nonneg_of_mono hm (C := 1 / 3) (by norm_num) (fun a ha => (near a ha).2) hy
    linarith

end Verif.StatMech
