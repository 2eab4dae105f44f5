/- Proof work: calculus of the single-oscillator functions. -/
import Mathlib.Analysis.SpecialFunctions.Log.Deriv
import Mathlib.Analysis.SpecialFunctions.ExpDeriv
import Mathlib.Analysis.SpecialFunctions.Exp
import Mathlib.Analysis.SpecialFunctions.Trigonometric.DerivHyp
import Mathlib.Analysis.Calculus.Deriv.MeanValue
import Verif.StatMech.Schedule

namespace Verif.StatMech
open Verif.Units (Consts)
open Filter Topology

/-- `h ω / kB`, the Einstein temperature of the mode. -/
noncomputable def einstein (k : Consts) (ω : ℝ) : ℝ := k.h * ω / k.kB

theorem einstein_pos (k : Consts) {ω : ℝ} (h : 0 < ω) : 0 < einstein k ω :=
  div_pos (mul_pos k.h_pos h) k.kB_pos

theorem x_eq (k : Consts) (T ω : ℝ) : k.h * ω / (k.kB * T) = einstein k ω / T := by
  rw [einstein, div_div]

theorem milli : (10 : ℝ) ^ (-3 : ℤ) = 1 / 1000 := by norm_num

theorem hoZpe_pos (k : Consts) (T : ℝ) {ω : ℝ} (h : 0 < ω) :
    hoZpe k T ω = k.N * k.h * ω / 2000 := by
  rw [hoZpe, if_neg (not_le.2 h), milli]; ring

theorem hoEth_pos (k : Consts) {T ω : ℝ} (hT : T ≠ 0) (h : 0 < ω) :
    hoEth k T ω = k.N * k.kB / 1000 * (einstein k ω / (Real.exp (einstein k ω / T) - 1)) := by
  have hk := k.kB_pos.ne'
  rw [hoEth, if_neg (by simp [hT, h])]
  simp only [x_eq, milli]
  rw [einstein]; field_simp

theorem hoS_pos (k : Consts) {T ω : ℝ} (hT : T ≠ 0) (h : 0 < ω) :
    hoS k T ω = k.N * k.kB * (einstein k ω / T / (Real.exp (einstein k ω / T) - 1) -
      Real.log (1 - Real.exp (-(einstein k ω / T)))) := by
  rw [hoS, if_neg (by simp [hT, h])]
  simp only [x_eq]
  congr 2
  ring

theorem hoF_pos (k : Consts) {T ω : ℝ} (hT : T ≠ 0) (h : 0 < ω) :
    hoF k T ω = k.N * k.kB / 1000 * (einstein k ω / 2 +
      T * Real.log (1 - Real.exp (-(einstein k ω / T)))) := by
  have hk := k.kB_pos.ne'
  rw [hoF, if_neg (not_le.2 h)]
  simp only [if_neg hT, x_eq, milli]
  have : k.h * ω = einstein k ω * k.kB := by rw [einstein]; field_simp
  rw [this]
  ring

theorem hoCv_pos (k : Consts) {T ω : ℝ} (hT : T ≠ 0) (h : 0 < ω) :
    hoCv k T ω = k.N * k.kB * (Real.exp (einstein k ω / T) *
      (einstein k ω / T / (Real.exp (einstein k ω / T) - 1)) ^ 2) := by
  rw [hoCv, if_neg (by simp [hT, h])]
  simp only [x_eq]
  split_ifs with h0
  · rw [h0]; simp
  · ring

theorem hoF_zero (k : Consts) {ω : ℝ} (h : 0 < ω) : hoF k 0 ω = hoZpe k 0 ω := by
  rw [hoF, hoZpe, if_neg (not_le.2 h), if_neg (not_le.2 h)]
  simp only [if_true]
  ring

theorem exp_sub_one_pos {x : ℝ} (h : 0 < x) : 0 < Real.exp x - 1 := by
  have := Real.add_one_lt_exp h.ne'
  linarith

theorem one_sub_exp_neg_pos {x : ℝ} (h : 0 < x) : 0 < 1 - Real.exp (-x) := by
  have : Real.exp (-x) < 1 := by rw [← Real.exp_zero]; exact Real.exp_lt_exp.2 (by linarith)
  linarith

theorem exp_neg_div (x : ℝ) (h : 0 < x) :
    Real.exp (-x) / (1 - Real.exp (-x)) = 1 / (Real.exp x - 1) := by
  have h1 := (exp_sub_one_pos h).ne'
  have h2 := (one_sub_exp_neg_pos h).ne'
  rw [div_eq_div_iff h2 h1, mul_sub, ← Real.exp_add]
  simp

/-- Derivative of `a / t`. -/
theorem hasDerivAt_div_t (a : ℝ) {T : ℝ} (hT : T ≠ 0) :
    HasDerivAt (fun t => a / t) (-(a / T ^ 2)) T := by
  have h : HasDerivAt (fun t => a / t) ((0 * T - a * 1) / T ^ 2) T :=
    (hasDerivAt_const T a).div (hasDerivAt_id T) hT
  refine h.congr_deriv ?_
  ring

theorem hasDerivAt_logterm {a T : ℝ} (ha : 0 < a) (hT : 0 < T) :
    HasDerivAt (fun t => Real.log (1 - Real.exp (-(a / t))))
      (-(a / T ^ 2) * (1 / (Real.exp (a / T) - 1))) T := by
  have hx := div_pos ha hT
  have h1 : HasDerivAt (fun t => 1 - Real.exp (-(a / t)))
      (-(Real.exp (-(a / T)) * - -(a / T ^ 2))) T :=
    ((hasDerivAt_div_t a hT.ne').neg.exp).const_sub 1
  refine (h1.log (one_sub_exp_neg_pos hx).ne').congr_deriv ?_
  rw [← exp_neg_div _ hx]
  simp only [neg_neg]
  ring

theorem hasDerivAt_planck {a T : ℝ} (ha : 0 < a) (hT : 0 < T) :
    HasDerivAt (fun t => a / (Real.exp (a / t) - 1))
      (Real.exp (a / T) * (a / T / (Real.exp (a / T) - 1)) ^ 2) T := by
  have hx := div_pos ha hT
  have h0 := (exp_sub_one_pos hx).ne'
  have h1 := ((hasDerivAt_div_t a hT.ne').exp).sub_const 1
  have h2 : HasDerivAt (fun t => a / (Real.exp (a / t) - 1)) _ T :=
    (hasDerivAt_const T a).div h1 h0
  refine h2.congr_deriv ?_
  field_simp
  ring

theorem eventually_ne_zero {T : ℝ} (hT : 0 < T) : ∀ᶠ t in 𝓝 T, t ≠ 0 :=
  isOpen_ne.mem_nhds hT.ne'

theorem hasDerivAt_hoF (k : Consts) {T : ℝ} (hT : 0 < T) (ω : ℝ) :
    HasDerivAt (fun t => hoF k t ω) (-(hoS k T ω) / 1000) T := by
  rcases le_or_gt ω 0 with h | h
  · simp only [hoF, hoS, if_pos h, if_pos (Or.inl h)]
    simpa using hasDerivAt_const T (0 : ℝ)
  · have ha := einstein_pos k h
    have hx := div_pos ha hT
    have h0 := (exp_sub_one_pos hx).ne'
    have h1 := ((hasDerivAt_id T).mul (hasDerivAt_logterm ha hT)).const_add (einstein k ω / 2)
    have h2 : HasDerivAt (fun t => k.N * k.kB / 1000 * (einstein k ω / 2 +
      t * Real.log (1 - Real.exp (-(einstein k ω / t))))) _ T := h1.const_mul (k.N * k.kB / 1000)
    refine HasDerivAt.congr_of_eventuallyEq (f := fun t => k.N * k.kB / 1000 * (einstein k ω / 2 +
      t * Real.log (1 - Real.exp (-(einstein k ω / t))))) ?_ ?_
    · refine h2.congr_deriv ?_
      rw [hoS_pos k hT.ne' h]
      simp only [id]
      field_simp
      ring
    · exact (eventually_ne_zero hT).mono fun t ht => hoF_pos k ht h

theorem hasDerivAt_hoEth (k : Consts) {T : ℝ} (hT : 0 < T) (ω : ℝ) :
    HasDerivAt (fun t => hoEth k t ω) (hoCv k T ω / 1000) T := by
  rcases le_or_gt ω 0 with h | h
  · simp only [hoEth, hoCv, if_pos (Or.inl h)]
    simpa using hasDerivAt_const T (0 : ℝ)
  · have ha := einstein_pos k h
    refine HasDerivAt.congr_of_eventuallyEq (f := fun t => k.N * k.kB / 1000 *
      (einstein k ω / (Real.exp (einstein k ω / t) - 1))) ?_ ?_
    · refine ((hasDerivAt_planck ha hT).const_mul (k.N * k.kB / 1000)).congr_deriv ?_
      rw [hoCv_pos k hT.ne' h]
      ring
    · exact (eventually_ne_zero hT).mono fun t ht => hoEth_pos k ht h

theorem hasDerivAt_hoS (k : Consts) {T : ℝ} (hT : 0 < T) (ω : ℝ) :
    HasDerivAt (fun t => hoS k t ω) (hoCv k T ω / T) T := by
  rcases le_or_gt ω 0 with h | h
  · simp only [hoS, hoCv, if_pos (Or.inl h)]
    simpa using hasDerivAt_const T (0 : ℝ)
  · have ha := einstein_pos k h
    have hx := div_pos ha hT
    have h0 := (exp_sub_one_pos hx).ne'
    refine HasDerivAt.congr_of_eventuallyEq (f := fun t => k.N * k.kB *
      (einstein k ω / (Real.exp (einstein k ω / t) - 1) / t -
        Real.log (1 - Real.exp (-(einstein k ω / t))))) ?_ ?_
    · have h1 : HasDerivAt (fun t => einstein k ω / (Real.exp (einstein k ω / t) - 1) / t -
          Real.log (1 - Real.exp (-(einstein k ω / t)))) _ T :=
        ((hasDerivAt_planck ha hT).div (hasDerivAt_id T) hT.ne').sub (hasDerivAt_logterm ha hT)
      refine (h1.const_mul (k.N * k.kB)).congr_deriv ?_
      rw [hoCv_pos k hT.ne' h]
      simp only [id]
      field_simp
      ring
    · refine (eventually_ne_zero hT).mono fun t ht => ?_
      simp only [hoS_pos k ht h]
      rw [div_right_comm]

/-- `F = Uzp + Uth - T S / 1000` for one mode, all temperatures and frequencies. -/
theorem hoF_eq (k : Consts) (T ω : ℝ) :
    hoF k T ω = hoZpe k T ω + hoEth k T ω - T * hoS k T ω / 1000 := by
  rcases le_or_gt ω 0 with h | h
  · simp [hoF, hoZpe, hoEth, hoS, h]
  · by_cases hT : T = 0
    · subst hT
      rw [hoF_zero k h]
      simp [hoEth]
    · rw [hoF_pos k hT h, hoZpe_pos k T h, hoEth_pos k hT h, hoS_pos k hT h]
      have : k.h * ω = einstein k ω * k.kB := by
        rw [einstein, div_mul_cancel₀ _ k.kB_pos.ne']
      have e : T * (einstein k ω / T / (Real.exp (einstein k ω / T) - 1)) =
          einstein k ω / (Real.exp (einstein k ω / T) - 1) := by
        rw [div_right_comm, mul_div_cancel₀ _ hT]
      have : k.N * k.h * ω / 2000 = k.N * k.kB / 1000 * (einstein k ω / 2) := by
        rw [mul_assoc, this]; ring
      rw [this]
      linear_combination (k.N * k.kB / 1000) * e

/-! ### Bounds -/

theorem hoZpe_nonneg (k : Consts) (T ω : ℝ) : 0 ≤ hoZpe k T ω := by
  rcases le_or_gt ω 0 with h | h
  · simp [hoZpe, h]
  · rw [hoZpe_pos k T h]
    have := k.N_pos; have := k.h_pos
    positivity

theorem hoEth_nonneg (k : Consts) {T : ℝ} (hT : 0 ≤ T) (ω : ℝ) : 0 ≤ hoEth k T ω := by
  rcases le_or_gt ω 0 with h | h
  · simp [hoEth, h]
  · rcases hT.eq_or_lt with rfl | hT
    · simp [hoEth]
    · rw [hoEth_pos k hT.ne' h]
      have := k.N_pos; have := k.kB_pos
      have ha := einstein_pos k h
      have := exp_sub_one_pos (div_pos ha hT)
      positivity

theorem hoEth_le (k : Consts) {T : ℝ} (hT : 0 ≤ T) (ω : ℝ) :
    hoEth k T ω ≤ k.N * k.kB * T / 1000 := by
  have hN := k.N_pos
  have hk := k.kB_pos
  rcases le_or_gt ω 0 with h | h
  · simp only [hoEth, h, true_or, if_true]; positivity
  · rcases hT.eq_or_lt with rfl | hT
    · simp [hoEth]
    · rw [hoEth_pos k hT.ne' h]
      have ha := einstein_pos k h
      have hx := div_pos ha hT
      have h1 := exp_sub_one_pos hx
      have h2 : einstein k ω / (Real.exp (einstein k ω / T) - 1) ≤ T := by
        rw [div_le_iff₀ h1]
        have := Real.add_one_le_exp (einstein k ω / T)
        have h3 : T * (einstein k ω / T) = einstein k ω := mul_div_cancel₀ _ hT.ne'
        nlinarith
      have h4 : 0 ≤ k.N * k.kB / 1000 := by positivity
      calc _ ≤ k.N * k.kB / 1000 * T := mul_le_mul_of_nonneg_left h2 h4
        _ = _ := by ring

theorem log_neg_term {x : ℝ} (hx : 0 < x) : Real.log (1 - Real.exp (-x)) ≤ 0 :=
  Real.log_nonpos (one_sub_exp_neg_pos hx).le (by have := Real.exp_pos (-x); linarith)

theorem hoS_nonneg (k : Consts) {T : ℝ} (hT : 0 ≤ T) (ω : ℝ) : 0 ≤ hoS k T ω := by
  have hN := k.N_pos
  have hk := k.kB_pos
  rcases le_or_gt ω 0 with h | h
  · simp [hoS, h]
  · rcases hT.eq_or_lt with rfl | hT
    · simp [hoS]
    · rw [hoS_pos k hT.ne' h]
      have hx := div_pos (einstein_pos k h) hT
      have h1 := exp_sub_one_pos hx
      have h2 := log_neg_term hx
      have h3 : 0 ≤ einstein k ω / T / (Real.exp (einstein k ω / T) - 1) := by positivity
      have : 0 ≤ einstein k ω / T / (Real.exp (einstein k ω / T) - 1) -
        Real.log (1 - Real.exp (-(einstein k ω / T))) := by linarith
      positivity

theorem hoF_le_hoZpe (k : Consts) {T : ℝ} (hT : 0 ≤ T) (ω : ℝ) : hoF k T ω ≤ hoZpe k T ω := by
  rcases le_or_gt ω 0 with h | h
  · simp [hoF, hoZpe, h]
  · rcases hT.eq_or_lt with rfl | hT
    · rw [hoF_zero k h]
    · have hN := k.N_pos
      have hk := k.kB_pos
      have hx := div_pos (einstein_pos k h) hT
      rw [hoF_pos k hT.ne' h, hoZpe_pos k T h]
      have : k.h * ω = einstein k ω * k.kB := by
        rw [einstein, div_mul_cancel₀ _ k.kB_pos.ne']
      have e : k.N * k.h * ω / 2000 = k.N * k.kB / 1000 * (einstein k ω / 2) := by
        rw [mul_assoc, this]; ring
      rw [e]
      refine mul_le_mul_of_nonneg_left ?_ (by positivity)
      have := mul_nonpos_of_nonneg_of_nonpos hT.le (log_neg_term hx)
      linarith

/-- The Einstein function in terms of `sinh`. -/
theorem einstein_fn {x : ℝ} (hx : 0 < x) :
    Real.exp x * (x / (Real.exp x - 1)) ^ 2 = ((x / 2) / Real.sinh (x / 2)) ^ 2 := by
  have h1 := (exp_sub_one_pos hx).ne'
  have h2 : Real.sinh (x / 2) ≠ 0 := (Real.sinh_pos_iff.2 (by linarith)).ne'
  have h3 : Real.exp x = Real.exp (x / 2) ^ 2 := by rw [← Real.exp_nat_mul]; congr 1; push_cast; ring
  have h4 : Real.exp x - 1 = 2 * Real.sinh (x / 2) * Real.exp (x / 2) := by
    rw [Real.sinh_eq, h3, Real.exp_neg]
    have := Real.exp_pos (x / 2)
    field_simp
  have := (Real.exp_pos (x / 2)).ne'
  rw [h4, h3]
  field_simp

theorem hoCv_nonneg (k : Consts) (T ω : ℝ) : 0 ≤ hoCv k T ω := by
  have hN := k.N_pos
  have hk := k.kB_pos
  rcases le_or_gt ω 0 with h | h
  · simp [hoCv, h]
  · by_cases hT : T = 0
    · simp [hoCv, hT]
    · rw [hoCv_pos k hT h]
      have := Real.exp_pos (einstein k ω / T)
      positivity

theorem hoCv_le (k : Consts) {T : ℝ} (hT : 0 ≤ T) (ω : ℝ) : hoCv k T ω ≤ k.N * k.kB := by
  have hN := k.N_pos
  have hk := k.kB_pos
  rcases le_or_gt ω 0 with h | h
  · simp only [hoCv, h, true_or, if_true]; positivity
  · rcases hT.eq_or_lt with rfl | hT
    · simp only [hoCv, or_true, if_true]; positivity
    · rw [hoCv_pos k hT.ne' h]
      have hx := div_pos (einstein_pos k h) hT
      rw [einstein_fn hx]
      have h1 : 0 < Real.sinh (einstein k ω / T / 2) := Real.sinh_pos_iff.2 (by linarith)
      have h2 : einstein k ω / T / 2 ≤ Real.sinh (einstein k ω / T / 2) :=
        Real.self_le_sinh_iff.2 (by linarith)
      have h3 : (einstein k ω / T / 2) / Real.sinh (einstein k ω / T / 2) ≤ 1 :=
        (div_le_one h1).2 h2
      have h4 : ((einstein k ω / T / 2) / Real.sinh (einstein k ω / T / 2)) ^ 2 ≤ 1 :=
        pow_le_one₀ (by positivity) h3
      calc _ ≤ k.N * k.kB * 1 := mul_le_mul_of_nonneg_left h4 (by positivity)
        _ = _ := mul_one _

end Verif.StatMech
