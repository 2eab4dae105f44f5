import Mathlib.Analysis.SpecialFunctions.Integrals.Basic
import Mathlib.Analysis.SpecialFunctions.Trigonometric.InverseDeriv
import Mathlib.MeasureTheory.Integral.IntervalIntegral.FundThmCalculus
import Mathlib.MeasureTheory.Integral.IntervalIntegral.IntegrationByParts
import Verif.Kieffer.Spec
import Verif.StatMech.Oscillator
import Verif.Tac

noncomputable section

namespace Verif.Kieffer
open Verif.Units Verif.StatMech Spec MeasureTheory Set

variable {k : Consts}

/-! ### The density of states -/

/-- The number of modes below a frequency. -/
def count (c ν : ℝ) : ℝ := (2 / Real.pi) ^ 3 * Real.arcsin (ν / c) ^ 3

theorem count_deriv {c ν : ℝ} (h0 : 0 < ν) (h1 : ν < c) : HasDerivAt (count c) (density c ν) ν := by
  have hc : 0 < c := h0.trans h1
  have hx1 : ν / c < 1 := (div_lt_one hc).2 h1
  have hx0 : 0 < ν / c := div_pos h0 hc
  have hd : HasDerivAt (fun t => t / c) (1 / c) ν := (hasDerivAt_id ν).div_const c
  have ha : HasDerivAt (fun t => Real.arcsin (t / c)) (1 / Real.sqrt (1 - (ν / c) ^ 2) * (1 / c)) ν :=
    HasDerivAt.comp ν (h₂ := Real.arcsin) (Real.hasDerivAt_arcsin (by linarith) hx1.ne) hd
  have h : HasDerivAt (count c) _ ν := (ha.pow 3).const_mul ((2 / Real.pi) ^ 3)
  refine h.congr_deriv ?_
  have hs : Real.sqrt (c ^ 2 - ν ^ 2) = c * Real.sqrt (1 - (ν / c) ^ 2) := by
    rw [← Real.sqrt_sq hc.le, ← Real.sqrt_mul (by positivity), Real.sqrt_sq hc.le]
    congr 1
    field_simp
  rw [density, hs]
  have hq : 0 < 1 - (ν / c) ^ 2 := by nlinarith
  have hq' : Real.sqrt (1 - (ν / c) ^ 2) ≠ 0 := (Real.sqrt_pos.2 hq).ne'
  field_simp
  push_cast
  ring

theorem count_continuous (c : ℝ) : Continuous (count c) := by
  unfold count
  fun_prop

theorem density_nonneg {c ν : ℝ} : 0 ≤ density c ν := by
  unfold density
  have := Real.pi_pos
  have := Real.sqrt_nonneg (c ^ 2 - ν ^ 2)
  positivity

theorem density_integrable {c a b : ℝ} (ha : 0 ≤ a) (hab : a ≤ b) (hb : b ≤ c) :
    IntervalIntegrable (density c) volume a b := by
  refine intervalIntegral.intervalIntegrable_deriv_of_nonneg (g := count c) (count_continuous c).continuousOn ?_ ?_
  · intro x hx
    rw [min_eq_left hab, max_eq_right hab] at hx
    exact count_deriv (by linarith [hx.1]) (by linarith [hx.2])
  · exact fun x _ => density_nonneg

theorem density_integral {c a b : ℝ} (ha : 0 ≤ a) (hab : a ≤ b) (hb : b ≤ c) :
    ∫ ν in a..b, density c ν = count c b - count c a :=
  intervalIntegral.integral_eq_sub_of_hasDerivAt_of_le hab (count_continuous c).continuousOn
    (fun x hx => count_deriv (by linarith [hx.1]) (by linarith [hx.2])) (density_integrable ha hab hb)

theorem count_cutoff {c : ℝ} (hc : 0 < c) : count c c = 1 := by
  rw [count, div_self hc.ne', Real.arcsin_one]
  have := Real.pi_ne_zero
  field_simp

theorem count_zero (c : ℝ) : count c 0 = 0 := by simp [count]

/-! ### Change of variable -/

theorem integral_perHertz {T : ℝ} (hT : 0 < T) (g : ℝ → ℝ) (a b : ℝ) :
    ∫ x in a..b, g x = ∫ ν in (a * k.kB * T / k.h)..(b * k.kB * T / k.h), perHertz k T g ν := by
  have hh := k.h_pos.ne'
  have hk := k.kB_pos.ne'
  unfold perHertz
  rw [intervalIntegral.integral_const_mul, intervalIntegral.mul_integral_comp_mul_left]
  congr 1 <;> field_simp

theorem variable_eq {T : ℝ} (ν : ℝ) : k.h / (k.kB * T) * ν = einstein k ν / T := by
  rw [einstein]
  field_simp

theorem den_eq {T c ν : ℝ} (hT : 0 < T) : ((c * k.h / k.kB / T) ^ 2 - (k.h / (k.kB * T) * ν) ^ 2) ^ (0.5 : ℝ) =
    k.h / (k.kB * T) * Real.sqrt (c ^ 2 - ν ^ 2) := by
  have hh := k.h_pos
  have hk := k.kB_pos
  have hp : 0 < k.h / (k.kB * T) := by positivity
  have e : (0.5 : ℝ) = 1 / 2 := by norm_num
  rw [e, ← Real.sqrt_eq_rpow, ← Real.sqrt_sq hp.le, ← Real.sqrt_mul (by positivity), Real.sqrt_sq hp.le]
  congr 1
  field_simp

theorem arg_eq {T c ν : ℝ} (hT : 0 < T) : k.h / (k.kB * T) * ν / (c * k.h / k.kB / T) = ν / c := by
  have hh := k.h_pos.ne'
  have hk := k.kB_pos.ne'
  by_cases hc : c = 0
  · simp [hc]
  · field_simp

theorem scale_out {p A D : ℝ} (hp : p ≠ 0) : p * (A / (p * D)) = A / D := by
  by_cases hD : D = 0
  · simp [hD]
  · field_simp

theorem scale_ne {T : ℝ} (hT : 0 < T) : k.h / (k.kB * T) ≠ 0 := by
  have := k.h_pos; have := k.kB_pos; positivity

theorem helmholtz_perHertz {T c ν : ℝ} (hT : 0 < T) (hν : 0 < ν) :
    perHertz k T (fun x => helmholtzFunction x T (c * k.h / k.kB)) ν * (3 * T * k.N * k.kB * (2 / Real.pi) ^ 3) =
      density c ν * modeF k T ν := by
  simp only [perHertz, helmholtzFunction, arg_eq hT, den_eq hT, modeF, density, hoF_pos k hT.ne' hν,
    hoZpe_pos k T hν, scale_out (scale_ne hT)]
  simp only [variable_eq (k := k) (T := T) ν]
  have hk := k.kB_pos.ne'
  have e : k.N * k.h * ν / 2000 = k.N * k.kB / 1000 * (einstein k ν / 2) := by
    rw [einstein]; field_simp; ring
  rw [e]
  ring

theorem heat_perHertz {T c ν : ℝ} (hT : 0 < T) (hν : 0 < ν) :
    perHertz k T (fun x => heatCapacityFunction x T (c * k.h / k.kB)) ν * 3 * k.N * k.kB * (2 / Real.pi) ^ 3 =
      density c ν * hoCv k T ν := by
  simp only [perHertz, heatCapacityFunction, arg_eq hT, den_eq hT, density, hoCv_pos k hT.ne' hν, mul_assoc (k.h / (k.kB * T)) (Real.sqrt _),
    scale_out (scale_ne hT)]
  simp only [variable_eq (k := k) (T := T) ν]
  rw [div_mul_eq_div_div, div_pow (einstein k ν / T)]
  ring

theorem entropy_perHertz {T c ν : ℝ} (hT : 0 < T) :
    perHertz k T (fun x => entropyFunction x T (c * k.h / k.kB)) ν * 3 * k.N * k.kB * (2 / Real.pi) ^ 3 =
      density c ν * codeS k T ν := by
  simp only [perHertz, entropyFunction, arg_eq hT, den_eq hT, density, codeS,
    mul_assoc (k.h / (k.kB * T)) (Real.sqrt _)]
  rw [mul_sub, scale_out (scale_ne hT), scale_out (scale_ne hT)]
  simp only [variable_eq (k := k) (T := T) ν, x_eq]
  rw [div_mul_eq_div_div]
  ring

/-! ### The integrals -/

theorem upper_eq {T c : ℝ} (hT : 0 < T) : c * k.h / k.kB / T * k.kB * T / k.h = c := by
  have hh := k.h_pos.ne'
  have hk := k.kB_pos.ne'
  field_simp

theorem lowest_pos {T : ℝ} (hT : 0 < T) : 0 < lowest k T := by
  have := k.h_pos; have := k.kB_pos
  unfold lowest; positivity

theorem heat_integral {quad : Quad} (hq : Exact quad) {T c : ℝ} (hT : 0 < T) (hc : lowest k T ≤ c) :
    heatCapacityIntegral k quad T (c * k.h / k.kB) = ∫ ν in lowest k T..c, density c ν * hoCv k T ν := by
  have h0 := lowest_pos (k := k) hT
  rw [heatCapacityIntegral, if_neg hT.ne']
  simp only [hq _ _ _]
  rw [integral_perHertz (k := k) hT, upper_eq hT]
  show (∫ ν in lowest k T..c, _) * 3 * k.N * k.kB * (2 / Real.pi) ^ 3 = _
  simp only [← intervalIntegral.integral_mul_const]
  refine intervalIntegral.integral_congr fun ν hν => ?_
  rw [uIcc_of_le hc] at hν
  exact heat_perHertz hT (h0.trans_le hν.1)

theorem helmholtz_integral {quad : Quad} (hq : Exact quad) {T c : ℝ} (hT : 0 < T) (hc : lowest k T ≤ c) :
    helmholtzIntegral k quad T (c * k.h / k.kB) = ∫ ν in lowest k T..c, density c ν * modeF k T ν := by
  have h0 := lowest_pos (k := k) hT
  rw [helmholtzIntegral, if_neg hT.ne']
  simp only [hq _ _ _]
  rw [integral_perHertz (k := k) hT, upper_eq hT]
  show (∫ ν in lowest k T..c, _) * (3 * T * k.N * k.kB * (2 / Real.pi) ^ 3) = _
  simp only [← intervalIntegral.integral_mul_const]
  refine intervalIntegral.integral_congr fun ν hν => ?_
  rw [uIcc_of_le hc] at hν
  exact helmholtz_perHertz hT (h0.trans_le hν.1)

theorem entropy_integral {quad : Quad} (hq : Exact quad) {T c : ℝ} (hT : 0 < T) :
    entropyIntegral k quad T (c * k.h / k.kB) = ∫ ν in lowest k T..(0.999 * c), density c ν * codeS k T ν := by
  rw [entropyIntegral, if_neg hT.ne']
  simp only [hq _ _ _]
  rw [integral_perHertz (k := k) hT]
  have e : 0.999 * (c * k.h / k.kB / T) * k.kB * T / k.h = 0.999 * c := by
    have hh := k.h_pos.ne'
    have hk := k.kB_pos.ne'
    field_simp
  rw [e]
  show (∫ ν in lowest k T..(0.999 * c), _) * 3 * k.N * k.kB * (2 / Real.pi) ^ 3 = _
  simp only [← intervalIntegral.integral_mul_const]
  exact intervalIntegral.integral_congr fun ν _ => entropy_perHertz hT

/-! ### Sums over the branches -/

theorem foldl_add {α : Type} (f : α → ℝ) (l : List α) (z : ℝ) :
    l.foldl (fun v a => v + f a) z = z + (l.map f).sum := by
  induction l generalizing z with
  | nil => simp
  | cons a l ih => simp [ih, add_assoc]

end Verif.Kieffer
