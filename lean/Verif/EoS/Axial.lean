/- Property C71: axial fits of a cubic crystal against volume fits. -/
import Mathlib.Analysis.Complex.ExponentialBounds
import Verif.EoS.Props

namespace Verif.EoS
open Verif.EoS.Spec

/-- **C71, proved part.** For a cubic crystal (`V = l^3`) an axial Murnaghan curve with linear
moduli `M0 = 3 K0`, `M' = 3 K'` is the volume curve with `K0`, `K'`, in every mode of call.
Missing: the other formulations (see `C71_axial_violated`). -/
theorem C71_axial_murnaghan_partial (K0 Kp x y l0 l : ℝ) (hl0 : 0 < l0) (hl : 0 < l)
    (order order' : ℕ) (dofit dofit' : Bool) :
    (eos .murnaghan ⟨3 * K0, 3 * Kp, x, l0⟩ l order true dofit).1 =
      (eos .murnaghan ⟨K0, Kp, y, l0 ^ 3⟩ (l ^ 3) order' false dofit').1 := by
  have e : (l0 ^ 3 / l ^ 3) ^ Kp = (l0 / l) ^ (3 * Kp) := by
    rw [← div_pow, Real.rpow_mul (by positivity), ← Real.rpow_natCast]
    norm_num
  cases dofit <;> cases dofit' <;>
    simp [eos, parsAfter, setKpp, setKp, impliedKp, impliedKpLinear, formula, e] <;>
    (left; rw [mul_div_mul_left _ _ (by norm_num)])

theorem rpow_eight_pow (n : ℕ) : ((8:ℝ) ^ n) ^ ((1:ℝ) / 3) = 2 ^ n := by
  rw [show ((8:ℝ) ^ n) = ((2:ℝ) ^ n) ^ (3:ℕ) by rw [← pow_mul, mul_comm, pow_mul]; norm_num,
    ← Real.rpow_natCast ((2:ℝ) ^ n) 3, ← Real.rpow_mul (by positivity)]
  norm_num

/-- **C71 fails for the other formulations.** A second-order axial fit with `M0 = 3 K0` and a
second-order volume fit with `K0` of the same cubic crystal give different pressures: the strain
is computed from the length ratio instead of the volume ratio. -/
theorem C71_axial_violated (f : Formulation) (hf : f ≠ .murnaghan) (p : Pars) (K0 l0 : ℝ)
    (hK0 : 0 < K0) (hl0 : 0 < l0) :
    ∃ l, 0 < l ∧ l < l0 ∧
      (eos f { p with K0 := 3 * K0, V0 := l0 } l 2 true true).1 ≠
        (eos f { p with K0 := K0, V0 := l0 ^ 3 } (l ^ 3) 2 false true).1 := by
  have hr : l0 / (l0 / 8) = 8 := by field_simp
  have hr3 : l0 ^ 3 / (l0 / 8) ^ 3 = 512 := by field_simp; norm_num
  have hi : l0 / 8 / l0 = 1 / 8 := by field_simp
  have hi3 : (l0 / 8) ^ 3 / l0 ^ 3 = 1 / 512 := by field_simp; norm_num
  cases f with
  | murnaghan => exact absurd rfl hf
  | birchMurnaghan =>
    refine ⟨l0 / 8, by positivity, by linarith, ?_⟩
    have e1 : (8:ℝ) ^ ((2:ℝ) / 3) = 4 := by
      rw [show (2:ℝ) / 3 = 1 / 3 * 2 by ring, Real.rpow_mul (by norm_num)]
      have := rpow_eight_pow 1
      rw [pow_one, pow_one] at this
      rw [this]; norm_num
    have e2 : (512:ℝ) ^ ((2:ℝ) / 3) = 64 := by
      rw [show (2:ℝ) / 3 = 1 / 3 * 2 by ring, Real.rpow_mul (by norm_num)]
      have := rpow_eight_pow 3
      rw [show (8:ℝ) ^ 3 = 512 by norm_num, show (2:ℝ) ^ 3 = 8 by norm_num] at this
      rw [this]; norm_num
    have e3 : (4:ℝ) ^ (2.5:ℝ) = 32 := by
      rw [show (4:ℝ) = 2 ^ (2:ℝ) by norm_num, ← Real.rpow_mul (by norm_num)]
      norm_num
    have e4 : (64:ℝ) ^ (2.5:ℝ) = 32768 := by
      rw [show (64:ℝ) = 2 ^ (6:ℝ) by norm_num, ← Real.rpow_mul (by norm_num)]
      norm_num
    have k1 : 3 * K0 * (-1 / (3 * K0) * ((3 - 12) * (4 - 12) + 35 / 9)) + (12 - 4) * (12 - 3) + 35 / 9
        = 0 := by field_simp; ring
    have k2 : K0 * (-1 / K0 * ((3 - 4) * (4 - 4) + 35 / 9)) + (4 - 4) * (4 - 3) + 35 / 9 = 0 := by
      field_simp; ring
    simp only [eos, parsAfter, setKpp, setKp, impliedKp, impliedKpLinear, formula, if_true,
      Bool.true_eq_false, Bool.false_eq_true, and_false, and_self, if_false, Option.getD_some, hr,
      hr3, e1, e2, show (2:ℕ) < 4 by norm_num, k1, k2]
    rw [show (1 + 2 * (0.5 * ((4:ℝ) - 1))) = 4 by norm_num,
      show (1 + 2 * (0.5 * ((64:ℝ) - 1))) = 64 by norm_num, e3, e4]
    intro h
    norm_num at h
    linarith
  | naturalStrain =>
    refine ⟨l0 / 8, by positivity, by linarith, ?_⟩
    have e1 : Real.log 8 = 3 * Real.log 2 := by
      rw [show (8:ℝ) = 2 ^ (3:ℕ) by norm_num, Real.log_pow]; norm_num
    have e2 : Real.log 512 = 9 * Real.log 2 := by
      rw [show (512:ℝ) = 2 ^ (9:ℕ) by norm_num, Real.log_pow]; norm_num
    have k1 : 1 + -1 / (3 * K0) * (1 + (6 - 2) + (6 - 2) ^ 2) * (3 * K0) + (6 - 2) + (6 - 2) ^ 2
        = 0 := by field_simp; ring
    have k2 : 1 + -1 / K0 * (1 + (2 - 2) + (2 - 2) ^ 2) * K0 + (2 - 2) + (2 - 2) ^ 2
        = 0 := by field_simp; ring
    simp only [eos, parsAfter, setKpp, setKp, impliedKp, impliedKpLinear, formula, if_true,
      Bool.true_eq_false, Bool.false_eq_true, and_false, and_self, if_false, Option.getD_some, hr,
      hr3, e1, e2, show (2:ℕ) < 4 by norm_num, k1, k2]
    have hl := Real.log_pos (show (1:ℝ) < 2 by norm_num)
    have hl2 := Real.log_two_lt_d9
    intro h
    have h' : (K0 * Real.log 2) * (72 * (1 + 6 * Real.log 2)) = (K0 * Real.log 2) * 4608 := by
      linear_combination h
    have := mul_left_cancel₀ (by positivity) h'
    linarith
  | vinet =>
    refine ⟨l0 / 8, by positivity, by linarith, ?_⟩
    have e1 : ((1:ℝ) / 8) ^ ((1:ℝ) / 3) = 1 / 2 := by
      have := rpow_eight_pow 1
      rw [pow_one, pow_one] at this
      rw [Real.div_rpow (by norm_num) (by norm_num), this, Real.one_rpow]
    have e2 : ((1:ℝ) / 512) ^ ((1:ℝ) / 3) = 1 / 8 := by
      have := rpow_eight_pow 3
      rw [show (8:ℝ) ^ 3 = 512 by norm_num, show (2:ℝ) ^ 3 = 8 by norm_num] at this
      rw [Real.div_rpow (by norm_num) (by norm_num), this, Real.one_rpow]
    simp only [eos, parsAfter, setKpp, setKp, impliedKp, impliedKpLinear, formula, if_true,
      Bool.true_eq_false, Bool.false_eq_true, and_false, and_self, if_false, Option.getD_some, hi,
      hi3, e1, e2]
    have hx : Real.exp (1.5 * (3 - 1) * (1 - 1 / 2)) < 9 := by
      have h1 : Real.exp (1.5 * (3 - 1) * (1 - 1 / 2)) ≤ Real.exp (2 * 1) :=
        Real.exp_le_exp.2 (by norm_num)
      have h2 := Real.exp_one_lt_d9
      have h3 : Real.exp (2 * 1) = Real.exp 1 ^ 2 := by
        rw [← Real.exp_nat_mul]; norm_num
      have h4 : Real.exp 1 ^ 2 < 3 ^ 2 :=
        pow_lt_pow_left₀ (by linarith) (Real.exp_pos 1).le (by norm_num)
      rw [h3] at h1
      exact lt_of_le_of_lt h1 (h4.trans_eq (by norm_num))
    have h0 : Real.exp (1.5 * (1 - 1) * (1 - 1 / 8)) = 1 := by norm_num
    rw [h0]
    intro h
    have h' : K0 * (18 * Real.exp (1.5 * (3 - 1) * (1 - 1 / 2))) = K0 * 168 := by
      linear_combination h
    have := mul_left_cancel₀ hK0.ne' h'
    linarith
  | tait =>
    refine ⟨l0 / 2, by positivity, by linarith, ?_⟩
    have hi : l0 / 2 / l0 = 1 / 2 := by field_simp
    have hi3 : (l0 / 2) ^ 3 / l0 ^ 3 = 1 / 8 := by field_simp; norm_num
    have k1 : 3 * K0 * (-12 / (3 * K0)) = -12 := by field_simp
    have k2 : K0 * (-4 / K0) = -4 := by field_simp
    have b1 : 12 / (3 * K0) - -12 / (3 * K0) / (1 + 12) = (56 / 13) / K0 := by field_simp; norm_num
    have b2 : 4 / K0 - -4 / K0 / (1 + 4) = (24 / 5) / K0 := by field_simp; norm_num
    simp only [eos, parsAfter, setKpp, setKp, impliedKp, impliedKpLinear, formula, if_true,
      Bool.true_eq_false, Bool.false_eq_true, and_false, and_self, if_false, Option.getD_some, hi,
      hi3, show (2:ℕ) < 4 by norm_num, k1, k2, b1, b2]
    have c1 : (((1:ℝ) / 2 + (1 + 12) / (1 + 12 + -12) - 1) / ((1 + 12) / (1 + 12 + -12))) ^
        (-1 / (((1:ℝ) + 12 + -12) / (12 ^ 2 + 12 - -12))) = (26 / 25) ^ 168 := by
      rw [show (-1 / (((1:ℝ) + 12 + -12) / (12 ^ 2 + 12 - -12))) = ((-168 : ℤ) : ℝ) by norm_num,
        Real.rpow_intCast]
      norm_num
    have c2 : (((1:ℝ) / 8 + (1 + 4) / (1 + 4 + -4) - 1) / ((1 + 4) / (1 + 4 + -4))) ^
        (-1 / (((1:ℝ) + 4 + -4) / (4 ^ 2 + 4 - -4))) = (40 / 33) ^ 24 := by
      rw [show (-1 / (((1:ℝ) + 4 + -4) / (4 ^ 2 + 4 - -4))) = ((-24 : ℤ) : ℝ) by norm_num,
        Real.rpow_intCast]
      norm_num
    rw [c1, c2]
    intro h
    have h' : K0 * ((13 / 56) * ((26 / 25) ^ 168 - 1)) = K0 * ((5 / 24) * ((40 / 33) ^ 24 - 1)) := by
      field_simp at h
      field_simp
      linear_combination h
    have := mul_left_cancel₀ hK0.ne' h'
    norm_num at this

end Verif.EoS
