/-
Rounding errors of the energies (C162).
-/
import Verif.EoS.BinaryPressure

noncomputable section

namespace Verif.EoS.Rounded
open Verif.EoS Verif.EoS.Rounded.Spec
open Verif.Elastic.Rounded (Bnd u_pos u_le)
open Verif.Elastic.Rounded.Spec (u)

variable {m : Machine} {E0 K0 Kp V0 V : ℝ}

/-- Division by an exact positive number. -/
theorem divE {n b x X c : ℝ} (h : Bnd n b x X) (hc : 0 < c) : Bnd n (b / c) (x / c) (X / c) := by
  simpa only [one_div_mul_eq_div] using h.scale (c := 1 / c) (by positivity)

/-- Multiplication by an exact nonnegative number on the right. -/
theorem mulE {n b x X c : ℝ} (h : Bnd n b x X) (hc : 0 ≤ c) : Bnd n (b * c) (x * c) (X * c) := by
  simpa only [mul_comm c] using h.scale hc

theorem energy_murnaghan_err (hm : Accurate m) (h : Solid ⟨K0, Kp, 0, V0⟩ V) (h2 : 2 ≤ Kp) :
    |energy m .murnaghan E0 K0 Kp V0 V - EoS.energy .murnaghan E0 K0 Kp V0 V| ≤ 2.01 * u * |E0| + 1e-11 * (K0 * V0) := by
  obtain ⟨r1, r2⟩ := ratio_range h
  obtain ⟨hK, hV0, hV, -, hV2, -, k2⟩ := h
  simp only at hK hV0 hV hV2 k2 r1 r2
  have k0 : 0 < Kp := by linarith
  have r0 : 0 < V0 / V := div_pos hV0 hV
  have hQ : 0 < K0 * V0 := mul_pos hK hV0
  have c1 := rpow_le r0 r2 (y := Kp) (by linarith) 12 1 (by norm_num) (by push_cast; linarith) (c := 130) (by norm_num)
    (by norm_num)
  have hp := (powE hm r0 (log_bound r1 r2) (ratioB hm hV0 hV) (Y := Kp) (q := 12) (n := 12.1)
    (by rw [abs_of_pos k0]; exact k2) (by norm_num) (by norm_num) (by norm_num) (by norm_num)).mono
    (n' := 14.2) (by norm_num) c1
  have k1 : 0 < Kp - 1 := by linarith
  have hk := relB (a := 1) (rndC hm (Kp - 1) (b := Kp - 1) (by rw [abs_of_pos k1])) k1 le_rfl
  have q1 := (rndB hm (divB hp k1 hk (by norm_num) (by norm_num) (by norm_num)) (by norm_num)).mono (n' := 16.3) (b' := 130)
    (by norm_num) (div_le_self (by norm_num) (by linarith))
  have q2 := rndB hm (q1.add (constB (b := 1) (n := 16.3) 1 (by norm_num) (by norm_num))) (by norm_num)
  have w1 := (rndB hm (divE (rndC hm (K0 * V) (b := 1.5 * (K0 * V0)) (by
    rw [abs_of_pos (mul_pos hK hV)]
    nlinarith)) k0) (by norm_num)).mono (n' := 3) (b' := 0.75 * (K0 * V0)) (by norm_num) (by
      rw [div_le_iff₀ k0]; nlinarith)
  have w2 := rndB hm (mulB w1 q2 (by norm_num) (by norm_num)) (by norm_num)
  have z := baseB hm E0 w2 (by norm_num)
  have w3 := (rndB hm (divB (rndC hm (V0 * K0) (b := V0 * K0) (by rw [abs_of_pos (mul_pos hV0 hK)])) k1 hk (by norm_num)
    (by norm_num) (by norm_num)) (by norm_num)).mono (n' := 3.1) (b' := K0 * V0) (by norm_num) (by
      rw [mul_comm V0]; exact div_le_self hQ.le (by linarith))
  have hX := w2.le
  simp only [energy, EoS.energy]
  generalize m.rnd (m.rnd (V0 * K0) / m.rnd (Kp - 1)) = y at *
  generalize V0 * K0 / (Kp - 1) = Y at *
  generalize m.rnd (E0 + m.rnd (m.rnd (m.rnd (K0 * V) / Kp) * m.rnd (m.rnd (m.pow (m.rnd (V0 / V)) Kp / m.rnd (Kp - 1)) + 1))) =
    x at *
  generalize K0 * V / Kp * ((V0 / V) ^ Kp / (Kp - 1) + 1) = X at *
  have f0 := hm.rnd (x - y)
  have f1 := abs_add_le (m.rnd (x - y) - (x - y)) (x - y - (E0 + X - Y))
  rw [sub_add_sub_cancel] at f1
  have f2 : |x - y - (E0 + X - Y)| ≤ |x - (E0 + X)| + |y - Y| := by
    rw [show x - y - (E0 + X - Y) = (x - (E0 + X)) - (y - Y) by ring]
    exact abs_sub _ _
  have f3 : |x - y| ≤ |x - y - (E0 + X - Y)| + (|E0| + |X| + |Y|) := by
    have g := abs_add_le (x - y - (E0 + X - Y)) (E0 + X - Y)
    rw [sub_add_cancel] at g
    have g2 := abs_sub (E0 + X) Y
    have g3 := abs_add_le E0 X
    linarith
  have f4 := w3.err
  have f5 := w3.le
  have hu := u_pos
  have hu' := u_le
  have f6 : u * |x - y| ≤ u * (|x - y - (E0 + X - Y)| + (|E0| + |X| + |Y|)) := mul_le_mul_of_nonneg_left f3 hu.le
  set e := |x - y - (E0 + X - Y)|
  set Q := K0 * V0
  have f7 : e ≤ u * |E0| + 2300 * u * Q := by
    have : e ≤ u * |E0| + (3 + (16.3 + 1.001) + 0.001 + 1.001 + 1.001) * u * (0.75 * Q * (130 + 1)) + 3.1 * u * Q := by linarith
    nlinarith [mul_pos hu hQ]
  have f8 : u * e ≤ 0.001 * e := mul_le_mul_of_nonneg_right (by linarith) (abs_nonneg _)
  have f9 : u * (|E0| + |X| + |Y|) ≤ u * (|E0| + 0.75 * Q * (130 + 1) + Q) :=
    mul_le_mul_of_nonneg_left (by linarith) hu.le
  have f10 : u * Q ≤ 1.2e-16 * Q := mul_le_mul_of_nonneg_right hu' hQ.le
  have f11 : 0 ≤ u * |E0| := mul_nonneg hu.le (abs_nonneg _)
  nlinarith

/-- Adding the reference energy at the end. -/
theorem finish {n b x X Q N : ℝ} (hm : Accurate m) (h : Bnd n b x X) (hQ : 0 < Q) (hn : n ≤ 10 ^ 6) (hb : (n + 1.001) * b ≤ N * Q)
    (hN : N ≤ 80000) : |m.rnd (E0 + x) - (E0 + X)| ≤ 2.01 * u * |E0| + 1e-11 * Q := by
  have h1 := baseB hm E0 h hn
  have hu := u_pos
  have h2 : (n + 1.001) * u * b ≤ N * Q * u := by nlinarith
  have h3 : N * Q * u ≤ 80000 * Q * u := by
    have := mul_pos hQ hu
    nlinarith
  have h4 : Q * u ≤ Q * 1.2e-16 := mul_le_mul_of_nonneg_left u_le hQ.le
  have h5 : 0 ≤ u * |E0| := mul_nonneg hu.le (abs_nonneg _)
  nlinarith

theorem energy_birch_err (hm : Accurate m) (h : Solid ⟨K0, Kp, 0, V0⟩ V) :
    |energy m .birchMurnaghan E0 K0 Kp V0 V - EoS.energy .birchMurnaghan E0 K0 Kp V0 V| ≤
      2.01 * u * |E0| + 1e-11 * (K0 * V0) := by
  obtain ⟨r1, r2⟩ := ratio_range h
  obtain ⟨hK, hV0, hV, -, -, k1, k2⟩ := h
  simp only at hK hV0 hV k1 k2 r1 r2
  have hQ : 0 < K0 * V0 := mul_pos hK hV0
  obtain ⟨he, c2, c1⟩ := cbrt_bnd hm r1 r2 hV0 hV rfl
  simp only [energy, EoS.energy]
  set H := (V0 / V) ^ ((1 : ℝ) / 3)
  set η := m.pow (m.rnd (V0 / V)) (m.rnd (1 / 3))
  norm_num at c2
  have H0 : 0 < H := by linarith
  have s1 := sqB hm he (by norm_num)
  have H2 : 0.7627 ≤ H ^ 2 := by nlinarith
  have H3 : H ^ 2 ≤ 1.3111 := by nlinarith
  have d1 := rndB hm (subShift s1 1 (b' := 0.3115) (n' := 32) (by rw [abs_le]; constructor <;> linarith) (by norm_num)
    (by norm_num)) (by norm_num)
  have t1 := (rndB hm ((cubeB hm d1 (by norm_num)).scale (c := Kp) (by linarith)) (by norm_num)).mono (n' := 110) (b' := 0.37)
    (by norm_num) (by norm_num; linarith)
  have t2 := rndB hm (shiftSub (rndB hm (s1.scale (c := 4) (by norm_num)) (by norm_num)) 6 (b' := 2.95) (n' := 15.5)
    (by rw [abs_le]; constructor <;> linarith) (by norm_num) (by norm_num)) (by norm_num)
  have t3 := (rndB hm (mulB (sqB hm d1 (by norm_num)) t2 (by norm_num) (by norm_num)) (by norm_num)).mono (n' := 110) (by norm_num)
    le_rfl
  have t4 := rndB hm (t1.add t3) (by norm_num)
  have w1 := rndB hm (divE (rndB hm (mulE (rndC hm (9 * K0) (b := 9 * K0) (by rw [abs_of_pos (by positivity)])) hV0.le)
    (by norm_num)) (c := 16) (by norm_num)) (by norm_num)
  have := rndB hm (mulB w1 t4 (by norm_num) (by norm_num)) (by norm_num)
  refine finish hm this hQ (by norm_num) (N := 80000) ?_ le_rfl
  norm_num
  linarith

theorem energy_tarantola_err (hm : Accurate m) (h : Solid ⟨K0, Kp, 0, V0⟩ V) :
    |energy m .pourierTarantola E0 K0 Kp V0 V - EoS.energy .pourierTarantola E0 K0 Kp V0 V| ≤
      2.01 * u * |E0| + 1e-11 * (K0 * V0) := by
  obtain ⟨r1, r2⟩ := inverse_range h
  obtain ⟨hK, hV0, hV, -, -, k1, k2⟩ := h
  simp only at hK hV0 hV k1 k2 r1 r2
  have hQ : 0 < K0 * V0 := mul_pos hK hV0
  obtain ⟨he, c2, c1⟩ := cbrt_bnd hm r1 r2 hV hV0 rfl
  simp only [energy, EoS.energy]
  set H := (V / V0) ^ ((1 : ℝ) / 3)
  set η := m.pow (m.rnd (V / V0)) (m.rnd (1 / 3))
  norm_num at c2
  have H0 : 0 < H := by linarith
  have e1 := relB (a := 3.8) he H0 (by linarith)
  have l1 := logB hm H0 (log_bound (by linarith) (by linarith)) e1 (by norm_num) (by norm_num) (by norm_num)
  have rho := (rndB hm (l1.scale (c := 3) (by norm_num)).neg (by norm_num)).mono (n' := 12.4) (b' := 1.23) (by norm_num)
    (by norm_num)
  rw [← neg_mul, ← neg_mul] at rho
  have w1 := rndB hm (divE (rndB hm (mulB (rndC hm (K0 * V0) (b := K0 * V0) (by rw [abs_of_pos hQ])) (sqB hm rho (by norm_num))
    (by norm_num) (by norm_num)) (by norm_num)) (c := 6) (by norm_num)) (by norm_num)
  have a2 := rndC hm (Kp - 2) (b := 10) (by rw [abs_le]; constructor <;> linarith)
  have t1 := rndB hm (mulB rho a2 (by norm_num) (by norm_num)) (by norm_num)
  have t2 := rndB hm (shift t1 3 (b' := 15.3) (n' := 15) ((abs_add_le _ _).trans (by
    have := t1.le
    rw [abs_of_pos (by norm_num : (0 : ℝ) < 3)]
    norm_num at this ⊢
    linarith)) (by norm_num) (by norm_num)) (by norm_num)
  have := rndB hm (mulB w1 t2 (by norm_num) (by norm_num)) (by norm_num)
  refine finish hm this hQ (by norm_num) (N := 80000) ?_ le_rfl
  norm_num
  linarith

theorem energy_vinet_err (hm : Accurate m) (h : Solid ⟨K0, Kp, 0, V0⟩ V) (h2 : 2 ≤ Kp) :
    |energy m .vinet E0 K0 Kp V0 V - EoS.energy .vinet E0 K0 Kp V0 V| ≤ 2.01 * u * |E0| + 1e-11 * (K0 * V0) := by
  obtain ⟨r1, r2⟩ := inverse_range h
  obtain ⟨hK, hV0, hV, -, -, -, k2⟩ := h
  simp only at hK hV0 hV k2 r1 r2
  have hQ : 0 < K0 * V0 := mul_pos hK hV0
  obtain ⟨he, c2, c1⟩ := cbrt_bnd hm r1 r2 hV hV0 rfl
  simp only [energy, EoS.energy]
  set H := (V / V0) ^ ((1 : ℝ) / 3)
  set η := m.pow (m.rnd (V / V0)) (m.rnd (1 / 3))
  norm_num at c2
  have d1 := rndB hm (subShift he 1 (b' := 0.146) (n' := 22) (by rw [abs_le]; constructor <;> linarith) (by norm_num)
    (by norm_num)) (by norm_num)
  have k1 : 0 < Kp - 1 := by linarith
  have k1' : 0 < (Kp - 1) ^ 2 := by positivity
  have a1 := rndC hm (Kp - 1) (b := Kp - 1) (by rw [abs_of_pos k1])
  have a2 := relB (a := 4.1) (sqB hm a1 (by norm_num)) k1' (by nlinarith)
  have w1 := (rndB hm (divB (rndB hm (mulE (rndC hm (2 * K0) (b := 2 * K0) (by rw [abs_of_pos (by positivity)])) hV0.le)
    (by norm_num)) k1' a2 (by norm_num) (by norm_num) (by norm_num)) (by norm_num)).mono (n' := 8) (b' := 2 * (K0 * V0))
    (by norm_num) (by
      rw [mul_assoc]
      exact div_le_self (by positivity) (by nlinarith))
  have t1 := rndB hm (mulB (rndC hm (3 * Kp) (b := 36) (by rw [abs_le]; constructor <;> linarith)) d1 (by norm_num) (by norm_num))
    (by norm_num)
  have t2 := rndB hm (shift t1 5 (b' := 10.256) (n' := 13) ((abs_add_le _ _).trans (by
    have := t1.le
    rw [abs_of_pos (by norm_num : (0 : ℝ) < 5)]
    norm_num at this ⊢
    linarith)) (by norm_num) (by norm_num)) (by norm_num)
  have t3 := (rndB hm (he.scale (c := 3) (by norm_num)) (by norm_num)).mono (n' := 13 + 1.001) (by norm_num) le_rfl
  have t4 := rndB hm (t2.sub t3) (by norm_num)
  have e0 := rndB hm ((rndC hm (Kp - 1) (b := 11) (by rw [abs_le]; constructor <;> linarith)).scale (c := 3) (by norm_num)).neg
    (by norm_num)
  rw [← neg_mul, ← neg_mul] at e0
  have e1 := rndB hm (divE (rndB hm (mulB e0 d1 (by norm_num) (by norm_num)) (by norm_num)) (c := 2) (by norm_num)) (by norm_num)
  have e2 := expB hm (n := 70) (e1.err.trans (by
    rw [mul_right_comm]
    exact mul_le_mul_of_nonneg_right (by norm_num) u_pos.le)) (by norm_num)
  have e3 : Real.exp (-3 * (Kp - 1) * (H - 1) / 2) ≤ 21 := by
    have h3 : -3 * (Kp - 1) * (H - 1) / 2 ≤ 3 := by
      have := (le_abs_self _).trans e1.le
      norm_num at this ⊢
      linarith
    refine (Real.exp_le_exp.2 h3).trans ?_
    rw [show (3 : ℝ) = 1 + 1 + 1 by norm_num, Real.exp_add, Real.exp_add]
    have h4 := Real.exp_one_lt_d9
    have h5 := Real.exp_pos 1
    calc Real.exp 1 * Real.exp 1 * Real.exp 1 ≤ 2.72 * 2.72 * 2.72 := by gcongr <;> linarith
      _ ≤ 21 := by norm_num
  have t5 := rndB hm (mulB t4 (e2.mono le_rfl e3) (by norm_num) (by norm_num)) (by norm_num)
  have t6 := rndB hm (shiftSub t5 2 (b' := 289.6) (n' := 90) ((abs_sub _ _).trans (by
    have := t5.le
    rw [abs_of_pos (by norm_num : (0 : ℝ) < 2)]
    norm_num at this ⊢
    linarith)) (by norm_num) (by norm_num)) (by norm_num)
  have := rndB hm (mulB w1 t6 (by norm_num) (by norm_num)) (by norm_num)
  refine finish hm this hQ (by norm_num) (N := 80000) ?_ le_rfl
  norm_num
  linarith

end Verif.EoS.Rounded
