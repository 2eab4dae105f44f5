/-
Lemmas about rounding errors for C162.
-/
import Verif.EoS.BinarySpec
import Verif.Elastic.BinaryLemmas
import Mathlib.Analysis.SpecialFunctions.Exponential
import Mathlib.Analysis.SpecialFunctions.Log.Basic
import Mathlib.Analysis.Convex.SpecificFunctions.Basic

noncomputable section

namespace Verif.EoS.Rounded
open Verif.EoS Verif.EoS.Rounded.Spec
open Verif.Elastic.Rounded (Bnd u_pos u_le)
open Verif.Elastic.Rounded.Spec (u)

variable {n n' b b' x X y Y : ℝ} {m : Machine}

theorem rndB (hm : Accurate m) (h : Bnd n b x X) (hn : n ≤ 10 ^ 12) : Bnd (n + 1.001) b (m.rnd x) X :=
  h.rnd (m := ⟨m.rnd, Real.sin, Real.cos⟩)
    ⟨hm.rnd, fun t => by simpa using mul_nonneg (mul_nonneg zero_le_two u_pos.le) (abs_nonneg (Real.sin t)),
      fun t => by simpa using mul_nonneg (mul_nonneg zero_le_two u_pos.le) (abs_nonneg (Real.cos t))⟩ hn

theorem constB (c : ℝ) (hc : |c| ≤ b) (hn : 0 ≤ n) : Bnd n b c c :=
  ⟨by rw [sub_self, abs_zero]; exact mul_nonneg (mul_nonneg hn u_pos.le) ((abs_nonneg _).trans hc), hc, hn⟩

theorem rndC (hm : Accurate m) (c : ℝ) (hc : |c| ≤ b) : Bnd 1 b (m.rnd c) c :=
  ⟨(hm.rnd c).trans (by rw [one_mul]; exact mul_le_mul_of_nonneg_left hc u_pos.le), hc, by norm_num⟩

/-- The same error, measured in parts of another size. -/
theorem rescale (h : Bnd n b x X) (hb : |X| ≤ b') (hn : 0 ≤ n') (he : n * b ≤ n' * b') : Bnd n' b' x X :=
  ⟨h.err.trans (by nlinarith [u_pos]), hb, hn⟩

/-- Adding an exact number. -/
theorem shift (h : Bnd n b x X) (c : ℝ) (hb : |c + X| ≤ b') (hn : 0 ≤ n') (he : n * b ≤ n' * b') : Bnd n' b' (c + x) (c + X) :=
  ⟨by rw [add_sub_add_left_eq_sub]; exact h.err.trans (by nlinarith [u_pos]), hb, hn⟩

theorem shiftSub (h : Bnd n b x X) (c : ℝ) (hb : |c - X| ≤ b') (hn : 0 ≤ n') (he : n * b ≤ n' * b') :
    Bnd n' b' (c - x) (c - X) := by
  simpa only [sub_eq_add_neg] using shift h.neg c (by rwa [← sub_eq_add_neg]) hn he

theorem subShift (h : Bnd n b x X) (c : ℝ) (hb : |X - c| ≤ b') (hn : 0 ≤ n') (he : n * b ≤ n' * b') :
    Bnd n' b' (x - c) (X - c) := by
  have := shift h (-c) (by rwa [neg_add_eq_sub]) hn he
  simpa only [neg_add_eq_sub] using this

/-- Adding numbers with different errors. -/
theorem addE {N B : ℝ} (h : Bnd n b x X) (h' : Bnd n' b' y Y) (hB : |X + Y| ≤ B) (hN : 0 ≤ N) (he : n * b + n' * b' ≤ N * B) :
    Bnd N B (x + y) (X + Y) :=
  ⟨by
    rw [add_sub_add_comm]
    refine (abs_add_le _ _).trans ((add_le_add h.err h'.err).trans ?_)
    nlinarith [u_pos], hB, hN⟩

/-- Errors relative to a positive value. -/
theorem relB {a : ℝ} (h : Bnd n b x X) (hX : 0 < X) (he : n * b ≤ a * X) : |x - X| ≤ a * u * X :=
  h.err.trans (by nlinarith [u_pos])

theorem mulB (h : Bnd n b x X) (h' : Bnd n' b' y Y) (hn : n ≤ 10 ^ 6) (hn' : n' ≤ 10 ^ 6) :
    Bnd (n + n' + 0.001) (b * b') (x * y) (X * Y) := by
  refine ⟨?_, by rw [abs_mul]; exact mul_le_mul h.le h'.le (abs_nonneg _) h.b_nonneg, by linarith [h.nonneg, h'.nonneg]⟩
  have e : x * y - X * Y = (x - X) * (y - Y) + X * (y - Y) + (x - X) * Y := by ring
  have h1 : |(x - X) * (y - Y)| ≤ n * u * b * (n' * u * b') := by
    rw [abs_mul]
    exact mul_le_mul h.err h'.err (abs_nonneg _) ((abs_nonneg _).trans h.err)
  have h2 : |X * (y - Y)| ≤ b * (n' * u * b') := by
    rw [abs_mul]
    exact mul_le_mul h.le h'.err (abs_nonneg _) h.b_nonneg
  have h3 : |(x - X) * Y| ≤ n * u * b * b' := by
    rw [abs_mul]
    exact mul_le_mul h.err h'.le (abs_nonneg _) ((abs_nonneg _).trans h.err)
  have h4 : n * (n' * u) ≤ 0.001 := by
    have : n' * u ≤ 1.2e-10 := by nlinarith [u_le, u_pos]
    nlinarith [h.nonneg, mul_nonneg h'.nonneg u_pos.le]
  have h5 : n * u * b * (n' * u * b') ≤ 0.001 * u * (b * b') := by
    have : 0 ≤ u * (b * b') := mul_nonneg u_pos.le (mul_nonneg h.b_nonneg h'.b_nonneg)
    nlinarith
  rw [e]
  refine (abs_add_le _ _).trans ((add_le_add (abs_add_le _ _) le_rfl).trans ?_)
  nlinarith

/-- The reciprocal of a positive number. -/
theorem invB (hY : 0 < Y) (h : |y - Y| ≤ n * u * Y) (h0 : 0 ≤ n) (hn : n ≤ 10 ^ 6) :
    0 < y ∧ Bnd (1.001 * n) (1 / Y) (1 / y) (1 / Y) := by
  have hnu : n * u ≤ 1.2e-10 := by nlinarith [u_le, u_pos]
  have hnu0 : 0 ≤ n * u := mul_nonneg h0 u_pos.le
  have hy : 0.9999 * Y ≤ y := by
    have := (abs_le.1 h).1
    nlinarith
  have hy0 : 0 < y := lt_of_lt_of_le (by positivity) hy
  refine ⟨hy0, ?_, by rw [abs_of_pos (by positivity)], by linarith⟩
  rw [show 1 / y - 1 / Y = (Y - y) / (y * Y) by field_simp, abs_div, abs_of_pos (mul_pos hy0 hY), abs_sub_comm,
    div_le_iff₀ (mul_pos hy0 hY), show 1.001 * n * u * (1 / Y) * (y * Y) = 1.001 * (n * u) * y by field_simp]
  nlinarith

theorem divB (h : Bnd n b x X) (hY : 0 < Y) (hy : |y - Y| ≤ n' * u * Y) (h0 : 0 ≤ n') (hn : n ≤ 10 ^ 6)
    (hn' : n' ≤ 10 ^ 5) : Bnd (n + 1.001 * n' + 0.001) (b / Y) (x / y) (X / Y) := by
  have := mulB h (invB hY hy h0 (by linarith)).2 hn (by linarith)
  simpa only [mul_one_div] using this

/-- The rounded ratio of two positive numbers. -/
theorem ratioB (hm : Accurate m) (hx : 0 < x) (hy : 0 < y) : |m.rnd (x / y) - x / y| ≤ 1 * u * (x / y) := by
  have := hm.rnd (x / y)
  rwa [abs_of_pos (div_pos hx hy), ← one_mul (u : ℝ)] at this

theorem abs_log_ratio (hX : 0 < X) (h : |x - X| ≤ n * u * X) (h0 : 0 ≤ n) (hn : n ≤ 10 ^ 6) :
    0 < x ∧ |Real.log x - Real.log X| ≤ 1.001 * n * u := by
  have hnu : n * u ≤ 1.2e-10 := by nlinarith [u_le, u_pos]
  have hnu0 : 0 ≤ n * u := mul_nonneg h0 u_pos.le
  obtain ⟨h1, h2⟩ := abs_le.1 h
  have hx : 0.9999 * X ≤ x := by nlinarith
  have hx0 : 0 < x := lt_of_lt_of_le (by positivity) hx
  refine ⟨hx0, ?_⟩
  rw [← Real.log_div hx0.ne' hX.ne']
  have hr : 0 < x / X := div_pos hx0 hX
  have h3 := Real.log_le_sub_one_of_pos hr
  have h4 := Real.one_sub_inv_le_log_of_pos hr
  have h5 : x / X - 1 ≤ n * u := by
    rw [sub_le_iff_le_add, div_le_iff₀ hX]
    nlinarith
  have h6 : -(1.001 * n * u) ≤ 1 - (x / X)⁻¹ := by
    rw [inv_div, neg_le_sub_iff_le_add, div_le_iff₀ hx0]
    nlinarith
  rw [abs_le]
  constructor <;> nlinarith

theorem exp_near (h : |x - X| ≤ n * u) (hn : n ≤ 10 ^ 6) : |Real.exp x - Real.exp X| ≤ 1.001 * n * u * Real.exp X := by
  have hnu : n * u ≤ 1.2e-10 := by nlinarith [u_le, u_pos]
  have h1 := Real.abs_exp_sub_one_sub_id_le (x := x - X) (h.trans (by linarith))
  have h2 : |Real.exp (x - X) - 1| ≤ 1.001 * (n * u) := by
    have h3 := abs_add_le (Real.exp (x - X) - 1 - (x - X)) (x - X)
    rw [sub_add_cancel] at h3
    have h4 : (x - X) ^ 2 = |x - X| * |x - X| := by rw [← sq_abs, sq]
    have h5 : |x - X| * |x - X| ≤ 0.001 * |x - X| := mul_le_mul_of_nonneg_right (by linarith) (abs_nonneg _)
    linarith
  rw [show Real.exp x - Real.exp X = (Real.exp (x - X) - 1) * Real.exp X by
    rw [sub_mul, ← Real.exp_add, sub_add_cancel, one_mul], abs_mul, abs_of_pos (Real.exp_pos X), mul_assoc 1.001]
  exact mul_le_mul_of_nonneg_right h2 (Real.exp_pos X).le

/-- A function of the library that is off by one unit in the last place. -/
theorem libB {z : ℝ} (h : |z - x| ≤ 2 * u * |x|) (hx : Bnd n b x X) (hn : n ≤ 10 ^ 6) : Bnd (n + 2.001) b z X := by
  refine ⟨?_, hx.le, by linarith [hx.nonneg]⟩
  have h1 : |x| ≤ n * u * b + b := by
    have := abs_add_le (x - X) X
    rw [sub_add_cancel] at this
    linarith [hx.err, hx.le]
  have h2 := abs_add_le (z - x) (x - X)
  rw [sub_add_sub_cancel] at h2
  have h3 : 2 * u * |x| ≤ 2 * u * (n * u * b + b) := mul_le_mul_of_nonneg_left h1 (by linarith [u_pos])
  have h4 : n * u ≤ 1.2e-10 := by nlinarith [u_le, u_pos]
  have h5 : 2 * u * (n * u * b) ≤ 2 * u * (1.2e-10 * b) :=
    mul_le_mul_of_nonneg_left (mul_le_mul_of_nonneg_right h4 hx.b_nonneg) (by linarith [u_pos])
  have := hx.err
  nlinarith [mul_nonneg u_pos.le hx.b_nonneg]

theorem expB (hm : Accurate m) (h : |x - X| ≤ n * u) (hn : n ≤ 10 ^ 5) :
    Bnd (1.001 * n + 2.001) (Real.exp X) (m.exp x) (Real.exp X) := by
  have h0 : 0 ≤ n := by
    by_contra hneg
    push Not at hneg
    nlinarith [abs_nonneg (x - X), u_pos]
  refine libB (x := Real.exp x) (by rw [abs_of_pos (Real.exp_pos x)]; exact hm.exp x)
    ⟨exp_near h (by linarith), by rw [abs_of_pos (Real.exp_pos X)], by linarith⟩ (by linarith)

/-- A power with an inaccurate base and an inaccurate exponent. -/
theorem powB {L q a c : ℝ} (hm : Accurate m) (hX : 0 < X) (hL : |Real.log X| ≤ L) (hx : |x - X| ≤ a * u * X)
    (hy : |y - Y| ≤ c * u) (hq : |Y| ≤ q) (ha : 0 ≤ a) (ha' : a ≤ 10 ^ 6) (hc : c ≤ 10 ^ 6)
    (hn : (q + 0.001) * (1.001 * a) + c * L ≤ n) (hn' : n ≤ 10 ^ 5) :
    Bnd (1.001 * n + 2.001) (X ^ Y) (m.pow x y) (X ^ Y) := by
  obtain ⟨hx0, hl⟩ := abs_log_ratio hX hx ha ha'
  have hq0 : 0 ≤ q := (abs_nonneg _).trans hq
  have hL0 : 0 ≤ L := (abs_nonneg _).trans hL
  have hu := u_pos
  have hyq : |y| ≤ q + 0.001 := by
    have h1 := abs_add_le (y - Y) Y
    rw [sub_add_cancel] at h1
    have : c * u ≤ 0.001 := by nlinarith [u_le]
    linarith
  have hd : |Real.log x * y - Real.log X * Y| ≤ n * u := by
    rw [show Real.log x * y - Real.log X * Y = (Real.log x - Real.log X) * y + (y - Y) * Real.log X by ring]
    refine (abs_add_le _ _).trans ?_
    rw [abs_mul, abs_mul]
    have h1 : |Real.log x - Real.log X| * |y| ≤ 1.001 * a * u * (q + 0.001) :=
      mul_le_mul hl hyq (abs_nonneg _) ((abs_nonneg _).trans hl)
    have h2 : |y - Y| * |Real.log X| ≤ c * u * L := mul_le_mul hy hL (abs_nonneg _) ((abs_nonneg _).trans hy)
    have h3 := mul_le_mul_of_nonneg_right hn hu.le
    linarith
  have h0 : 0 ≤ n := by
    by_contra hneg
    push Not at hneg
    nlinarith [abs_nonneg (Real.log x * y - Real.log X * Y)]
  have hp : 0 < X ^ Y := Real.rpow_pos_of_pos hX Y
  have h1 := exp_near hd (by linarith)
  rw [← Real.rpow_def_of_pos hx0, ← Real.rpow_def_of_pos hX] at h1
  exact libB (x := x ^ y) (by rw [abs_of_pos (Real.rpow_pos_of_pos hx0 y)]; exact hm.pow x y hx0)
    ⟨h1, by rw [abs_of_pos hp], by linarith⟩ (by linarith)

/-- A power with an exact exponent. -/
theorem powE {L q a : ℝ} (hm : Accurate m) (hX : 0 < X) (hL : |Real.log X| ≤ L) (hx : |x - X| ≤ a * u * X)
    (hq : |Y| ≤ q) (ha : 0 ≤ a) (ha' : a ≤ 10 ^ 6) (hn : (q + 0.001) * (1.001 * a) ≤ n) (hn' : n ≤ 10 ^ 5) :
    Bnd (1.001 * n + 2.001) (X ^ Y) (m.pow x Y) (X ^ Y) :=
  powB (c := 0) hm hX hL hx (by simp) hq ha ha' (by norm_num) (by linarith) hn'

theorem logB {L a : ℝ} (hm : Accurate m) (hX : 0 < X) (hL : |Real.log X| ≤ L) (hx : |x - X| ≤ a * u * X) (ha : 0 ≤ a)
    (ha' : a ≤ 10 ^ 5) (hL1 : 1e-3 ≤ L) : Bnd (1.001 * a / L + 2.001) L (m.log x) (Real.log X) := by
  obtain ⟨hx0, hl⟩ := abs_log_ratio hX hx ha (by linarith)
  have hu := u_pos
  have hL0 : 0 < L := by linarith
  have hB : |m.log x - Real.log X| ≤ 2 * u * |Real.log x| + 1.001 * a * u := by
    have h1 := abs_add_le (m.log x - Real.log x) (Real.log x - Real.log X)
    rw [sub_add_sub_cancel] at h1
    linarith [hm.log x hx0]
  have h2 : |Real.log x| ≤ L + 1.001 * a * u := by
    have h1 := abs_add_le (Real.log x - Real.log X) (Real.log X)
    rw [sub_add_cancel] at h1
    linarith
  refine ⟨hB.trans ?_, hL, by positivity⟩
  rw [show (1.001 * a / L + 2.001) * u * L = 1.001 * a * u + 2.001 * u * L by field_simp]
  have h3 : 2 * u * |Real.log x| ≤ 2 * u * (L + 1.001 * a * u) := mul_le_mul_of_nonneg_left h2 (by linarith)
  have h4 : 1.001 * a * u ≤ 0.0005 * L := by nlinarith [u_le]
  have h5 : 2 * u * (1.001 * a * u) ≤ 2 * u * (0.0005 * L) := mul_le_mul_of_nonneg_left h4 (by linarith)
  linarith

theorem sqB (hm : Accurate m) (h : Bnd n b x X) (hn : n ≤ 10 ^ 5) : Bnd (2 * n + 2.002) (b ^ 2) (m.npow x 2) (X ^ 2) := by
  have h1 := mulB h h (by linarith) (by linarith)
  rw [← sq, ← sq, ← sq] at h1
  exact (libB (hm.npow x 2) h1 (by linarith)).mono (by linarith) le_rfl

theorem cubeB (hm : Accurate m) (h : Bnd n b x X) (hn : n ≤ 10 ^ 5) : Bnd (3 * n + 2.003) (b ^ 3) (m.npow x 3) (X ^ 3) := by
  have h1 := mulB (mulB h h (by linarith) (by linarith)) h (by linarith) (by linarith)
  rw [show b * b * b = b ^ 3 by ring, show x * x * x = x ^ 3 by ring, show X * X * X = X ^ 3 by ring] at h1
  exact (libB (hm.npow x 3) h1 (by linarith)).mono (by linarith) le_rfl

/-- Adding the reference energy. -/
theorem baseB (hm : Accurate m) (E : ℝ) (h : Bnd n b x X) (hn : n ≤ 10 ^ 6) :
    |m.rnd (E + x) - (E + X)| ≤ u * |E| + (n + 1.001) * u * b := by
  have h1 := hm.rnd (E + x)
  have h2 : |x| ≤ n * u * b + b := by
    have := abs_add_le (x - X) X
    rw [sub_add_cancel] at this
    linarith [h.err, h.le]
  have h3 : |E + x| ≤ |E| + (n * u * b + b) := (abs_add_le _ _).trans (by linarith)
  have h4 := abs_add_le (m.rnd (E + x) - (E + x)) (x - X)
  rw [show m.rnd (E + x) - (E + x) + (x - X) = m.rnd (E + x) - (E + X) by ring] at h4
  have h5 : n * u ≤ 1.2e-10 := by nlinarith [u_le, u_pos]
  have h6 : u * |E + x| ≤ u * (|E| + (n * u * b + b)) := mul_le_mul_of_nonneg_left h3 u_pos.le
  have h7 : u * (n * u * b) ≤ u * (1.2e-10 * b) :=
    mul_le_mul_of_nonneg_left (mul_le_mul_of_nonneg_right h5 h.b_nonneg) u_pos.le
  have := h.err
  nlinarith [mul_nonneg u_pos.le h.b_nonneg]

end Verif.EoS.Rounded
