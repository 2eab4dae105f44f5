/-
Relative errors of products, quotients and sums for C163.
-/
import Verif.QHA.BinarySpec
import Verif.EoS.BinaryLemmas

noncomputable section

namespace Verif.QHA.Rounded
open Verif.QHA Verif.QHA.Rounded.Spec
open Verif.EoS.Rounded (Machine)
open Verif.EoS.Rounded.Spec (Accurate)
open Verif.Elastic.Rounded (Bnd u_pos u_le)
open Verif.Elastic.Rounded.Spec (u)

variable {a b x X y Y : ℝ} {m : Machine}

theorem bnd (h : Near a x X) (ha : 0 ≤ a) : Bnd a |X| x X := ⟨h, le_rfl, ha⟩

theorem self (x : ℝ) : Near 0 x x := by simp [Near]

theorem Spec.Near.mono (h : Near a x X) (hab : a ≤ b) : Near b x X :=
  h.trans (mul_le_mul_of_nonneg_right (mul_le_mul_of_nonneg_right hab u_pos.le) (abs_nonneg _))

theorem nrnd (hm : Accurate m) (h : Near a x X) (ha : 0 ≤ a) (ha' : a ≤ 10 ^ 6) : Near (a + 1.001) (m.rnd x) X :=
  (Verif.EoS.Rounded.rndB hm (bnd h ha) (by linarith)).err

theorem nmul (h : Near a x X) (h' : Near b y Y) (ha : 0 ≤ a) (hb : 0 ≤ b) (ha' : a ≤ 10 ^ 6) (hb' : b ≤ 10 ^ 6) :
    Near (a + b + 0.001) (x * y) (X * Y) := by
  have := (Verif.EoS.Rounded.mulB (bnd h ha) (bnd h' hb) ha' hb').err
  rwa [← abs_mul] at this

theorem ninv (h : Near b y Y) (hY : Y ≠ 0) (hb : 0 ≤ b) (hb' : b ≤ 10 ^ 5) : y ≠ 0 ∧ Near (1.001 * b) (1 / y) (1 / Y) := by
  rcases lt_or_gt_of_ne hY with hn | hp
  · have h1 : |-y - -Y| ≤ b * u * -Y := by
      have h0 : |y - Y| ≤ b * u * |Y| := h
      rwa [abs_of_neg hn, abs_sub_comm, ← neg_sub_neg] at h0
    obtain ⟨h2, h3⟩ := Verif.EoS.Rounded.invB (neg_pos.2 hn) h1 hb (by linarith)
    refine ⟨by linarith, ?_⟩
    have h4 := h3.err
    rw [one_div_neg_eq_neg_one_div, one_div_neg_eq_neg_one_div, neg_sub_neg, abs_sub_comm] at h4
    rw [Near, abs_of_neg (one_div_neg.2 hn)]
    exact h4
  · have h1 : |y - Y| ≤ b * u * Y := by
      have h0 : |y - Y| ≤ b * u * |Y| := h
      rwa [abs_of_pos hp] at h0
    obtain ⟨h2, h3⟩ := Verif.EoS.Rounded.invB hp h1 hb (by linarith)
    refine ⟨h2.ne', ?_⟩
    rw [Near, abs_of_pos (one_div_pos.2 hp)]
    exact h3.err

theorem ndiv (h : Near a x X) (h' : Near b y Y) (hY : Y ≠ 0) (ha : 0 ≤ a) (hb : 0 ≤ b) (ha' : a ≤ 10 ^ 5) (hb' : b ≤ 10 ^ 5) :
    Near (a + 1.001 * b + 0.001) (x / y) (X / Y) := by
  have := nmul h (ninv h' hY hb hb').2 ha (by linarith) (by linarith) (by linarith)
  simpa only [mul_one_div] using this

/-- Sums of numbers that are not negative. -/
theorem nadd (h : Near a x X) (h' : Near a y Y) (hX : 0 ≤ X) (hY : 0 ≤ Y) : Near a (x + y) (X + Y) := by
  unfold Near at *
  rw [abs_of_nonneg hX] at h
  rw [abs_of_nonneg hY] at h'
  rw [abs_of_nonneg (add_nonneg hX hY), add_sub_add_comm]
  refine (abs_add_le _ _).trans ?_
  linarith

theorem nsquare (hm : Accurate m) (h : Near a x X) (ha : 0 ≤ a) (ha' : a ≤ 10 ^ 5) : Near (2 * a + 2.002) (m.npow x 2) (X ^ 2) := by
  have h1 := nmul h h ha ha (by linarith) (by linarith)
  rw [← pow_two, ← pow_two] at h1
  have := (Verif.EoS.Rounded.libB (hm.npow x 2) (bnd h1 (by linarith)) (by linarith)).err
  exact Spec.Near.mono this (by linarith)

/-- Zero and the sign survive. -/
theorem near_zero (h : Near a x X) (ha : a ≤ 10 ^ 6) : x = 0 ↔ X = 0 := by
  have h1 : a * u ≤ 1 / 2 := by nlinarith [u_le, u_pos]
  unfold Near at h
  constructor
  · rintro rfl
    rw [zero_sub, abs_neg] at h
    by_contra hX
    have := abs_pos.2 hX
    nlinarith
  · rintro rfl
    simpa using h

theorem near_pos (h : Near a x X) (ha : a ≤ 10 ^ 6) : 0 < x ↔ 0 < X := by
  have h1 : a * u ≤ 1 / 2 := by nlinarith [u_le, u_pos]
  unfold Near at h
  obtain ⟨h2, h3⟩ := abs_le.1 h
  constructor
  · intro hx
    by_contra hX
    push Not at hX
    rw [abs_of_nonpos hX] at h3
    nlinarith
  · intro hX
    rw [abs_of_pos hX] at h2
    nlinarith

end Verif.QHA.Rounded
