/- Volume derivative of the E(V) formulas, and monotonicity of the pressure formulas. -/
import Mathlib.Analysis.Calculus.Deriv.MeanValue
import Verif.EoS.Curves

namespace Verif.EoS
open Verif.EoS.Spec
open Filter (Eventually)
open Topology

/-- Derivative in the logarithmic coordinate `t = log (V / V0)`. -/
theorem energy_of_log {E H : ℝ → ℝ} {V0 V h P : ℝ} (hV0 : 0 < V0) (hV : 0 < V)
    (hE : ∀ W, 0 < W → E W = H (Real.log (W / V0)))
    (hH : HasDerivAt H h (Real.log (V / V0))) (he : h = -(V * P)) :
    HasDerivAt E (-P) V := by
  have h1 : HasDerivAt (fun W => H (Real.log (W / V0))) (h * (1 / V)) V :=
    hH.comp V (hasDerivAt_logcoord hV0 hV)
  have h2 : E =ᶠ[𝓝 V] fun W => H (Real.log (W / V0)) := by
    filter_upwards [lt_mem_nhds hV] with W hW using hE W hW
  refine (h1.congr_of_eventuallyEq h2).congr_deriv ?_
  rw [he]
  field_simp

theorem energy_murnaghan (E0 K0 Kp V0 V : ℝ) (hV0 : 0 < V0) (hV : 0 < V) (h0 : Kp ≠ 0)
    (h1 : Kp ≠ 1) :
    HasDerivAt (energy .murnaghan E0 K0 Kp V0) (-(formula .murnaghan ⟨K0, Kp, 0, V0⟩ V)) V := by
  have h1' : Kp - 1 ≠ 0 := sub_ne_zero.2 h1
  have hx : ∀ W, 0 < W → V0 * Real.exp (Real.log (W / V0)) = W := fun W hW => by
    rw [← (ratio_exp hV0 hW).1]; field_simp
  refine energy_of_log hV0 hV (H := fun t => E0 + K0 * V0 / Kp *
      (Real.exp ((1 - Kp) * t) / (Kp - 1) + Real.exp (1 * t)) - V0 * K0 / (Kp - 1))
    (fun W hW => ?_)
    ((((((hasDerivAt_exp_mul (1 - Kp) _).div_const (Kp - 1)).add
      (hasDerivAt_exp_mul 1 _)).const_mul (K0 * V0 / Kp)).const_add E0).sub_const _) ?_
  · simp only [energy, (rpow_ratio hV0 hW Kp).2]
    conv_lhs => rw [← hx W hW]
    set t := Real.log (W / V0)
    have e1 : Real.log (V0 * Real.exp t / V0) = t := by
      rw [mul_div_cancel_left₀ _ hV0.ne', Real.log_exp]
    have e2 : Real.exp ((1 - Kp) * t) = Real.exp t * Real.exp (-Kp * t) := by
      rw [← Real.exp_add]; congr 1; ring
    rw [e2, one_mul, e1]
    ring
  · simp only [formula, (rpow_ratio hV0 hV Kp).2]
    have := hx V hV
    set t := Real.log (V / V0)
    have e2 : Real.exp ((1 - Kp) * t) = Real.exp t * Real.exp (-Kp * t) := by
      rw [← Real.exp_add]; congr 1; ring
    rw [e2, one_mul, ← this]
    field_simp
    ring

theorem energy_bm (E0 K0 Kp V0 V : ℝ) (hV0 : 0 < V0) (hV : 0 < V) (hK0 : K0 ≠ 0) :
    HasDerivAt (energy .birchMurnaghan E0 K0 Kp V0) (-(formula .birchMurnaghan
      ⟨K0, Kp, (-1 / K0) * ((3 - Kp) * (4 - Kp) + 35 / 9), V0⟩ V)) V := by
  have hx : ∀ W, 0 < W → V0 * Real.exp (Real.log (W / V0)) = W := fun W hW => by
    rw [← (ratio_exp hV0 hW).1]; field_simp
  have hp : ∀ (t m : ℝ) (n : ℕ), m = n * (-1 / 3) →
      Real.exp (m * t) = Real.exp (-t / 3) ^ n := fun t m n hm => by
    rw [← Real.exp_nat_mul, hm]; congr 1; ring
  refine energy_of_log hV0 hV (H := fun t => E0 + ex ((9 * K0 * V0 / 16) • ![6 - Kp, 3 * Kp - 16,
      14 - 3 * Kp, Kp - 4]) ![0, -2 / 3, -4 / 3, -2] t) (fun W hW => ?_)
    ((hasDerivAt_ex _ _ _).const_add E0) ?_
  · simp only [energy, (rpow_ratio hV0 hW _).2]
    set t := Real.log (W / V0)
    simp only [ex, Fin.sum_univ_four, Matrix.cons_val_zero, Matrix.cons_val_one, Matrix.cons_val,
      Pi.smul_apply, smul_eq_mul]
    rw [hp t (-(1 / 3)) 1 (by norm_num), hp t 0 0 (by norm_num), hp t (-2 / 3) 2 (by norm_num),
      hp t (-4 / 3) 4 (by norm_num), hp t (-2) 6 (by norm_num)]
    ring
  · rw [bm_log _ hV0 hV]
    have hxV := hx V hV
    dsimp only
    set t := Real.log (V / V0)
    have e : V = V0 / Real.exp (-t / 3) ^ 3 := by
      rw [← hxV, ← Real.exp_nat_mul, div_eq_mul_inv, ← Real.exp_neg]
      congr 2; push_cast; ring
    simp only [ex, Fin.sum_univ_four, Matrix.cons_val_zero, Matrix.cons_val_one, Matrix.cons_val,
      Pi.smul_apply, smul_eq_mul, bmC, bmM]
    rw [hp t 0 0 (by norm_num), hp t (-2 / 3) 2 (by norm_num),
      hp t (-4 / 3) 4 (by norm_num), hp t (-2) 6 (by norm_num), hp t (-5 / 3) 5 (by norm_num),
      hp t (-7 / 3) 7 (by norm_num), hp t (-3) 9 (by norm_num), hp t (-11 / 3) 11 (by norm_num), e]
    have := (Real.exp_pos (-t / 3)).ne'
    generalize Real.exp (-t / 3) = y at this ⊢
    field_simp
    ring

theorem energy_pt (E0 K0 Kp V0 V : ℝ) (hV0 : 0 < V0) (hV : 0 < V) (hK0 : K0 ≠ 0) :
    HasDerivAt (energy .pourierTarantola E0 K0 Kp V0) (-(formula .naturalStrain
      ⟨K0, Kp, (-1 / K0) * (1 + (Kp - 2) + (Kp - 2) ^ 2), V0⟩ V)) V := by
  have hd : ∀ t, HasDerivAt (fun t => E0 + K0 * V0 * (1 / 2 * t ^ 2 - (Kp - 2) / 6 * t ^ 3))
      (K0 * V0 * (1 / 2 * (2 * t ^ 1 * 1) - (Kp - 2) / 6 * (3 * t ^ 2 * 1))) t := fun t =>
    (((((hasDerivAt_id t).pow 2).const_mul (1 / 2)).sub
      (((hasDerivAt_id t).pow 3).const_mul ((Kp - 2) / 6))).const_mul (K0 * V0)).const_add E0
  refine energy_of_log hV0 hV
    (H := fun t => E0 + K0 * V0 * (1 / 2 * t ^ 2 - (Kp - 2) / 6 * t ^ 3)) (fun W hW => ?_) (hd _) ?_
  · simp only [energy, (rpow_ratio hV0 hW _).1, Real.log_exp]
    ring
  · rw [ns_log _ hV0 hV]
    have hxV : V0 * Real.exp (Real.log (V / V0)) = V := by
      rw [← (ratio_exp hV0 hV).1]; field_simp
    dsimp only
    set t := Real.log (V / V0)
    rw [← hxV]
    simp only [pe, neg_mul, one_mul, Real.exp_neg]
    have := (Real.exp_pos t).ne'
    field_simp
    ring

theorem energy_vinet (E0 K0 Kp V0 V : ℝ) (hV0 : 0 < V0) (hV : 0 < V) (h1 : Kp ≠ 1) (x : ℝ) :
    HasDerivAt (energy .vinet E0 K0 Kp V0) (-(formula .vinet ⟨K0, Kp, x, V0⟩ V)) V := by
  have h1' : Kp - 1 ≠ 0 := sub_ne_zero.2 h1
  set h := 1.5 * (Kp - 1) with hh
  refine energy_of_log hV0 hV (H := fun t => E0 + (4 * K0 * V0 / (Kp - 1) ^ 2 -
      vx h ![0, 0, 2 * K0 * V0 / (Kp - 1) ^ 2 * (5 - 3 * Kp),
        2 * K0 * V0 / (Kp - 1) ^ 2 * (3 * Kp - 3)] t)) (fun W hW => ?_)
    (((hasDerivAt_vx h _ _).const_sub _).const_add E0) ?_
  · simp only [energy, (rpow_ratio hV0 hW _).1]
    set t := Real.log (W / V0)
    simp only [vx, ex, Fin.sum_univ_four, Matrix.cons_val_zero, Matrix.cons_val_one,
      Matrix.cons_val]
    have e : -3 * (Kp - 1) * (Real.exp (1 / 3 * t) - 1) / 2 = h * (1 - Real.exp (1 / 3 * t)) := by
      rw [hh]; ring
    rw [e, zero_mul t, Real.exp_zero]
    ring
  · rw [vinet_log _ hV0 hV]
    have hxV : V0 * Real.exp (Real.log (V / V0)) = V := by
      rw [← (ratio_exp hV0 hV).1]; field_simp
    dsimp only
    rw [← hh]
    set t := Real.log (V / V0)
    simp only [vx, ex, Fin.sum_univ_four, Matrix.cons_val_zero, Matrix.cons_val_one,
      Matrix.cons_val]
    generalize Real.exp (h * (1 - Real.exp (1 / 3 * t))) = w
    have e1 : Real.exp (-2 / 3 * t) = 1 / Real.exp (1 / 3 * t) ^ 2 := by
      rw [← Real.exp_nat_mul, one_div, ← Real.exp_neg]; congr 1; push_cast; ring
    have e2 : Real.exp (-1 / 3 * t) = 1 / Real.exp (1 / 3 * t) := by
      rw [one_div, ← Real.exp_neg]; congr 1; ring
    have e3 : V = V0 * Real.exp (1 / 3 * t) ^ 3 := by
      rw [← hxV, ← Real.exp_nat_mul]; congr 2; push_cast; ring
    rw [e1, e2, e3, zero_mul t, Real.exp_zero]
    have := (Real.exp_pos (1 / 3 * t)).ne'
    generalize Real.exp (1 / 3 * t) = y at this ⊢
    rw [hh]
    field_simp
    ring

/-! ### Monotonicity -/

theorem mul_strict {x1 x2 u1 u2 : ℝ} (h0 : 0 ≤ x1) (h : x1 < x2) (hu : 0 < u1) (hu2 : u1 ≤ u2) :
    x1 * u1 < x2 * u2 :=
  lt_of_le_of_lt (mul_le_mul_of_nonneg_left hu2 h0) (mul_lt_mul_of_pos_right h (hu.trans_le hu2))

theorem quad_mono {a b x y : ℝ} (ha : 0 ≤ a) (hb : 0 ≤ b) (hx : 0 ≤ x) (h : x < y) :
    0 < 1 + a * x + b * x ^ 2 ∧ 1 + a * x + b * x ^ 2 ≤ 1 + a * y + b * y ^ 2 := by
  constructor
  · positivity
  · have := mul_le_mul_of_nonneg_left h.le ha
    have h2 : x ^ 2 ≤ y ^ 2 := pow_le_pow_left₀ hx h.le 2
    have := mul_le_mul_of_nonneg_left h2 hb
    linarith

theorem strictAnti_murnaghan (q : Pars) (hV0 : 0 < q.V0) (hK0 : 0 < q.K0) (hKp : 0 < q.Kp)
    {V W : ℝ} (hV : 0 < V) (h : V < W) : formula .murnaghan q W < formula .murnaghan q V := by
  have hW := hV.trans h
  have h1 : q.V0 / W < q.V0 / V := div_lt_div_of_pos_left hV0 hV h
  have h2 := Real.rpow_lt_rpow (by positivity) h1 hKp
  simp only [formula]
  have : 0 < q.K0 / q.Kp := by positivity
  exact mul_lt_mul_of_pos_left (by linarith) this

theorem strictAnti_bm (q : Pars) (hV0 : 0 < q.V0) (hK0 : 0 < q.K0) (hs : Stiffening .birchMurnaghan q)
    {V W : ℝ} (hV : 0 < V) (h : V < W) (hW0 : W ≤ q.V0) :
    formula .birchMurnaghan q W < formula .birchMurnaghan q V := by
  have hW := hV.trans h
  obtain ⟨h4, hb⟩ := hs
  have h1 : q.V0 / W < q.V0 / V := div_lt_div_of_pos_left hV0 hV h
  have h0 : 1 ≤ q.V0 / W := by rwa [le_div_iff₀ hW, one_mul]
  have h2 := Real.rpow_lt_rpow (by positivity) h1 (show (0:ℝ) < 2 / 3 by norm_num)
  have h3 := Real.one_le_rpow h0 (show (0:ℝ) ≤ 2 / 3 by norm_num)
  simp only [formula]
  set x := 0.5 * ((q.V0 / W) ^ ((2:ℝ) / 3) - 1) with hx
  set y := 0.5 * ((q.V0 / V) ^ ((2:ℝ) / 3) - 1) with hy
  have hx0 : 0 ≤ x := by rw [hx]; norm_num; linarith
  have hxy : x < y := by rw [hx, hy]; norm_num; linarith
  have hp : (1 + 2 * x) ^ (2.5:ℝ) ≤ (1 + 2 * y) ^ (2.5:ℝ) :=
    Real.rpow_le_rpow (by positivity) (by linarith) (by norm_num)
  have hp0 : 0 < (1 + 2 * x) ^ (2.5:ℝ) := Real.rpow_pos_of_pos (by positivity) _
  have hq := quad_mono (a := 1.5 * (q.Kp - 4))
    (b := 1.5 * (q.K0 * q.Kpp + (q.Kp - 4) * (q.Kp - 3) + 35 / 9))
    (by have := sub_nonneg.2 h4; positivity) (by positivity) hx0 hxy
  have h3K : 0 < 3 * q.K0 := by positivity
  have s1 : 3 * q.K0 * x < 3 * q.K0 * y := mul_lt_mul_of_pos_left hxy h3K
  have s2 := mul_strict (by positivity) s1 hp0 hp
  exact mul_strict (by positivity) s2 hq.1 hq.2

theorem strictAnti_ns (q : Pars) (hV0 : 0 < q.V0) (hK0 : 0 < q.K0) (hs : Stiffening .naturalStrain q)
    {V W : ℝ} (hV : 0 < V) (h : V < W) (hW0 : W ≤ q.V0) :
    formula .naturalStrain q W < formula .naturalStrain q V := by
  have hW := hV.trans h
  obtain ⟨h4, hb⟩ := hs
  have h1 : q.V0 / W < q.V0 / V := div_lt_div_of_pos_left hV0 hV h
  have h0 : 1 ≤ q.V0 / W := by rwa [le_div_iff₀ hW, one_mul]
  have h2 := Real.log_lt_log (by positivity) h1
  have h3 := Real.log_nonneg h0
  simp only [formula]
  set x := 1 / 3 * Real.log (q.V0 / W) with hx
  set y := 1 / 3 * Real.log (q.V0 / V) with hy
  have hx0 : 0 ≤ x := by rw [hx]; positivity
  have hxy : x < y := by rw [hx, hy]; linarith
  have hq := quad_mono (a := 1.5 * (q.Kp - 2))
    (b := 1.5 * (1 + q.Kpp * q.K0 + (q.Kp - 2) + (q.Kp - 2) ^ 2))
    (by have := sub_nonneg.2 h4; positivity) (by positivity) hx0 hxy
  have h3K : 0 < 3 * q.K0 := by positivity
  have s1 : x * (3 * q.K0 * (q.V0 / W)) < y * (3 * q.K0 * (q.V0 / V)) :=
    mul_strict hx0 hxy (by positivity) (mul_le_mul_of_nonneg_left h1.le h3K.le)
  rw [mul_comm x, mul_comm y] at s1
  exact mul_strict (by positivity) s1 hq.1 hq.2

theorem strictAnti_vinet (q : Pars) (hV0 : 0 < q.V0) (hK0 : 0 < q.K0) (hs : Stiffening .vinet q)
    {V W : ℝ} (hV : 0 < V) (h : V < W) (hW0 : W ≤ q.V0) :
    formula .vinet q W < formula .vinet q V := by
  have hW := hV.trans h
  have hs' : 1 ≤ q.Kp := hs
  have h1 : V / q.V0 < W / q.V0 := div_lt_div_of_pos_right h hV0
  have h0 : W / q.V0 ≤ 1 := by rwa [div_le_one hV0]
  have h2 := Real.rpow_lt_rpow (by positivity) h1 (show (0:ℝ) < 1 / 3 by norm_num)
  have h3 := Real.rpow_le_one (by positivity) h0 (show (0:ℝ) ≤ 1 / 3 by norm_num)
  have h4 : 0 < (V / q.V0) ^ ((1:ℝ) / 3) := Real.rpow_pos_of_pos (by positivity) _
  simp only [formula]
  set u := (W / q.V0) ^ ((1:ℝ) / 3)
  set v := (V / q.V0) ^ ((1:ℝ) / 3)
  have e : ∀ z : ℝ, 1 - (1 - z) = z := fun z => by ring
  rw [e, e]
  have hu : 0 < u := h4.trans h2
  have hi : 1 / u ^ 2 ≤ 1 / v ^ 2 :=
    one_div_le_one_div_of_le (by positivity) (pow_le_pow_left₀ h4.le h2.le 2)
  have hx0 : 0 ≤ 1 - u := by linarith
  have s1 : (1 - u) * (1 / u ^ 2) < (1 - v) * (1 / v ^ 2) :=
    mul_strict hx0 (by linarith) (by positivity) hi
  rw [mul_one_div, mul_one_div] at s1
  have h3K : 0 < 3 * q.K0 := by positivity
  have s2 := mul_lt_mul_of_pos_left s1 h3K
  have hex : Real.exp (1.5 * (q.Kp - 1) * (1 - u)) ≤ Real.exp (1.5 * (q.Kp - 1) * (1 - v)) :=
    Real.exp_le_exp.2 (mul_le_mul_of_nonneg_left (by linarith)
      (by have := sub_nonneg.2 hs'; positivity))
  exact mul_strict (by positivity) s2 (Real.exp_pos _) hex

theorem strictAnti_tait (q : Pars) (hV0 : 0 < q.V0) (hK0 : 0 < q.K0) (hs : Stiffening .tait q)
    {V W : ℝ} (hV : 0 < V) (h : V < W) :
    formula .tait q W < formula .tait q V := by
  obtain ⟨hKp, hKpp, hD⟩ := hs
  have hm : q.K0 * q.Kpp ≤ 0 := mul_nonpos_of_nonneg_of_nonpos hK0.le hKpp
  have hE : 0 < q.Kp ^ 2 + q.Kp - q.K0 * q.Kpp := by have := sq_nonneg q.Kp; linarith
  have ha : 1 ≤ (1 + q.Kp) / (1 + q.Kp + q.K0 * q.Kpp) := by rw [le_div_iff₀ hD]; linarith
  have hb : 0 < q.Kp / q.K0 - q.Kpp / (1 + q.Kp) := by
    have h1 : 0 < q.Kp / q.K0 := by positivity
    have h2 : q.Kpp / (1 + q.Kp) ≤ 0 := div_nonpos_of_nonpos_of_nonneg hKpp (by linarith)
    linarith
  have hc : 0 < (1 + q.Kp + q.K0 * q.Kpp) / (q.Kp ^ 2 + q.Kp - q.K0 * q.Kpp) := div_pos hD hE
  simp only [formula]
  set a := (1 + q.Kp) / (1 + q.Kp + q.K0 * q.Kpp)
  set c := (1 + q.Kp + q.K0 * q.Kpp) / (q.Kp ^ 2 + q.Kp - q.K0 * q.Kpp)
  have h1 : V / q.V0 < W / q.V0 := div_lt_div_of_pos_right h hV0
  have h0 : 0 < V / q.V0 := by positivity
  have ha0 : 0 < a := by linarith
  have hx : 0 < (V / q.V0 + a - 1) / a := div_pos (by linarith) ha0
  have hlt : (V / q.V0 + a - 1) / a < (W / q.V0 + a - 1) / a :=
    div_lt_div_of_pos_right (by linarith) ha0
  have hn : -1 / c < 0 := div_neg_of_neg_of_pos (by norm_num) hc
  have := Real.rpow_lt_rpow_of_neg hx hlt hn
  exact mul_lt_mul_of_pos_left (by linarith) (by positivity)

end Verif.EoS
