/- The five pressure curves near V0. -/
import Mathlib.Algebra.BigOperators.Fin
import Mathlib.Analysis.Calculus.Deriv.Add
import Verif.EoS.Log

namespace Verif.EoS
open Verif.EoS.Spec
open Filter (Eventually)
open Topology

/-- A sum of four exponentials. -/
noncomputable def ex (c m : Fin 4 → ℝ) (t : ℝ) : ℝ := ∑ i, c i * Real.exp (m i * t)

theorem hasDerivAt_exp_mul (m t : ℝ) :
    HasDerivAt (fun t => Real.exp (m * t)) (m * Real.exp (m * t)) t := by
  have h : HasDerivAt (fun t => Real.exp (m * t)) (Real.exp (m * t) * (m * 1)) t :=
    ((hasDerivAt_id t).const_mul m).exp
  refine h.congr_deriv ?_
  ring

theorem hasDerivAt_ex (c m : Fin 4 → ℝ) (t : ℝ) :
    HasDerivAt (ex c m) (ex (fun i => c i * m i) m t) t := by
  have h : HasDerivAt (fun t => ∑ i, c i * Real.exp (m i * t))
      (∑ i, c i * (m i * Real.exp (m i * t))) t :=
    HasDerivAt.fun_sum fun i _ => (hasDerivAt_exp_mul (m i) t).const_mul (c i)
  refine h.congr_deriv ?_
  simp only [ex]
  exact Finset.sum_congr rfl fun i _ => by ring

theorem ex_zero (c m : Fin 4 → ℝ) : ex c m 0 = c 0 + c 1 + c 2 + c 3 := by
  simp [ex, Fin.sum_univ_four]

/-- Meaning of the parameters of a curve at `V0`: the first four claims are those of C23, the last
one that of C24. -/
structure Meaning (P : ℝ → ℝ) (K0 Kp Kpp V0 : ℝ) : Prop where
  zero : P V0 = 0
  diff : DifferentiableAt ℝ P V0
  bulk : bulk P V0 = K0
  diffK : DifferentiableAt ℝ (Spec.bulk P) V0
  prime : bulkPrime P V0 = Kp
  diffKp : DifferentiableAt ℝ (bulkPrime P) V0
  second : bulkSecond P V0 = Kpp

theorem meaning_of_log {P G G1 G2 : ℝ → ℝ} {g3 V0 K0 Kp Kpp : ℝ} (hV0 : 0 < V0)
    (hP : ∀ᶠ V in 𝓝 V0, P V = G (Real.log (V / V0)))
    (h1 : ∀ᶠ t in 𝓝 (0:ℝ), HasDerivAt G (G1 t) t) (h2 : ∀ᶠ t in 𝓝 (0:ℝ), HasDerivAt G1 (G2 t) t)
    (h3 : HasDerivAt G2 g3 0) (hK0 : K0 ≠ 0) (e0 : G 0 = 0) (e1 : G1 0 = -K0)
    (e2 : G2 0 = Kp * K0) (e3 : g3 = -(Kp ^ 2 * K0 + Kpp * K0 ^ 2)) :
    Meaning P K0 Kp Kpp V0 := by
  have hne : G1 0 ≠ 0 := by rw [e1]; exact neg_ne_zero.2 hK0
  obtain ⟨a, b, c, d, e, f, g⟩ := log_coordinates hV0 hP h1 h2 h3 hne
  refine ⟨by rw [a, e0], b, by rw [c, e1, neg_neg], d, ?_, f, ?_⟩
  · rw [e, e1, e2]; field_simp
  · rw [g, e1, e2, e3]; field_simp; ring

theorem curve_murnaghan (q : Pars) (hV0 : 0 < q.V0) (hK0 : q.K0 ≠ 0) (hKp : q.Kp ≠ 0) :
    Meaning (formula .murnaghan q) q.K0 q.Kp 0 q.V0 := by
  have hd : ∀ c t : ℝ, HasDerivAt (fun t => c * Real.exp (-q.Kp * t))
      (-q.Kp * c * Real.exp (-q.Kp * t)) t := fun c t => by
    refine ((hasDerivAt_exp_mul (-q.Kp) t).const_mul c).congr_deriv ?_
    ring
  refine meaning_of_log (G := fun t => q.K0 / q.Kp * (Real.exp (-q.Kp * t) - 1))
    (G1 := fun t => -q.K0 * Real.exp (-q.Kp * t))
    (G2 := fun t => q.Kp * q.K0 * Real.exp (-q.Kp * t))
    (g3 := -q.Kp * (q.Kp * q.K0)) hV0 ?_ ?_ ?_ ?_ hK0 ?_ ?_ ?_ ?_
  · filter_upwards [lt_mem_nhds hV0] with V hV
    simp only [formula, (rpow_ratio hV0 hV q.Kp).2]
  · refine Filter.Eventually.of_forall fun t => ?_
    have h : HasDerivAt (fun t => q.K0 / q.Kp * (Real.exp (-q.Kp * t) - 1))
        (q.K0 / q.Kp * (-q.Kp * Real.exp (-q.Kp * t))) t :=
      ((hasDerivAt_exp_mul (-q.Kp) t).sub_const 1).const_mul _
    refine h.congr_deriv ?_
    field_simp
  · refine Filter.Eventually.of_forall fun t => (hd _ t).congr_deriv ?_
    ring
  · refine (hd _ 0).congr_deriv ?_
    simp
  · simp
  · simp
  · simp
  · ring

/-- Birch-Murnaghan pressure as a sum of exponentials. -/
noncomputable def bmC (q : Pars) : Fin 4 → ℝ :=
  let A := 1.5 * (q.Kp - 4) / 2
  let B := 1.5 * (q.K0 * q.Kpp + (q.Kp - 4) * (q.Kp - 3) + 35 / 9) / 4
  ![3 * q.K0 / 2 * (-1 + A - B), 3 * q.K0 / 2 * (1 - 2 * A + 3 * B), 3 * q.K0 / 2 * (A - 3 * B),
    3 * q.K0 / 2 * B]

noncomputable def bmM : Fin 4 → ℝ := ![-5 / 3, -7 / 3, -3, -11 / 3]

theorem bm_log (q : Pars) (hV0 : 0 < q.V0) {V : ℝ} (hV : 0 < V) :
    formula .birchMurnaghan q V = ex (bmC q) bmM (Real.log (V / q.V0)) := by
  simp only [formula, (rpow_ratio hV0 hV _).2]
  set t := Real.log (V / q.V0)
  have e0 : 1 + 2 * (0.5 * (Real.exp (-(2 / 3) * t) - 1)) = Real.exp (-(2 / 3) * t) := by ring
  rw [e0, ← Real.exp_mul]
  have e1 : Real.exp (-(2 / 3) * t * 2.5) = Real.exp (-t / 3) ^ 5 := by
    rw [← Real.exp_nat_mul]; congr 1; push_cast; ring
  have e2 : Real.exp (-(2 / 3) * t) = Real.exp (-t / 3) ^ 2 := by
    rw [← Real.exp_nat_mul]; congr 1; push_cast; ring
  have e3 : Real.exp (-5 / 3 * t) = Real.exp (-t / 3) ^ 5 := by
    rw [← Real.exp_nat_mul]; congr 1; push_cast; ring
  have e4 : Real.exp (-7 / 3 * t) = Real.exp (-t / 3) ^ 7 := by
    rw [← Real.exp_nat_mul]; congr 1; push_cast; ring
  have e5 : Real.exp (-3 * t) = Real.exp (-t / 3) ^ 9 := by
    rw [← Real.exp_nat_mul]; congr 1; push_cast; ring
  have e6 : Real.exp (-11 / 3 * t) = Real.exp (-t / 3) ^ 11 := by
    rw [← Real.exp_nat_mul]; congr 1; push_cast; ring
  rw [e1, e2]
  simp only [ex, Fin.sum_univ_four, bmC, bmM, Matrix.cons_val_zero, Matrix.cons_val_one,
    Matrix.cons_val]
  rw [e3, e4, e5, e6]
  ring

theorem curve_bm (q : Pars) (hV0 : 0 < q.V0) (hK0 : q.K0 ≠ 0) :
    Meaning (formula .birchMurnaghan q) q.K0 q.Kp q.Kpp q.V0 := by
  refine meaning_of_log (G := ex (bmC q) bmM) hV0 ?_
    (Filter.Eventually.of_forall fun t => hasDerivAt_ex _ _ t)
    (Filter.Eventually.of_forall fun t => hasDerivAt_ex _ _ t) (hasDerivAt_ex _ _ 0) hK0 ?_ ?_ ?_ ?_
  · filter_upwards [lt_mem_nhds hV0] with V hV
    exact bm_log q hV0 hV
  all_goals
    simp only [ex_zero, bmC, bmM, Matrix.cons_val_zero, Matrix.cons_val_one, Matrix.cons_val]
    ring

/-- A cubic polynomial times `exp (-t)`. -/
noncomputable def pe (a b c d t : ℝ) : ℝ := Real.exp (-1 * t) * (a + b * t + c * t ^ 2 + d * t ^ 3)

theorem hasDerivAt_pe (a b c d t : ℝ) :
    HasDerivAt (pe a b c d) (pe (b - a) (2 * c - b) (3 * d - c) (-d) t) t := by
  have hp : HasDerivAt (fun t => a + b * t + c * t ^ 2 + d * t ^ 3)
      (b * 1 + c * (2 * t ^ 1 * 1) + d * (3 * t ^ 2 * 1)) t := by
    have h1 : HasDerivAt (fun t => a + b * t) (b * 1) t := ((hasDerivAt_id t).const_mul b).const_add a
    exact (h1.add (((hasDerivAt_id t).pow 2).const_mul c)).add
      (((hasDerivAt_id t).pow 3).const_mul d)
  have h := (hasDerivAt_exp_mul (-1) t).mul hp
  refine HasDerivAt.congr_deriv (f := pe a b c d) h ?_
  simp only [pe]
  ring

theorem ns_log (q : Pars) (hV0 : 0 < q.V0) {V : ℝ} (hV : 0 < V) :
    formula .naturalStrain q V =
      pe 0 (-q.K0) (3 * q.K0 * (1.5 * (q.Kp - 2)) / 9)
        (-(3 * q.K0 * (1.5 * (1 + q.Kpp * q.K0 + (q.Kp - 2) + (q.Kp - 2) ^ 2)) / 27))
        (Real.log (V / q.V0)) := by
  have hl : Real.log (q.V0 / V) = -Real.log (V / q.V0) := by rw [← Real.log_inv, inv_div]
  have hr := (ratio_exp hV0 hV).2
  simp only [formula, hl]
  rw [hr]
  set t := Real.log (V / q.V0)
  have : Real.exp (-1 * t) = Real.exp (-t) := by congr 1; ring
  simp only [pe, this]
  ring

theorem curve_ns (q : Pars) (hV0 : 0 < q.V0) (hK0 : q.K0 ≠ 0) :
    Meaning (formula .naturalStrain q) q.K0 q.Kp q.Kpp q.V0 := by
  refine meaning_of_log (G := pe 0 (-q.K0) (3 * q.K0 * (1.5 * (q.Kp - 2)) / 9)
        (-(3 * q.K0 * (1.5 * (1 + q.Kpp * q.K0 + (q.Kp - 2) + (q.Kp - 2) ^ 2)) / 27))) hV0 ?_
    (Filter.Eventually.of_forall fun t => hasDerivAt_pe _ _ _ _ t)
    (Filter.Eventually.of_forall fun t => hasDerivAt_pe _ _ _ _ t)
    (hasDerivAt_pe _ _ _ _ 0) hK0 ?_ ?_ ?_ ?_
  · filter_upwards [lt_mem_nhds hV0] with V hV
    exact ns_log q hV0 hV
  all_goals
    simp [pe]
    try ring

/-- Four powers of `y = exp (t/3)` times `exp (h (1 - y))`. -/
noncomputable def vx (h : ℝ) (c : Fin 4 → ℝ) (t : ℝ) : ℝ :=
  ex c ![-2 / 3, -1 / 3, 0, 1 / 3] t * Real.exp (h * (1 - Real.exp (1 / 3 * t)))

theorem hasDerivAt_vx (h : ℝ) (c : Fin 4 → ℝ) (t : ℝ) :
    HasDerivAt (vx h c) ((ex (fun i => c i * (![-2 / 3, -1 / 3, 0, 1 / 3] : Fin 4 → ℝ) i)
        ![-2 / 3, -1 / 3, 0, 1 / 3] t -
      h / 3 * Real.exp (1 / 3 * t) * ex c ![-2 / 3, -1 / 3, 0, 1 / 3] t) *
        Real.exp (h * (1 - Real.exp (1 / 3 * t)))) t := by
  have h1 : HasDerivAt (fun t => Real.exp (h * (1 - Real.exp (1 / 3 * t))))
      (Real.exp (h * (1 - Real.exp (1 / 3 * t))) * (h * -(1 / 3 * Real.exp (1 / 3 * t)))) t :=
    (((hasDerivAt_exp_mul (1 / 3) t).const_sub 1).const_mul h).exp
  refine HasDerivAt.congr_deriv (f := vx h c) ((hasDerivAt_ex c _ t).mul h1) ?_
  ring

/-- Multiplying by `y` shifts the coefficients. -/
theorem ex_shift (a b c t : ℝ) :
    Real.exp (1 / 3 * t) * ex ![a, b, c, 0] ![-2 / 3, -1 / 3, 0, 1 / 3] t =
      ex ![0, a, b, c] ![-2 / 3, -1 / 3, 0, 1 / 3] t := by
  have e : ∀ m : ℝ, Real.exp (1 / 3 * t) * Real.exp (m * t) = Real.exp ((m + 1 / 3) * t) := by
    intro m; rw [← Real.exp_add]; congr 1; ring
  simp only [ex, Fin.sum_univ_four, Matrix.cons_val_zero, Matrix.cons_val_one, Matrix.cons_val,
    mul_add, zero_mul, add_zero, zero_add]
  have h1 := e (-2 / 3)
  have h2 := e (-1 / 3)
  have h3 := e 0
  norm_num at h1 h2 h3 ⊢
  rw [mul_left_comm, h1, mul_left_comm, h2]
  ring

theorem hasDerivAt_vx' (h a b c t : ℝ) :
    HasDerivAt (vx h ![a, b, c, 0])
      (vx h ![-2 / 3 * a, -1 / 3 * b - h / 3 * a, -(h / 3 * b), -(h / 3 * c)] t) t := by
  refine (hasDerivAt_vx h _ t).congr_deriv ?_
  rw [mul_assoc, ex_shift]
  simp only [vx]
  congr 1
  simp only [ex, Fin.sum_univ_four, Matrix.cons_val_zero, Matrix.cons_val_one, Matrix.cons_val]
  ring

theorem vinet_log (q : Pars) (hV0 : 0 < q.V0) {V : ℝ} (hV : 0 < V) :
    formula .vinet q V = vx (1.5 * (q.Kp - 1)) ![3 * q.K0, -(3 * q.K0), 0, 0]
      (Real.log (V / q.V0)) := by
  simp only [formula, (rpow_ratio hV0 hV _).1]
  set t := Real.log (V / q.V0)
  simp only [vx, ex, Fin.sum_univ_four, Matrix.cons_val_zero, Matrix.cons_val_one, Matrix.cons_val]
  have e1 : Real.exp (-2 / 3 * t) = 1 / Real.exp (1 / 3 * t) ^ 2 := by
    rw [← Real.exp_nat_mul, one_div, ← Real.exp_neg]; congr 1; push_cast; ring
  have e2 : Real.exp (-1 / 3 * t) = 1 / Real.exp (1 / 3 * t) := by
    rw [one_div, ← Real.exp_neg]; congr 1; ring
  rw [e1, e2]
  have := (Real.exp_pos (1 / 3 * t)).ne'
  have e3 : 1 - (1 - Real.exp (1 / 3 * t)) = Real.exp (1 / 3 * t) := by ring
  rw [e3]
  field_simp
  ring

/-- The true second derivative of Vinet's curve. -/
theorem curve_vinet (q : Pars) (hV0 : 0 < q.V0) (hK0 : q.K0 ≠ 0) :
    Meaning (formula .vinet q) q.K0 q.Kp
      (-1 / q.K0 * ((q.Kp / 2) ^ 2 + q.Kp / 2 - 19 / 36)) q.V0 := by
  refine meaning_of_log (G := vx (1.5 * (q.Kp - 1)) ![3 * q.K0, -(3 * q.K0), 0, 0]) hV0 ?_
    (Filter.Eventually.of_forall fun t => hasDerivAt_vx' _ _ _ _ t)
    (G2 := vx (1.5 * (q.Kp - 1)) ![-2 / 3 * (-2 / 3 * (3 * q.K0)),
      -1 / 3 * (-1 / 3 * (-(3 * q.K0)) - 1.5 * (q.Kp - 1) / 3 * (3 * q.K0)) -
        1.5 * (q.Kp - 1) / 3 * (-2 / 3 * (3 * q.K0)),
      -(1.5 * (q.Kp - 1) / 3 * (-1 / 3 * (-(3 * q.K0)) - 1.5 * (q.Kp - 1) / 3 * (3 * q.K0))),
      -(1.5 * (q.Kp - 1) / 3 * (-(1.5 * (q.Kp - 1) / 3 * (-(3 * q.K0)))))])
    (Filter.Eventually.of_forall fun t => ?_)
    (hasDerivAt_vx _ _ 0) hK0 ?_ ?_ ?_ ?_
  · filter_upwards [lt_mem_nhds hV0] with V hV
    exact vinet_log q hV0 hV
  · have e : (-(1.5 * (q.Kp - 1) / 3 * 0) : ℝ) = 0 := by ring
    rw [e]
    exact hasDerivAt_vx' _ _ _ _ t
  all_goals
    simp [vx, ex_zero]
    try field_simp
    try ring

theorem curve_tait (q : Pars) (hV0 : 0 < q.V0) (hK0 : q.K0 ≠ 0) (h1 : 1 + q.Kp ≠ 0)
    (hD : 1 + q.Kp + q.K0 * q.Kpp ≠ 0) (hE : q.Kp ^ 2 + q.Kp - q.K0 * q.Kpp ≠ 0) :
    Meaning (formula .tait q) q.K0 q.Kp q.Kpp q.V0 := by
  set a := (1 + q.Kp) / (1 + q.Kp + q.K0 * q.Kpp) with ha
  set b := q.Kp / q.K0 - q.Kpp / (1 + q.Kp) with hb
  set n := -1 / ((1 + q.Kp + q.K0 * q.Kpp) / (q.Kp ^ 2 + q.Kp - q.K0 * q.Kpp)) with hn
  have ha0 : a ≠ 0 := div_ne_zero h1 hD
  have hb' : b = (q.Kp ^ 2 + q.Kp - q.K0 * q.Kpp) / (q.K0 * (1 + q.Kp)) := by
    rw [hb]; field_simp; ring
  have hn' : n = -(q.Kp ^ 2 + q.Kp - q.K0 * q.Kpp) / (1 + q.Kp + q.K0 * q.Kpp) := by
    rw [hn]; field_simp
  have hb0 : b ≠ 0 := by rw [hb']; exact div_ne_zero hE (mul_ne_zero hK0 h1)
  have hpos : ∀ᶠ t in 𝓝 (0:ℝ), 0 < (Real.exp t + a - 1) / a := by
    have hc : ContinuousAt (fun t => (Real.exp t + a - 1) / a) 0 := by fun_prop
    refine hc.eventually (lt_mem_nhds ?_)
    simp [ha0]
  have hd : ∀ t, HasDerivAt (fun t => (Real.exp t + a - 1) / a) (Real.exp t / a) t := fun t =>
    (((Real.hasDerivAt_exp t).add_const a).sub_const 1).div_const a
  have hr : ∀ m t, 0 < (Real.exp t + a - 1) / a →
      HasDerivAt (fun t => ((Real.exp t + a - 1) / a) ^ m)
        (Real.exp t / a * m * ((Real.exp t + a - 1) / a) ^ (m - 1)) t := fun m t ht =>
    (hd t).rpow_const (Or.inl ht.ne')
  have h0 : (0:ℝ) < (Real.exp 0 + a - 1) / a := hpos.self_of_nhds
  have hone : (1 + a - 1) / a = 1 := by simp [ha0]
  have hE' : q.Kp * (q.Kp + 1) - q.K0 * q.Kpp ≠ 0 := by
    intro h; exact hE (by rw [← h]; ring)
  refine meaning_of_log
    (G := fun t => (1 / b) * (((Real.exp t + a - 1) / a) ^ n - 1))
    (G1 := fun t => (1 / b) * (Real.exp t / a * n * ((Real.exp t + a - 1) / a) ^ (n - 1)))
    (G2 := fun t => (1 / b) * (Real.exp t / a * n * ((Real.exp t + a - 1) / a) ^ (n - 1) +
      Real.exp t / a * n * (Real.exp t / a * (n - 1) * ((Real.exp t + a - 1) / a) ^ (n - 1 - 1))))
    (g3 := (1 / b) * (1 / a * n + 1 / a * n * (1 / a * (n - 1)) +
      (1 / a * n * (1 / a * (n - 1)) + 1 / a * n * (1 / a * (n - 1) +
        1 / a * (n - 1) * (1 / a * (n - 1 - 1))))))
    hV0 ?_ ?_ ?_ ?_ hK0 ?_ ?_ ?_ ?_
  · filter_upwards [lt_mem_nhds hV0] with V hV
    have := (ratio_exp hV0 hV).1
    simp only [formula, ← ha, ← hb, ← hn]
    rw [← this]
  · filter_upwards [hpos] with t ht
    exact ((hr n t ht).sub_const 1).const_mul (1 / b)
  · filter_upwards [hpos] with t ht
    have he : HasDerivAt (fun t => Real.exp t / a * n) (Real.exp t / a * n) t :=
      ((Real.hasDerivAt_exp t).div_const a).mul_const n
    exact (he.mul (hr (n - 1) t ht)).const_mul (1 / b)
  · have he : ∀ c : ℝ, HasDerivAt (fun t => Real.exp t / a * c) (Real.exp 0 / a * c) 0 := fun c =>
      ((Real.hasDerivAt_exp 0).div_const a).mul_const c
    have h := (((he n).mul (hr (n - 1) 0 h0)).add ((he n).mul ((he (n - 1)).mul
      (hr (n - 1 - 1) 0 h0)))).const_mul (1 / b)
    refine HasDerivAt.congr_deriv h ?_
    simp only [Real.exp_zero, hone, Real.one_rpow, Pi.mul_apply]
    ring
  · simp [ha0]
  · simp only [Real.exp_zero, hone, Real.one_rpow]
    rw [hb', hn', ha]
    field_simp
  · simp only [Real.exp_zero, hone, Real.one_rpow]
    rw [hb', hn', ha]
    field_simp
    ring
  · rw [hb', hn', ha]
    field_simp
    ring

end Verif.EoS
