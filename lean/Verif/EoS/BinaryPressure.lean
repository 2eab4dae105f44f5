/-
Rounding errors of the pressures (C162).
-/
import Verif.EoS.BinaryLemmas
import Mathlib.Analysis.Complex.ExponentialBounds
import Mathlib.Analysis.Convex.SpecificFunctions.Basic

noncomputable section

namespace Verif.EoS.Rounded
open Verif.EoS Verif.EoS.Rounded.Spec
open Verif.Elastic.Rounded (Bnd u_pos u_le)
open Verif.Elastic.Rounded.Spec (u)

variable {m : Machine} {p : Pars} {V : ℝ}

/-! ### The ratio of the volumes -/

theorem log_bound {r : ℝ} (h1 : 2 / 3 ≤ r) (h2 : r ≤ 3 / 2) : |Real.log r| ≤ 0.41 := by
  have h0 : 0 < r := by linarith
  have h3 : Real.log (3 / 2) ≤ 0.41 := by
    rw [Real.log_le_iff_le_exp (by norm_num)]
    have := Real.sum_le_exp_of_nonneg (x := 0.41) (by norm_num) 5
    refine le_trans ?_ this
    norm_num [Finset.sum_range_succ, Nat.factorial]
  rw [abs_le]
  refine ⟨?_, (Real.log_le_log h0 h2).trans h3⟩
  have := Real.log_le_log (by norm_num) h1
  rw [show (2 : ℝ) / 3 = (3 / 2)⁻¹ by norm_num, Real.log_inv] at this
  linarith

theorem ratio_range (h : Solid p V) : 2 / 3 ≤ p.V0 / V ∧ p.V0 / V ≤ 3 / 2 := by
  have := h.posV
  have := h.compressed
  have := h.expanded
  constructor
  · rw [le_div_iff₀ h.posV]; linarith
  · rw [div_le_iff₀ h.posV]; linarith

theorem inverse_range (h : Solid p V) : 2 / 3 ≤ V / p.V0 ∧ V / p.V0 ≤ 3 / 2 := by
  have := h.compressed
  have := h.expanded
  constructor
  · rw [le_div_iff₀ h.posV0]; linarith
  · rw [div_le_iff₀ h.posV0]; linarith

theorem rpow_le {r y c : ℝ} (h0 : 0 < r) (h2 : r ≤ 3 / 2) (hy : 0 ≤ y) (n k : ℕ) (hk : k ≠ 0) (hyn : y ≤ n / k) (hc : 0 ≤ c)
    (h : ((3 : ℝ) / 2) ^ n ≤ c ^ k) : r ^ y ≤ c := by
  have hk0 : (k : ℝ) ≠ 0 := by exact_mod_cast hk
  calc r ^ y ≤ (3 / 2 : ℝ) ^ y := Real.rpow_le_rpow h0.le h2 hy
    _ ≤ (3 / 2 : ℝ) ^ ((n : ℝ) / k) := Real.rpow_le_rpow_of_exponent_le (by norm_num) hyn
    _ ≤ c := by
      rw [← pow_le_pow_iff_left₀ (by positivity) hc hk, ← Real.rpow_natCast _ k, ← Real.rpow_mul (by norm_num),
        div_mul_cancel₀ _ hk0, Real.rpow_natCast]
      exact h

theorem rpow_ge {r y c : ℝ} (h0 : 2 / 3 ≤ r) (hy : 0 ≤ y) (n k : ℕ) (hk : k ≠ 0) (hyn : y ≤ n / k) (hc : 0 < c)
    (h : ((3 : ℝ) / 2) ^ n ≤ c ^ k) : 1 / c ≤ r ^ y := by
  have hr : 0 < r := by linarith
  have := rpow_le (r := r⁻¹) (by positivity) (by rw [inv_le_comm₀ hr (by norm_num)]; norm_num; exact h0) hy n k hk hyn hc.le h
  rw [Real.inv_rpow hr.le] at this
  rw [one_div]
  exact inv_le_of_inv_le₀ (Real.rpow_pos_of_pos hr y) this

theorem small {n b x X K N t : ℝ} (h : Bnd n b x X) (hK : 0 < K) (hb : n * b ≤ N * K) (ht : N * 1.2e-16 ≤ t) (hN : 0 ≤ N) :
    |x - X| ≤ t * K := by
  have h1 : n * u * b ≤ N * K * u := by nlinarith [u_pos]
  have h2 : N * K * u ≤ N * K * 1.2e-16 := mul_le_mul_of_nonneg_left u_le (by positivity)
  nlinarith [h.err]

/-! ### The strains -/

theorem fE_bnd (hm : Accurate m) (h : Solid p V) :
    Bnd 16 0.16 (fE m p V) (0.5 * ((p.V0 / V) ^ ((2 : ℝ) / 3) - 1)) ∧
      1 / 1.311 ≤ (p.V0 / V) ^ ((2 : ℝ) / 3) ∧ (p.V0 / V) ^ ((2 : ℝ) / 3) ≤ 1.311 := by
  obtain ⟨r1, r2⟩ := ratio_range h
  have r0 : 0 < p.V0 / V := div_pos h.posV0 h.posV
  have c1 := rpow_le r0 r2 (y := 2 / 3) (by norm_num) 2 3 (by norm_num) (by norm_num) (c := 1.311) (by norm_num) (by norm_num)
  have c2 := rpow_ge r1 (y := 2 / 3) (by norm_num) 2 3 (by norm_num) (by norm_num) (c := 1.311) (by norm_num) (by norm_num)
  refine ⟨?_, c2, c1⟩
  have ht : |m.rnd (2 / 3) - 2 / 3| ≤ 1 * u := by
    refine (hm.rnd _).trans ?_
    rw [abs_of_pos (by norm_num)]
    linarith [u_pos]
  have hp := (powB hm r0 (log_bound r1 r2) (ratioB hm h.posV0 h.posV) ht (q := 0.667) (n := 1.1)
    (by rw [abs_of_pos] <;> norm_num) (by norm_num) (by norm_num) (by norm_num) (by norm_num) (by norm_num)).mono
    (n' := 3.2) (by norm_num) c1
  have hd := rndB hm (subShift hp 1 (b' := 0.312) (n' := 13.5) (by
      rw [abs_le]; norm_num at c1 c2 ⊢; constructor <;> linarith) (by norm_num) (by norm_num)) (by norm_num)
  exact (rndB hm (hd.scale (c := 0.5) (by norm_num)) (by norm_num)).mono (by norm_num) (by norm_num)

theorem fN_bnd (hm : Accurate m) (h : Solid p V) : Bnd 6.5 0.137 (fN m p V) (1 / 3 * Real.log (p.V0 / V)) := by
  obtain ⟨r1, r2⟩ := ratio_range h
  have r0 : 0 < p.V0 / V := div_pos h.posV0 h.posV
  have hl := logB hm r0 (log_bound r1 r2) (ratioB hm h.posV0 h.posV) (by norm_num) (by norm_num) (by norm_num)
  have ht := rndC hm (1 / 3) (b := 1 / 3) (by rw [abs_of_pos] <;> norm_num)
  exact (rndB hm (mulB ht hl (by norm_num) (by norm_num)) (by norm_num)).mono (by norm_num) (by norm_num)

theorem cbrt_bnd (hm : Accurate m) {r x y : ℝ} (r1 : 2 / 3 ≤ r) (r2 : r ≤ 3 / 2) (hx : 0 < x) (hy : 0 < y) (e : x / y = r) :
    Bnd 2.8 1.145 (m.pow (m.rnd (x / y)) (m.rnd (1 / 3))) ((x / y) ^ ((1 : ℝ) / 3)) ∧
      1 / 1.145 ≤ (x / y) ^ ((1 : ℝ) / 3) ∧ (x / y) ^ ((1 : ℝ) / 3) ≤ 1.145 := by
  subst e
  have r0 : 0 < x / y := div_pos hx hy
  have c1 := rpow_le r0 r2 (y := 1 / 3) (by norm_num) 1 3 (by norm_num) (by norm_num) (c := 1.145) (by norm_num) (by norm_num)
  have c2 := rpow_ge r1 (y := 1 / 3) (by norm_num) 1 3 (by norm_num) (by norm_num) (c := 1.145) (by norm_num) (by norm_num)
  refine ⟨?_, c2, c1⟩
  have ht : |m.rnd (1 / 3) - 1 / 3| ≤ 1 * u := by
    refine (hm.rnd _).trans ?_
    rw [abs_of_pos (by norm_num)]
    linarith [u_pos]
  exact (powB hm r0 (log_bound r1 r2) (ratioB hm hx hy) ht (q := 0.334) (n := 0.75)
    (by rw [abs_of_pos] <;> norm_num) (by norm_num) (by norm_num) (by norm_num) (by norm_num) (by norm_num)).mono
    (by norm_num) c1

theorem fV_bnd (hm : Accurate m) (h : Solid p V) :
    Bnd 23.1 0.146 (fV m p V) (1 - (V / p.V0) ^ ((1 : ℝ) / 3)) ∧
      1 / 1.145 ≤ (V / p.V0) ^ ((1 : ℝ) / 3) ∧ (V / p.V0) ^ ((1 : ℝ) / 3) ≤ 1.145 := by
  obtain ⟨r1, r2⟩ := inverse_range h
  obtain ⟨hp, c2, c1⟩ := cbrt_bnd hm r1 r2 h.posV h.posV0 rfl
  refine ⟨?_, c2, c1⟩
  exact (rndB hm (shiftSub hp 1 (b' := 0.146) (n' := 22) (by
      rw [abs_le]; norm_num at c1 c2 ⊢; constructor <;> linarith) (by norm_num) (by norm_num)) (by norm_num)).mono
    (by norm_num) le_rfl

/-! ### The pressures -/

theorem murnaghan_err (hm : Accurate m) (h : Solid p V) :
    |formula m .murnaghan p V - EoS.formula .murnaghan p V| ≤ 1e-12 * p.K0 := by
  obtain ⟨r1, r2⟩ := ratio_range h
  obtain ⟨k1, k2⟩ := h.Kp
  have hK := h.posK
  have k0 : 0 < p.Kp := by linarith
  have r0 : 0 < p.V0 / V := div_pos h.posV0 h.posV
  have c1 := rpow_le r0 r2 (y := p.Kp) (by linarith) 12 1 (by norm_num) (by push_cast; linarith) (c := 130) (by norm_num) (by norm_num)
  have hp := (powE hm r0 (log_bound r1 r2) (ratioB hm h.posV0 h.posV) (Y := p.Kp) (q := 12) (n := 12.1)
    (by rw [abs_of_pos k0]; exact k2) (by norm_num) (by norm_num) (by norm_num) (by norm_num)).mono
    (n' := 14.2) (by norm_num) c1
  have hpos := Real.rpow_pos_of_pos r0 p.Kp
  have hd := rndB hm (subShift hp 1 (b' := 130) (n' := 14.2) (by
    rw [abs_le]; constructor <;> linarith) (by norm_num) (by norm_num)) (by norm_num)
  have hk := rndC hm (p.K0 / p.Kp) (b := p.K0) (by
    rw [abs_of_pos (by positivity)]; exact div_le_self hK.le k1)
  have := rndB hm (mulB hk hd (by norm_num) (by norm_num)) (by norm_num)
  exact small this hK (N := 3000) (by linarith) (by norm_num) (by norm_num)

theorem birch_err (hm : Accurate m) {q : Pars} (h : Solid p V) (hq : q.K0 = p.K0 ∧ q.Kp = p.Kp ∧ q.V0 = p.V0)
    (hk : Bnd 8 (120 / p.K0) q.Kpp p.Kpp) :
    |formula m .birchMurnaghan q V - EoS.formula .birchMurnaghan p V| ≤ 1e-12 * p.K0 := by
  obtain ⟨K, κ, k'', V0⟩ := q
  obtain ⟨rfl, rfl, rfl⟩ := hq
  simp only at hk
  have hK := h.posK
  obtain ⟨k1, k2⟩ := h.Kp
  obtain ⟨hf, c2, c1⟩ := fE_bnd hm h
  simp only [formula, EoS.formula]
  have efE : fE m ⟨p.K0, p.Kp, k'', p.V0⟩ V = fE m p V := rfl
  rw [efE]
  set F := 0.5 * ((p.V0 / V) ^ ((2 : ℝ) / 3) - 1) with hF
  set f := fE m p V
  have eF : 1 + 2 * F = (p.V0 / V) ^ ((2 : ℝ) / 3) := by rw [hF]; ring
  norm_num at c2
  have h2 := rndB hm (shift (rndB hm (hf.scale (c := 2) (by norm_num)) (by norm_num)) 1 (b' := 1.311) (n' := 4.2)
    (by rw [eF, abs_le]; constructor <;> linarith) (by norm_num) (by norm_num)) (by norm_num)
  have X0 : 0 < 1 + 2 * F := by rw [eF]; linarith
  have h3 := relB (a := 9) h2 X0 (by rw [eF]; linarith)
  have hp := (powE hm X0 (log_bound (by rw [eF]; linarith) (by rw [eF]; linarith)) h3 (Y := 2.5) (q := 2.5) (n := 22.6)
    (by rw [abs_of_pos] <;> norm_num) (by norm_num) (by norm_num) (by norm_num) (by norm_num)).mono (n' := 25) (by norm_num)
    (show (1 + 2 * F) ^ (2.5 : ℝ) ≤ 2.76 from rpow_le X0 (by rw [eF]; linarith) (by norm_num) 5 2 (by norm_num) (by norm_num)
      (by norm_num) (by norm_num))
  have t1 := rndB hm (mulB (rndC hm (3 * p.K0) (b := 3 * p.K0) (by rw [abs_of_pos (by positivity)])) hf (by norm_num)
    (by norm_num)) (by norm_num)
  have t2 := rndB hm (mulB t1 hp (by norm_num) (by norm_num)) (by norm_num)
  have a4 := rndC hm (p.Kp - 4) (b := 8) (by rw [abs_le]; constructor <;> linarith)
  have a3 := rndC hm (p.Kp - 3) (b := 9) (by rw [abs_le]; constructor <;> linarith)
  have l1 := rndB hm (mulB (rndB hm (a4.scale (c := 1.5) (by norm_num)) (by norm_num)) hf (by norm_num) (by norm_num))
    (by norm_num)
  have l2 := rndB hm (shift l1 1 (b' := 2.92) (n' := 13) ((abs_add_le _ _).trans (by
    have := l1.le
    rw [abs_one]
    norm_num at this ⊢
    linarith)) (by norm_num) (by norm_num)) (by norm_num)
  have s1 := (rndB hm (hk.scale (c := p.K0) hK.le) (by norm_num)).mono (n' := 9.001) (b' := 120) (by norm_num)
    (by rw [mul_div_cancel₀ _ hK.ne'])
  have s2 := (rndB hm (mulB a4 a3 (by norm_num) (by norm_num)) (by norm_num)).mono (n' := 9.001) (by norm_num) le_rfl
  have s3 := rndB hm (s1.add s2) (by norm_num)
  have s4 := (rndC hm (35 / 9) (b := 3.9) (by rw [abs_of_pos] <;> norm_num)).mono (n' := 9.001 + 1.001) (by norm_num) le_rfl
  have s5 := rndB hm ((rndB hm (s3.add s4) (by norm_num)).scale (c := 1.5) (by norm_num)) (by norm_num)
  have s6 := rndB hm (mulB s5 (sqB hm hf (by norm_num)) (by norm_num) (by norm_num)) (by norm_num)
  have i1 := rndB hm ((l2.mono (n' := 50) (by norm_num) le_rfl).add (s6.mono (n' := 50) (by norm_num) le_rfl)) (by norm_num)
  have := rndB hm (mulB t2 i1 (by norm_num) (by norm_num)) (by norm_num)
  exact small this hK (N := 3000) (by norm_num; linarith) (by norm_num) (by norm_num)

theorem natural_err (hm : Accurate m) {q : Pars} (h : Solid p V) (hq : q.K0 = p.K0 ∧ q.Kp = p.Kp ∧ q.V0 = p.V0)
    (hk : Bnd 8 (120 / p.K0) q.Kpp p.Kpp) :
    |formula m .naturalStrain q V - EoS.formula .naturalStrain p V| ≤ 1e-12 * p.K0 := by
  obtain ⟨K, κ, k'', V0⟩ := q
  obtain ⟨rfl, rfl, rfl⟩ := hq
  simp only at hk
  have hK := h.posK
  obtain ⟨k1, k2⟩ := h.Kp
  obtain ⟨r1, r2⟩ := ratio_range h
  have hf := fN_bnd hm h
  simp only [formula, EoS.formula]
  have efN : fN m ⟨p.K0, p.Kp, k'', p.V0⟩ V = fN m p V := rfl
  rw [efN]
  set F := 1 / 3 * Real.log (p.V0 / V)
  set f := fN m p V
  have a2 := rndC hm (p.Kp - 2) (b := 10) (by rw [abs_le]; constructor <;> linarith)
  have l1 := rndB hm (mulB (rndB hm (a2.scale (c := 1.5) (by norm_num)) (by norm_num)) hf (by norm_num) (by norm_num))
    (by norm_num)
  have l2 := rndB hm (shift l1 1 (b' := 3.055) (n' := 6.5) ((abs_add_le _ _).trans (by
    have := l1.le
    rw [abs_one]
    norm_num at this ⊢
    linarith)) (by norm_num) (by norm_num)) (by norm_num)
  have s1 : Bnd 9.001 120 (m.rnd (k'' * p.K0)) (p.Kpp * p.K0) := by
    rw [mul_comm k'', mul_comm p.Kpp]
    exact (rndB hm (hk.scale (c := p.K0) hK.le) (by norm_num)).mono (by norm_num) (by rw [mul_div_cancel₀ _ hK.ne'])
  have s2 := rndB hm (shift s1 1 (b' := 121) (n' := 9) ((abs_add_le _ _).trans (by
    have := s1.le
    rw [abs_one]
    linarith)) (by norm_num) (by norm_num)) (by norm_num)
  have s3 := rndB hm (s2.add (a2.mono (n' := 9 + 1.001) (by norm_num) le_rfl)) (by norm_num)
  have s4 := rndB hm (s3.add ((sqB hm a2 (by norm_num)).mono (n' := 9 + 1.001 + 1.001) (by norm_num) le_rfl)) (by norm_num)
  have s5 := rndB hm (s4.scale (c := 1.5) (by norm_num)) (by norm_num)
  have s6 := rndB hm (mulB s5 (sqB hm hf (by norm_num)) (by norm_num) (by norm_num)) (by norm_num)
  have i1 := rndB hm ((l2.mono (n' := 50) (by norm_num) le_rfl).add (s6.mono (n' := 50) (by norm_num) le_rfl)) (by norm_num)
  have t0 := rndC hm (p.V0 / V) (b := 1.5) (by rw [abs_le]; constructor <;> linarith)
  have t1 := rndB hm (mulB (rndC hm (3 * p.K0) (b := 3 * p.K0) (by rw [abs_of_pos (by positivity)])) t0 (by norm_num)
    (by norm_num)) (by norm_num)
  have t2 := rndB hm (mulB t1 hf (by norm_num) (by norm_num)) (by norm_num)
  have := rndB hm (mulB t2 i1 (by norm_num) (by norm_num)) (by norm_num)
  exact small this hK (N := 2000) (by norm_num; linarith) (by norm_num) (by norm_num)

theorem vinet_err (hm : Accurate m) {q : Pars} (h : Solid p V) (hq : q.K0 = p.K0 ∧ q.Kp = p.Kp ∧ q.V0 = p.V0) :
    |formula m .vinet q V - EoS.formula .vinet p V| ≤ 1e-12 * p.K0 := by
  obtain ⟨K, κ, k'', V0⟩ := q
  obtain ⟨rfl, rfl, rfl⟩ := hq
  have hK := h.posK
  obtain ⟨k1, k2⟩ := h.Kp
  obtain ⟨hf, c2, c1⟩ := fV_bnd hm h
  simp only [formula, EoS.formula]
  have efV : fV m ⟨p.K0, p.Kp, k'', p.V0⟩ V = fV m p V := rfl
  rw [efV]
  set F := 1 - (V / p.V0) ^ ((1 : ℝ) / 3) with hF
  set f := fV m p V
  have eF : 1 - F = (V / p.V0) ^ ((1 : ℝ) / 3) := by rw [hF]; ring
  norm_num at c2
  have c3 : 0.7627 ≤ (1 - F) ^ 2 := by rw [eF]; nlinarith
  have Y0 : 0 < (1 - F) ^ 2 := by linarith
  have h1 := rndB hm (shiftSub hf 1 (b' := 1.145) (n' := 3) (by rw [eF, abs_le]; constructor <;> linarith) (by norm_num)
    (by norm_num)) (by norm_num)
  have h2 := relB (a := 18) (sqB hm h1 (by norm_num)) Y0 (by norm_num; linarith)
  have h3 := (rndB hm (divB hf Y0 h2 (by norm_num) (by norm_num) (by norm_num)) (by norm_num)).mono (n' := 43) (b' := 0.192)
    (by norm_num) (by rw [div_le_iff₀ Y0]; linarith)
  have h4 := rndB hm (mulB (rndC hm (3 * p.K0) (b := 3 * p.K0) (by rw [abs_of_pos (by positivity)])) h3 (by norm_num)
    (by norm_num)) (by norm_num)
  have a1 := rndC hm (p.Kp - 1) (b := 11) (by rw [abs_le]; constructor <;> linarith)
  have e1 := rndB hm (mulB (rndB hm (a1.scale (c := 1.5) (by norm_num)) (by norm_num)) hf (by norm_num) (by norm_num))
    (by norm_num)
  have e2 := expB hm (n := 64) (e1.err.trans (by
    rw [mul_right_comm]
    exact mul_le_mul_of_nonneg_right (by norm_num) u_pos.le)) (by norm_num)
  have e3 : Real.exp (1.5 * (p.Kp - 1) * F) ≤ 21 := by
    have h3 : 1.5 * (p.Kp - 1) * F ≤ 3 := by
      have := (le_abs_self _).trans e1.le
      norm_num at this ⊢
      linarith
    refine (Real.exp_le_exp.2 h3).trans ?_
    rw [show (3 : ℝ) = 1 + 1 + 1 by norm_num, Real.exp_add, Real.exp_add]
    have h4 := Real.exp_one_lt_d9
    have h5 := Real.exp_pos 1
    calc Real.exp 1 * Real.exp 1 * Real.exp 1 ≤ 2.72 * 2.72 * 2.72 := by gcongr <;> linarith
      _ ≤ 21 := by norm_num
  have := rndB hm (mulB h4 (e2.mono le_rfl e3) (by norm_num) (by norm_num)) (by norm_num)
  exact small this hK (N := 2000) (by norm_num; linarith) (by norm_num) (by norm_num)

theorem tait_prefactor (hm : Accurate m) {K κ k P : ℝ} (hK : 0 < K) (k1 : 1 ≤ κ) (w2 : K * P ≤ 0) (hk : Bnd 1 (κ / K) k P) :
    Bnd 7.3 (K / κ) (m.rnd (1 / m.rnd (m.rnd (κ / K) - m.rnd (k / m.rnd (1 + κ))))) (1 / (κ / K - P / (1 + κ))) := by
  have κ0 : 0 < κ := by linarith
  have g1 := rndC hm (1 + κ) (b := 1 + κ) (by rw [abs_of_pos (by linarith)])
  have B1 := rndC hm (κ / K) (b := κ / K) (by rw [abs_of_pos (by positivity)])
  have B2 := rndB hm (divB hk (by linarith : 0 < 1 + κ) (relB (a := 1) g1 (by linarith) le_rfl) (by norm_num) (by norm_num)
    (by norm_num)) (by norm_num)
  have B3 := rndB hm ((B1.mono (n' := 3.1) (by norm_num) le_rfl).sub (B2.mono (n' := 3.1) (by norm_num) le_rfl)) (by norm_num)
  have kk0 : 0 < κ / K := by positivity
  have Bge : κ / K ≤ κ / K - P / (1 + κ) := by
    have h1 : P ≤ 0 := by
      by_contra hneg
      push Not at hneg
      nlinarith [mul_pos hK hneg]
    have := div_nonpos_of_nonpos_of_nonneg h1 (by linarith : 0 ≤ 1 + κ)
    linarith
  have B0 : 0 < κ / K - P / (1 + κ) := by linarith
  have B4 := relB (a := 6.2) B3 B0 (by
    have h1 : κ / K / (1 + κ) ≤ κ / K * (1 / 2) := by
      rw [div_le_iff₀ (by linarith)]
      nlinarith
    norm_num
    linarith)
  exact (rndB hm (invB B0 B4 (by norm_num) (by norm_num)).2 (by norm_num)).mono (n' := 7.3) (b' := K / κ) (by norm_num)
    (by rw [div_le_div_iff₀ B0 κ0, one_mul]
        have := mul_le_mul_of_nonneg_left Bge hK.le
        rwa [mul_div_cancel₀ _ hK.ne'] at this)

theorem tait_power {v κ S D A : ℝ} (v0 : 0 < v) (v1 : 2 / 3 ≤ v) (k1 : 1 ≤ κ) (S0 : 0 < S) (D0 : 0 < D) (Dle : D ≤ κ * (κ + 2))
    (hA : A = (1 + κ) / S) (A1 : 1 ≤ A) (k2 : κ ≤ 12) : ((v + A - 1) / A) ^ (-1 / (S / D)) ≤ 195 := by
  have A0 : 0 < A := by linarith
  have hle : v ^ (1 / A) ≤ (v + A - 1) / A := by
    have := rpow_one_add_le_one_add_mul_self (s := v - 1) (by linarith) (p := 1 / A) (by positivity)
      (by rw [div_le_one A0]; exact A1)
    rw [add_sub_cancel] at this
    refine this.trans (le_of_eq ?_)
    field_simp
    ring
  have hneg : -1 / (S / D) ≤ 0 := by
    rw [neg_div]
    exact neg_nonpos.2 (by positivity)
  refine (Real.rpow_le_rpow_of_nonpos (Real.rpow_pos_of_pos v0 _) hle hneg).trans ?_
  rw [← Real.rpow_mul v0.le, show 1 / A * (-1 / (S / D)) = -(D / (1 + κ)) by rw [hA]; field_simp, Real.rpow_neg v0.le,
    ← Real.inv_rpow v0.le]
  refine rpow_le (by positivity) ?_ (by positivity) 13 1 (by norm_num) ?_ (by norm_num) (by norm_num)
  · rw [inv_le_comm₀ v0 (by norm_num)]
    norm_num
    exact v1
  · rw [div_le_iff₀ (by linarith)]
    push_cast
    nlinarith

theorem tait_base (hm : Accurate m) {v a A : ℝ} (v0 : 0 < v) (v1 : 2 / 3 ≤ v) (v2 : v ≤ 3 / 2) (A0 : 0 < A) (A1 : 1 ≤ A)
    (ha : Bnd 78.2 A a A) : 0 < (v + A - 1) / A ∧ 2 / 3 ≤ (v + A - 1) / A ∧ (v + A - 1) / A ≤ 3 / 2 ∧
      |m.rnd (m.rnd (m.rnd (m.rnd v + a) - 1) / a) - (v + A - 1) / A| ≤ 205.6 * u * ((v + A - 1) / A) := by
  have haR : |a - A| ≤ 78.2 * u * A := relB ha A0 le_rfl
  have hv := rndC hm v (b := 1.5 * A) (by rw [abs_of_pos v0]; linarith)
  have b1 := rndB hm (addE hv ha (B := 2.5 * A) (N := 32) (by rw [abs_of_pos (by linarith)]; linarith) (by norm_num)
    (by linarith)) (by norm_num)
  have X0 : 2 / 3 * A ≤ v + A - 1 := by linarith
  have X0' : 0 < v + A - 1 := by linarith
  have b2 := rndB hm (subShift b1 1 (b' := v + A - 1) (n' := 125) (by rw [abs_of_pos X0']) (by norm_num) (by linarith))
    (by norm_num)
  have b3 := (rndB hm (divB b2 A0 haR (by norm_num) (by norm_num) (by norm_num)) (by norm_num)).mono (n' := 205.6)
    (by norm_num) le_rfl
  have Z0 : 0 < (v + A - 1) / A := by positivity
  have Z1 : 2 / 3 ≤ (v + A - 1) / A := by rw [le_div_iff₀ A0]; exact X0
  have Z2 : (v + A - 1) / A ≤ 3 / 2 := by rw [div_le_iff₀ A0]; linarith
  exact ⟨Z0, Z1, Z2, relB (a := 205.6) b3 Z0 le_rfl⟩

theorem tait_err (hm : Accurate m) {q : Pars} (h : Solid p V) (hq : q.K0 = p.K0 ∧ q.Kp = p.Kp ∧ q.V0 = p.V0)
    (hc : Curvature .tait p) (hk : Bnd 1 (p.Kp / p.K0) q.Kpp p.Kpp) :
    |formula m .tait q V - EoS.formula .tait p V| ≤ 1e-10 * p.K0 := by
  obtain ⟨K, κ, k'', V0⟩ := q
  obtain ⟨rfl, rfl, rfl⟩ := hq
  simp only at hk
  have hK := h.posK
  obtain ⟨k1, k2⟩ := h.Kp
  obtain ⟨v1, v2⟩ := inverse_range h
  obtain ⟨w1, w2⟩ : -p.Kp ≤ p.K0 * p.Kpp ∧ p.K0 * p.Kpp ≤ 0 := hc
  have v0 : 0 < V / p.V0 := by linarith
  simp only [formula, EoS.formula]
  generalize p.Kp = κ at *
  generalize hKe : p.K0 = K at *
  generalize hvd : V / p.V0 = v at *
  have κ0 : 0 < κ := by linarith
  set S := 1 + κ + K * p.Kpp with hS
  set D := κ ^ 2 + κ - K * p.Kpp with hD
  have S1 : 1 ≤ S := by linarith
  have S0 : 0 < S := by linarith
  have D0 : 0 < D := by nlinarith
  have Dle : D ≤ κ * (κ + 2) := by nlinarith
  -- the sums
  have g1 := rndC hm (1 + κ) (b := 1 + κ) (by rw [abs_of_pos (by linarith)])
  have g2 : Bnd 2.001 κ (m.rnd (K * k'')) (K * p.Kpp) :=
    (rndB hm (hk.scale (c := K) hK.le) (by norm_num)).mono (by norm_num) (by rw [mul_div_cancel₀ _ hK.ne'])
  have hs' := rndB hm ((g1.mono (n' := 2.001) (by norm_num) le_rfl).add g2) (by norm_num)
  have hs : |m.rnd (m.rnd (1 + κ) + m.rnd (K * k'')) - S| ≤ 76 * u * S := relB hs' S0 (by norm_num; linarith)
  set s := m.rnd (m.rnd (1 + κ) + m.rnd (K * k''))
  have hsB : Bnd 76 S s S := ⟨hs, by rw [abs_of_pos S0], by norm_num⟩
  -- a
  have A0 : 0 < (1 + κ) / S := by positivity
  have A1 : 1 ≤ (1 + κ) / S := by rw [le_div_iff₀ S0]; linarith
  have ha := (rndB hm (divB g1 S0 hs (by norm_num) (by norm_num) (by norm_num)) (by norm_num)).mono (n' := 78.2)
    (by norm_num) le_rfl
  set a := m.rnd (m.rnd (1 + κ) / s)
  set A := (1 + κ) / S
  obtain ⟨Z0, Z1, Z2, b4⟩ := tait_base hm v0 v1 v2 A0 A1 ha
  -- the exponent
  have d1 := rndB hm ((sqB hm (constB κ (b := κ) (n := 0) (by rw [abs_of_pos κ0]) le_rfl) (by norm_num)).add
    (constB κ (b := κ) (n := 2 * 0 + 2.002) (by rw [abs_of_pos κ0]) (by norm_num))) (by norm_num)
  have d2 := rndB hm (d1.sub (g2.mono (n' := 2 * 0 + 2.002 + 1.001) (by norm_num) le_rfl)) (by norm_num)
  have d3 := relB (a := 6.1) d2 D0 (by nlinarith)
  have C0 : 0 < S / D := by positivity
  have c1 := relB (a := 83.2) ((rndB hm (divB hsB D0 d3 (by norm_num) (by norm_num) (by norm_num)) (by norm_num)).mono
    (n' := 83.2) (by norm_num) le_rfl) C0 le_rfl
  obtain ⟨-, y1⟩ := invB C0 c1 (by norm_num) (by norm_num)
  have Yle : 1 / (S / D) ≤ κ * (κ + 2) := by
    rw [one_div_div, div_le_iff₀ S0]
    nlinarith
  have y2 := (rndB hm y1.neg (by norm_num)).mono (n' := 84.3) (by norm_num) Yle
  rw [← neg_div, ← neg_div] at y2
  have c13 := tait_power (A := A) (S := S) (D := D) v0 v1 k1 S0 D0 Dle rfl A1 k2
  have hp := (powB hm Z0 (log_bound Z1 Z2) b4 (q := κ * (κ + 2)) (n := 3375 * κ) (c := 84.3 * (κ * (κ + 2)))
    (y2.err.trans (le_of_eq (by ring))) y2.le (by norm_num) (by norm_num) (by nlinarith) (by nlinarith) (by linarith)).mono
    le_rfl c13
  have hpos := Real.rpow_pos_of_pos Z0 (-1 / (S / D))
  have hd := rndB hm (subShift hp 1 (b' := 195) (n' := 1.001 * (3375 * κ) + 2.001) (by
    rw [abs_le]; constructor <;> linarith) (by linarith) le_rfl) (by linarith)
  have B5 := tait_prefactor hm hK k1 w2 hk
  have fin := rndB hm (mulB B5 hd (by norm_num) (by linarith)) (by linarith)
  refine small fin hK (N := 830000) ?_ (by norm_num) (by norm_num)
  have e : (7.3 + (1.001 * (3375 * κ) + 2.001 + 1.001) + 0.001 + 1.001) * (K / κ * 195) =
      (1.001 * 3375 * 195) * K + 11.304 * 195 * (K / κ) := by
    field_simp
    ring
  rw [e]
  have : K / κ ≤ K := div_le_self hK.le k1
  linarith

end Verif.EoS.Rounded
