/- Proof work: monotonicity and limits of the single-oscillator functions. -/
import Mathlib.Analysis.SpecificLimits.Normed
import Verif.StatMech.Oscillator

namespace Verif.StatMech
open Verif.Units (Consts)
open Filter Topology Set

/-! ### Monotonicity -/

theorem hoF_antitoneOn (k : Consts) (ω : ℝ) : AntitoneOn (fun t => hoF k t ω) (Ioi 0) := by
  refine antitoneOn_of_deriv_nonpos (convex_Ioi 0)
    (fun t ht => (hasDerivAt_hoF k ht ω).continuousAt.continuousWithinAt)
    (fun t ht => ?_) fun t ht => ?_
  · rw [interior_Ioi] at ht
    exact (hasDerivAt_hoF k ht ω).differentiableAt.differentiableWithinAt
  · rw [interior_Ioi] at ht
    rw [(hasDerivAt_hoF k ht ω).deriv]
    have := hoS_nonneg k (le_of_lt ht) ω
    linarith

theorem hoEth_monotoneOn (k : Consts) (ω : ℝ) : MonotoneOn (fun t => hoEth k t ω) (Ioi 0) := by
  refine monotoneOn_of_deriv_nonneg (convex_Ioi 0)
    (fun t ht => (hasDerivAt_hoEth k ht ω).continuousAt.continuousWithinAt)
    (fun t ht => ?_) fun t ht => ?_
  · rw [interior_Ioi] at ht
    exact (hasDerivAt_hoEth k ht ω).differentiableAt.differentiableWithinAt
  · rw [interior_Ioi] at ht
    rw [(hasDerivAt_hoEth k ht ω).deriv]
    have := hoCv_nonneg k t ω
    linarith

theorem hoS_monotoneOn (k : Consts) (ω : ℝ) : MonotoneOn (fun t => hoS k t ω) (Ioi 0) := by
  refine monotoneOn_of_deriv_nonneg (convex_Ioi 0)
    (fun t ht => (hasDerivAt_hoS k ht ω).continuousAt.continuousWithinAt)
    (fun t ht => ?_) fun t ht => ?_
  · rw [interior_Ioi] at ht
    exact (hasDerivAt_hoS k ht ω).differentiableAt.differentiableWithinAt
  · rw [interior_Ioi] at ht
    rw [(hasDerivAt_hoS k ht ω).deriv]
    exact div_nonneg (hoCv_nonneg k t ω) (le_of_lt ht)

theorem sinh_le_mul_cosh {y : ℝ} (hy : 0 ≤ y) : Real.sinh y ≤ y * Real.cosh y := by
  have hd : ∀ t : ℝ, HasDerivAt (fun t => t * Real.cosh t - Real.sinh t) (t * Real.sinh t) t := by
    intro t
    have h : HasDerivAt (fun t => t * Real.cosh t - Real.sinh t) _ t :=
      ((hasDerivAt_id t).mul (Real.hasDerivAt_cosh t)).sub (Real.hasDerivAt_sinh t)
    refine h.congr_deriv ?_
    simp
  have hm : MonotoneOn (fun t => t * Real.cosh t - Real.sinh t) (Ici 0) := by
    refine monotoneOn_of_deriv_nonneg (convex_Ici 0)
      (fun t _ => (hd t).continuousAt.continuousWithinAt)
      (fun t _ => (hd t).differentiableAt.differentiableWithinAt) fun t ht => ?_
    rw [interior_Ici] at ht
    rw [(hd t).deriv]
    exact mul_nonneg (le_of_lt ht) (Real.sinh_nonneg_iff.2 (le_of_lt ht))
  have := hm (mem_Ici.2 le_rfl) (mem_Ici.2 hy) hy
  simp at this
  linarith

theorem sinh_div_monotoneOn : MonotoneOn (fun y => Real.sinh y / y) (Ioi 0) := by
  have hd : ∀ t : ℝ, 0 < t → HasDerivAt (fun y => Real.sinh y / y)
      ((Real.cosh t * t - Real.sinh t) / t ^ 2) t := by
    intro t ht
    have h : HasDerivAt (fun y => Real.sinh y / y) _ t :=
      (Real.hasDerivAt_sinh t).div (hasDerivAt_id t) ht.ne'
    refine h.congr_deriv ?_
    simp
  refine monotoneOn_of_deriv_nonneg (convex_Ioi 0)
    (fun t ht => (hd t ht).continuousAt.continuousWithinAt)
    (fun t ht => ?_) fun t ht => ?_
  · rw [interior_Ioi] at ht
    exact (hd t ht).differentiableAt.differentiableWithinAt
  · rw [interior_Ioi] at ht
    rw [(hd t ht).deriv]
    have := sinh_le_mul_cosh (le_of_lt ht)
    refine div_nonneg ?_ (sq_nonneg t)
    linarith

theorem hoCv_monotoneOn (k : Consts) (ω : ℝ) : MonotoneOn (fun t => hoCv k t ω) (Ioi 0) := by
  intro s hs t ht hst
  rw [mem_Ioi] at hs ht
  rcases le_or_gt ω 0 with h | h
  · simp [hoCv, h]
  · have ha := einstein_pos k h
    have hxs := div_pos ha hs
    have hxt := div_pos ha ht
    have hle : einstein k ω / t / 2 ≤ einstein k ω / s / 2 :=
      div_le_div_of_nonneg_right (div_le_div_of_nonneg_left ha.le hs hst) (by norm_num)
    simp only [hoCv_pos k hs.ne' h, hoCv_pos k ht.ne' h, einstein_fn hxs, einstein_fn hxt]
    refine mul_le_mul_of_nonneg_left ?_ (mul_pos k.N_pos k.kB_pos).le
    have ps : 0 < einstein k ω / s / 2 := by linarith
    have pt : 0 < einstein k ω / t / 2 := by linarith
    have h1 := sinh_div_monotoneOn (mem_Ioi.2 pt) (mem_Ioi.2 ps) hle
    simp only at h1
    have q1 := Real.sinh_pos_iff.2 ps
    have q2 := Real.sinh_pos_iff.2 pt
    refine pow_le_pow_left₀ (by positivity) ?_ 2
    rw [div_le_div_iff₀ q1 q2]
    rw [div_le_div_iff₀ pt ps] at h1
    linarith

/-! ### Limits -/

theorem tendsto_x {a : ℝ} (ha : 0 < a) : Tendsto (fun T => a / T) (𝓝[>] 0) atTop := by
  simp only [div_eq_mul_inv]
  exact Tendsto.const_mul_atTop ha tendsto_inv_nhdsGT_zero

theorem tendsto_exp_neg : Tendsto (fun x : ℝ => Real.exp (-x)) atTop (𝓝 0) :=
  Real.tendsto_exp_neg_atTop_nhds_zero

theorem tendsto_bose (n : ℕ) :
    Tendsto (fun x : ℝ => x ^ n / (Real.exp x - 1)) atTop (𝓝 0) := by
  have h1 := Real.tendsto_pow_mul_exp_neg_atTop_nhds_zero n
  have h2 : Tendsto (fun x : ℝ => 1 - Real.exp (-x)) atTop (𝓝 (1 - 0)) :=
    tendsto_exp_neg.const_sub 1
  have h3 := h1.div h2 (by norm_num)
  simp only [sub_zero, div_one] at h3
  refine h3.congr' ?_
  filter_upwards [eventually_gt_atTop 0] with x hx
  simp only [Pi.div_apply]
  rw [mul_div_assoc, exp_neg_div x hx]
  ring

theorem tendsto_log_term : Tendsto (fun x : ℝ => Real.log (1 - Real.exp (-x))) atTop (𝓝 0) := by
  have h2 : Tendsto (fun x : ℝ => 1 - Real.exp (-x)) atTop (𝓝 (1 - 0)) :=
    tendsto_exp_neg.const_sub 1
  have := h2.log (by norm_num)
  simpa using this

theorem eventually_pos : ∀ᶠ T : ℝ in 𝓝[>] 0, 0 < T := eventually_mem_nhdsWithin

theorem hoEth_tendsto_zero (k : Consts) (ω : ℝ) :
    Tendsto (fun T => hoEth k T ω) (𝓝[>] 0) (𝓝 0) := by
  rcases le_or_gt ω 0 with h | h
  · simp [hoEth, h]
  · have ha := einstein_pos k h
    have h1 := ((tendsto_bose 0).comp (tendsto_x ha)).const_mul
      (k.N * k.kB / 1000 * einstein k ω)
    rw [mul_zero] at h1
    refine h1.congr' ?_
    filter_upwards [eventually_pos] with T hT
    rw [hoEth_pos k hT.ne' h]
    simp only [Function.comp, pow_zero]
    ring

theorem hoS_tendsto_zero (k : Consts) (ω : ℝ) :
    Tendsto (fun T => hoS k T ω) (𝓝[>] 0) (𝓝 0) := by
  rcases le_or_gt ω 0 with h | h
  · simp [hoS, h]
  · have ha := einstein_pos k h
    have h1 := (((tendsto_bose 1).comp (tendsto_x ha)).sub
      (tendsto_log_term.comp (tendsto_x ha))).const_mul (k.N * k.kB)
    simp only [sub_zero, mul_zero] at h1
    refine h1.congr' ?_
    filter_upwards [eventually_pos] with T hT
    rw [hoS_pos k hT.ne' h]
    simp only [Function.comp, pow_one]

theorem hoF_tendsto_zpe (k : Consts) (ω : ℝ) :
    Tendsto (fun T => hoF k T ω) (𝓝[>] 0) (𝓝 (hoZpe k 0 ω)) := by
  have h1 := (hoEth_tendsto_zero k ω).const_add (hoZpe k 0 ω)
  have h2 : Tendsto (fun T : ℝ => T) (𝓝[>] 0) (𝓝 0) := tendsto_nhdsWithin_of_tendsto_nhds tendsto_id
  have h3 := h1.sub ((h2.mul (hoS_tendsto_zero k ω)).div_const 1000)
  simp only [add_zero, mul_zero, zero_div, sub_zero] at h3
  refine h3.congr fun T => ?_
  rw [hoF_eq k T ω]
  rfl

theorem hoCv_tendsto_zero (k : Consts) (ω : ℝ) :
    Tendsto (fun T => hoCv k T ω) (𝓝[>] 0) (𝓝 0) := by
  rcases le_or_gt ω 0 with h | h
  · simp [hoCv, h]
  · have ha := einstein_pos k h
    -- exp x (x/(exp x - 1))^2 = (x^2/(exp x - 1)) * (1 + 1/(exp x - 1))
    have h0 := (tendsto_bose 2).mul ((tendsto_bose 0).const_add 1)
    have h1 := (h0.comp (tendsto_x ha)).const_mul (k.N * k.kB)
    simp only [zero_mul, mul_zero] at h1
    refine h1.congr' ?_
    filter_upwards [eventually_pos] with T hT
    rw [hoCv_pos k hT.ne' h]
    have := (exp_sub_one_pos (div_pos ha hT)).ne'
    simp only [Function.comp, pow_zero]
    field_simp
    ring

theorem tendsto_div_sinh : Tendsto (fun y : ℝ => y / Real.sinh y) (𝓝[>] 0) (𝓝 1) := by
  have h := (Real.hasDerivAt_sinh 0)
  rw [Real.cosh_zero, hasDerivAt_iff_tendsto_slope] at h
  have h1 : Tendsto (fun y : ℝ => Real.sinh y / y) (𝓝[>] 0) (𝓝 1) := by
    refine (h.mono_left (nhdsWithin_mono _ fun x hx => ne_of_gt hx)).congr fun y => ?_
    simp [slope_def_field]
  have h2 := h1.inv₀ one_ne_zero
  simp only [inv_one] at h2
  refine h2.congr fun y => ?_
  rw [inv_div]

/-- Classical limit of one mode. -/
theorem hoCv_tendsto_classical (k : Consts) {ω : ℝ} (h : 0 < ω) :
    Tendsto (fun T => hoCv k T ω) atTop (𝓝 (k.N * k.kB)) := by
  have ha := einstein_pos k h
  have hx : Tendsto (fun T => einstein k ω / T / 2) atTop (𝓝[>] 0) := by
    refine tendsto_nhdsWithin_iff.2 ⟨?_, ?_⟩
    · have := (tendsto_const_nhds (x := einstein k ω)).div_atTop tendsto_id
      simpa using this.div_const 2
    · filter_upwards [eventually_gt_atTop 0] with T hT
      exact mem_Ioi.2 (by positivity)
  have h1 := ((tendsto_div_sinh.comp hx).pow 2).const_mul (k.N * k.kB)
  simp only [one_pow, mul_one] at h1
  refine h1.congr' ?_
  filter_upwards [eventually_gt_atTop 0] with T hT
  rw [hoCv_pos k hT.ne' h, einstein_fn (div_pos ha hT)]
  rfl

end Verif.StatMech
