/-
Property C166: how errors of the frequencies reach the harmonic functions.
-/
import Verif.StatMech.Classical
import Verif.StatMech.Frequency
import Mathlib.Analysis.Calculus.MeanValue

namespace Verif.StatMech
open Verif.Units (Consts)
open Filter Topology

variable {nt nb nf nv : ℕ}

/-! ### Specification -/

namespace Spec

/-- `a` and `b` are positive and neither exceeds the other by more than the fraction `δ`. -/
def Within (δ a b : ℝ) : Prop := 0 < a ∧ 0 < b ∧ a ≤ (1 + δ) * b ∧ b ≤ (1 + δ) * a

end Spec
open Spec

theorem within_nonneg {δ a b : ℝ} (h : Within δ a b) : 0 ≤ δ := by
  obtain ⟨ha, hb, h1, h2⟩ := h
  rcases le_total a b with h | h <;> nlinarith

theorem within_log {δ a b : ℝ} (h : Within δ a b) : |Real.log b - Real.log a| ≤ δ := by
  have hδ := within_nonneg h
  obtain ⟨ha, hb, h1, h2⟩ := h
  have hl : Real.log (1 + δ) ≤ δ := by have := Real.log_le_sub_one_of_pos (x := 1 + δ) (by linarith); linarith
  have e1 := Real.log_le_log ha h1
  have e2 := Real.log_le_log hb h2
  rw [Real.log_mul (by linarith) hb.ne'] at e1
  rw [Real.log_mul (by linarith) ha.ne'] at e2
  rw [abs_le]
  constructor <;> linarith

/-- A function whose logarithmic slope is at most `C`. -/
theorem log_lipschitz {f f' : ℝ → ℝ} {C : ℝ} (hd : ∀ o, 0 < o → HasDerivAt f (f' o) o) (hb : ∀ o, 0 < o → |f' o * o| ≤ C)
    {a b : ℝ} (ha : 0 < a) (hb' : 0 < b) : |f b - f a| ≤ C * |Real.log b - Real.log a| := by
  have hg : ∀ t ∈ (Set.univ : Set ℝ), HasDerivWithinAt (fun t => f (Real.exp t)) (f' (Real.exp t) * Real.exp t) Set.univ t :=
    fun t _ => ((hd _ (Real.exp_pos t)).comp t (Real.hasDerivAt_exp t)).hasDerivWithinAt
  have := Convex.norm_image_sub_le_of_norm_hasDerivWithin_le hg (fun t _ => by
    rw [Real.norm_eq_abs]; exact hb _ (Real.exp_pos t)) convex_univ (Set.mem_univ (Real.log a)) (Set.mem_univ (Real.log b))
  simpa [Real.exp_log ha, Real.exp_log hb'] using this

theorem within_bound {f f' : ℝ → ℝ} {C : ℝ} (hC : 0 ≤ C) (hd : ∀ o, 0 < o → HasDerivAt f (f' o) o)
    (hb : ∀ o, 0 < o → |f' o * o| ≤ C) {δ a b : ℝ} (h : Within δ a b) : |f b - f a| ≤ δ * C := by
  refine (log_lipschitz hd hb h.1 h.2.1).trans ?_
  rw [mul_comm]
  exact mul_le_mul_of_nonneg_right (within_log h) hC

/-! ### One oscillator -/

theorem hasDerivAt_hoZpe_freq (k : Consts) {T ω : ℝ} (h : 0 < ω) : HasDerivAt (fun o => hoZpe k T o) (hoZpe k T ω / ω) ω := by
  have ev : (fun o => hoZpe k T o) =ᶠ[𝓝 ω] fun o => k.N * k.h / 2000 * o := by
    filter_upwards [lt_mem_nhds h] with o ho
    rw [hoZpe_pos k _ ho]; ring
  refine HasDerivAt.congr_of_eventuallyEq ?_ ev
  refine ((hasDerivAt_id ω).const_mul _).congr_deriv ?_
  rw [hoZpe_pos k _ h]; field_simp

/-- `dUth/dω = (Uth - T Cv)/ω`. -/
theorem hasDerivAt_hoEth_freq (k : Consts) {T ω : ℝ} (hT : 0 < T) (h : 0 < ω) :
    HasDerivAt (fun o => hoEth k T o) ((hoEth k T ω - T * hoCv k T ω / 1000) / ω) ω := by
  have e : (fun o => hoEth k T o) = fun o => hoF k T o - hoZpe k T o + T * hoS k T o / 1000 := by
    funext o; rw [hoF_eq]; ring
  rw [e]
  refine (((hasDerivAt_hoF_freq k hT.le h).sub (hasDerivAt_hoZpe_freq k h)).add
    (((hasDerivAt_hoS_freq k hT h).const_mul T).div_const 1000)).congr_deriv ?_
  field_simp
  ring

/-- `3 sinh² y ≥ 2 y⁴`. -/
theorem sq_sq_le_sinh {y : ℝ} (hy : 0 ≤ y) : 2 * y ^ 4 ≤ 3 * Real.sinh y ^ 2 := by
  have hd : ∀ x, HasDerivAt (fun x => Real.sinh x - x - x ^ 3 / 6) (Real.cosh x - 1 - x ^ 2 / 2) x := fun x => by
    have := ((Real.hasDerivAt_sinh x).sub (hasDerivAt_id x)).sub (((hasDerivAt_id x).pow 3).div_const 6)
    refine this.congr_deriv ?_
    simp; ring
  have hd2 : ∀ x, HasDerivAt (fun x => Real.cosh x - 1 - x ^ 2 / 2) (Real.sinh x - x) x := fun x => by
    have := ((Real.hasDerivAt_cosh x).sub_const 1).sub (((hasDerivAt_id x).pow 2).div_const 2)
    refine this.congr_deriv ?_
    simp
  have hm2 : MonotoneOn (fun x => Real.cosh x - 1 - x ^ 2 / 2) (Set.Ici 0) := by
    refine monotoneOn_of_deriv_nonneg (convex_Ici 0) (fun x _ => (hd2 x).continuousAt.continuousWithinAt)
      (fun x _ => (hd2 x).differentiableAt.differentiableWithinAt) fun x hx => ?_
    rw [interior_Ici] at hx
    rw [(hd2 x).deriv]
    exact sub_nonneg.2 (Real.self_le_sinh_iff.2 (le_of_lt hx))
  have hm : MonotoneOn (fun x => Real.sinh x - x - x ^ 3 / 6) (Set.Ici 0) := by
    refine monotoneOn_of_deriv_nonneg (convex_Ici 0) (fun x _ => (hd x).continuousAt.continuousWithinAt)
      (fun x _ => (hd x).differentiableAt.differentiableWithinAt) fun x hx => ?_
    rw [interior_Ici] at hx
    rw [(hd x).deriv]
    have := hm2 (Set.mem_Ici.2 le_rfl) (Set.mem_Ici.2 (le_of_lt hx)) (le_of_lt hx)
    simpa using this
  have h1 := hm (Set.mem_Ici.2 le_rfl) (Set.mem_Ici.2 hy) hy
  simp only [Real.sinh_zero] at h1
  have h2 : y + y ^ 3 / 6 ≤ Real.sinh y := by linarith
  have h3 : (y + y ^ 3 / 6) ^ 2 ≤ Real.sinh y ^ 2 := pow_le_pow_left₀ (by positivity) h2 2
  nlinarith [sq_nonneg (y - y ^ 3 / 6)]

theorem hoCv_sinh (k : Consts) {T ω : ℝ} (hT : 0 < T) (h : 0 < ω) :
    hoCv k T ω = k.N * k.kB * (quanta k T ω / 2 / Real.sinh (quanta k T ω / 2)) ^ 2 := by
  have hx := quanta_pos k hT h
  rw [hoCv_pos k hT.ne' h, ← cv_sinh hx, show quanta k T ω = einstein k ω / T from x_eq k T ω]

/-- `ω dCv/dω = -2 Cv (y coth y - 1)` with `y = hω / 2 k_B T`. -/
theorem hasDerivAt_hoCv_freq (k : Consts) {T ω : ℝ} (hT : 0 < T) (h : 0 < ω) :
    ∃ d, HasDerivAt (fun o => hoCv k T o) d ω ∧ |d * ω| ≤ k.N * k.kB := by
  have hN := k.N_pos; have hk := k.kB_pos; have hh := k.h_pos
  set c := k.h / (k.kB * T) / 2 with hc
  have hc0 : 0 < c := by positivity
  have e : ∀ o, quanta k T o / 2 = c * o := fun o => by rw [hc, quanta]; ring
  have ev : (fun o => hoCv k T o) =ᶠ[𝓝 ω] fun o => k.N * k.kB * (c * o / Real.sinh (c * o)) ^ 2 := by
    filter_upwards [lt_mem_nhds h] with o ho
    rw [hoCv_sinh k hT ho, e]
  set y := c * ω with hy
  have hy0 : 0 < y := mul_pos hc0 h
  have hs := sinh_pos' hy0
  have d1 : HasDerivAt (fun o : ℝ => c * o) c ω := by simpa using (hasDerivAt_id ω).const_mul c
  have d2 := ((d1.div d1.sinh hs.ne').pow 2).const_mul (k.N * k.kB)
  refine ⟨_, HasDerivAt.congr_of_eventuallyEq d2 ev, ?_⟩
  have hcosh1 := sinh_le_mul_cosh hy0.le
  have hcosh2 := mul_cosh_le hy0.le
  have h4 := sq_sq_le_sinh hy0.le
  have e2 : k.N * k.kB * (((2 : ℕ) : ℝ) * (c * ω / Real.sinh (c * ω)) ^ (2 - 1) *
      ((c * Real.sinh (c * ω) - c * ω * (Real.cosh (c * ω) * c)) / Real.sinh (c * ω) ^ 2)) * ω =
      -(k.N * k.kB * (2 * y ^ 2 * (y * Real.cosh y - Real.sinh y) / Real.sinh y ^ 3)) := by
    simp only [← hy]
    rw [hy]
    have : Real.sinh (c * ω) ≠ 0 := hs.ne'
    push_cast
    field_simp
    ring
  have key : |k.N * k.kB * (2 * y ^ 2 * (y * Real.cosh y - Real.sinh y) / Real.sinh y ^ 3)| ≤ k.N * k.kB := by
    have h0 : 0 ≤ 2 * y ^ 2 * (y * Real.cosh y - Real.sinh y) / Real.sinh y ^ 3 :=
      div_nonneg (mul_nonneg (by positivity) (by linarith)) (by positivity)
    rw [abs_of_nonneg (mul_nonneg (by positivity) h0)]
    refine mul_le_of_le_one_right (by positivity) ?_
    rw [div_le_one (by positivity)]
    have a1 : y * Real.cosh y - Real.sinh y ≤ y ^ 2 / 3 * Real.sinh y := by linarith
    calc 2 * y ^ 2 * (y * Real.cosh y - Real.sinh y) ≤ 2 * y ^ 2 * (y ^ 2 / 3 * Real.sinh y) :=
          mul_le_mul_of_nonneg_left a1 (by positivity)
      _ = 2 * y ^ 4 / 3 * Real.sinh y := by ring
      _ ≤ Real.sinh y ^ 2 * Real.sinh y := mul_le_mul_of_nonneg_right (by linarith) hs.le
      _ = Real.sinh y ^ 3 := by ring
  first
  | exact (congrArg abs e2).trans_le ((abs_neg _).trans_le key)
  | (rw [show _ * ω = -(k.N * k.kB * (2 * y ^ 2 * (y * Real.cosh y - Real.sinh y) / Real.sinh y ^ 3)) from e2, abs_neg]; exact key)

/-- Energy grows with the frequency. -/
theorem osc_energy_mono (k : Consts) {T ω ω' : ℝ} (hT : 0 < T) (h : 0 < ω) (hle : ω ≤ ω') :
    hoZpe k T ω + hoEth k T ω ≤ hoZpe k T ω' + hoEth k T ω' := by
  have hd : ∀ o, 0 < o → HasDerivAt (fun o => hoZpe k T o + hoEth k T o)
      (hoZpe k T o / o + (hoEth k T o - T * hoCv k T o / 1000) / o) o := fun o ho =>
    (hasDerivAt_hoZpe_freq k ho).add (hasDerivAt_hoEth_freq k hT ho)
  have hm : MonotoneOn (fun o => hoZpe k T o + hoEth k T o) (Set.Ioi 0) := by
    refine monotoneOn_of_deriv_nonneg (convex_Ioi 0) (fun x hx => (hd x hx).continuousAt.continuousWithinAt)
      (fun x hx => (hd x (interior_subset hx)).differentiableAt.differentiableWithinAt) fun x hx => ?_
    rw [interior_Ioi] at hx
    have hx : 0 < x := hx
    rw [(hd x hx).deriv, ← add_div]
    refine div_nonneg ?_ hx.le
    have h1 := (osc_energy k hT hx).1
    have h2 := mul_le_mul_of_nonneg_left (hoCv_le k hT.le x) hT.le
    linarith
  exact hm (Set.mem_Ioi.2 h) (Set.mem_Ioi.2 (h.trans_le hle)) hle

/-- Free energy lies below its tangents. -/
theorem osc_free_tangent (k : Consts) {T ω ω' : ℝ} (hT : 0 ≤ T) (h : 0 < ω) (hle : ω ≤ ω') :
    hoF k T ω' - hoF k T ω ≤ (hoZpe k T ω + hoEth k T ω) / ω * (ω' - ω) := by
  set s := (hoZpe k T ω + hoEth k T ω) / ω with hs
  have hd : ∀ o, 0 < o → HasDerivAt (fun o => s * o - hoF k T o) (s * 1 - (hoZpe k T o + hoEth k T o) / o) o := fun o ho =>
    ((hasDerivAt_id o).const_mul s).sub (hasDerivAt_hoF_freq k hT ho)
  have hm : MonotoneOn (fun o => s * o - hoF k T o) (Set.Ici ω) := by
    refine monotoneOn_of_deriv_nonneg (convex_Ici ω) (fun x hx => (hd x (h.trans_le hx)).continuousAt.continuousWithinAt)
      (fun x hx => (hd x (h.trans_le (interior_subset hx))).differentiableAt.differentiableWithinAt) fun x hx => ?_
    rw [interior_Ici] at hx
    have hx0 : 0 < x := h.trans hx
    rw [(hd x hx0).deriv, mul_one, sub_nonneg, hs, add_div, add_div]
    refine add_le_add ?_ ?_
    · rw [hoZpe_pos k _ hx0, hoZpe_pos k _ h, div_right_comm, div_right_comm _ _ ω, mul_div_cancel_right₀ _ hx0.ne', mul_div_cancel_right₀ _ h.ne']
    · have hxl : ω ≤ x := le_of_lt hx
      exact div_le_div₀ (hoEth_nonneg k hT ω) (hoEth_antitone k hT h hxl) h hxl
  have := hm (Set.mem_Ici.2 le_rfl) (Set.mem_Ici.2 hle) hle
  simp only at this
  linarith

theorem osc_free_error (k : Consts) {T δ ω ω' : ℝ} (hT : 0 ≤ T) (h : Within δ ω ω') :
    |hoF k T ω' - hoF k T ω| ≤ δ * (hoZpe k T ω + hoEth k T ω) := by
  have hδ := within_nonneg h
  obtain ⟨h0, h0', h1, h2⟩ := h
  have tang : ∀ a b : ℝ, 0 < a → a ≤ b → b ≤ (1 + δ) * a → hoF k T b - hoF k T a ≤ δ * (hoZpe k T a + hoEth k T a) := by
    intro a b ha hab hb
    refine (osc_free_tangent k hT ha hab).trans ?_
    have hU : 0 ≤ hoZpe k T a + hoEth k T a := add_nonneg (hoZpe_nonneg _ _ _) (hoEth_nonneg k hT _)
    calc _ ≤ (hoZpe k T a + hoEth k T a) / a * (δ * a) := mul_le_mul_of_nonneg_left (by linarith) (div_nonneg hU ha.le)
      _ = δ * (hoZpe k T a + hoEth k T a) := by field_simp
  rcases le_total ω ω' with hle | hle
  · rw [abs_of_nonneg (sub_nonneg.2 (hoF_mono k hT h0 hle))]
    exact tang _ _ h0 hle h2
  · rw [abs_sub_comm, abs_of_nonneg (sub_nonneg.2 (hoF_mono k hT h0' hle))]
    refine (tang _ _ h0' hle h1).trans (mul_le_mul_of_nonneg_left ?_ hδ)
    rcases hT.eq_or_lt with rfl | hT
    · simpa [hoEth] using hoZpe_mono k (T := 0) h0' hle
    · exact osc_energy_mono k hT h0' hle

theorem osc_zpe_error (k : Consts) {T δ ω ω' : ℝ} (h : Within δ ω ω') : |hoZpe k T ω' - hoZpe k T ω| ≤ δ * hoZpe k T ω := by
  have hδ := within_nonneg h
  obtain ⟨h0, h0', h1, h2⟩ := h
  have hc : 0 < k.N * k.h / 2000 := div_pos (mul_pos k.N_pos k.h_pos) (by norm_num)
  have e : ∀ o, k.N * k.h * o / 2000 = k.N * k.h / 2000 * o := fun o => by ring
  rw [hoZpe_pos k _ h0, hoZpe_pos k _ h0', e, e, ← mul_sub, abs_mul, abs_of_pos hc]
  have : |ω' - ω| ≤ δ * ω := by
    rw [abs_le]
    rcases le_total ω ω' with hle | hle
    · constructor <;> nlinarith
    · constructor <;> nlinarith
  calc _ ≤ k.N * k.h / 2000 * (δ * ω) := mul_le_mul_of_nonneg_left this hc.le
    _ = _ := by ring

theorem osc_entropy_error (k : Consts) {T δ ω ω' : ℝ} (hT : 0 ≤ T) (h : Within δ ω ω') :
    |hoS k T ω' - hoS k T ω| ≤ δ * (k.N * k.kB) := by
  have hp := (mul_pos k.N_pos k.kB_pos).le
  rcases hT.eq_or_lt with rfl | hT
  · simpa [hoS] using mul_nonneg (within_nonneg h) hp
  refine within_bound hp (fun o ho => hasDerivAt_hoS_freq k hT ho) (fun o ho => ?_) h
  rw [div_mul_cancel₀ _ ho.ne', abs_neg, abs_of_nonneg (hoCv_nonneg _ _ _)]
  exact hoCv_le k hT.le o

theorem osc_thermal_error (k : Consts) {T δ ω ω' : ℝ} (hT : 0 ≤ T) (h : Within δ ω ω') :
    |hoEth k T ω' - hoEth k T ω| ≤ δ * (k.N / 1000 * (k.kB * T)) := by
  have hN := k.N_pos; have hk := k.kB_pos
  rcases hT.eq_or_lt with rfl | hT
  · simp [hoEth]
  refine within_bound (by positivity) (fun o ho => hasDerivAt_hoEth_freq k hT ho) (fun o ho => ?_) h
  rw [div_mul_cancel₀ _ ho.ne', abs_le]
  have h1 := hoEth_nonneg k hT.le o
  have h2 := hoEth_le k hT.le o
  have h3 := hoCv_nonneg k T o
  have h4 := mul_le_mul_of_nonneg_left (hoCv_le k hT.le o) hT.le
  have h5 := mul_nonneg hT.le h3
  constructor <;> nlinarith

theorem osc_cv_error (k : Consts) {T δ ω ω' : ℝ} (hT : 0 ≤ T) (h : Within δ ω ω') :
    |hoCv k T ω' - hoCv k T ω| ≤ δ * (k.N * k.kB) := by
  have hp := (mul_pos k.N_pos k.kB_pos).le
  rcases hT.eq_or_lt with rfl | hT
  · simpa [hoCv] using mul_nonneg (within_nonneg h) hp
  classical
  refine within_bound (f' := fun o => if ho : 0 < o then (hasDerivAt_hoCv_freq k hT ho).choose else 0) hp
    (fun o ho => ?_) (fun o ho => ?_) h
  · rw [dif_pos ho]; exact (hasDerivAt_hoCv_freq k hT ho).choose_spec.1
  · rw [dif_pos ho]; exact (hasDerivAt_hoCv_freq k hT ho).choose_spec.2

/-! ### Tables -/

theorem weighted_sub_le {w : Fin nb → ℝ} (hw : ∀ j, 0 ≤ w j) {f g b : Fin nb → Fin nf → ℝ} (h : ∀ j m, |f j m - g j m| ≤ b j m) :
    |weighted w f - weighted w g| ≤ weighted w b := by
  have e : weighted w f - weighted w g = weighted w fun j m => f j m - g j m := by
    simp only [weighted, ← Finset.sum_sub_distrib, ← mul_sub]
  rw [e, abs_le]
  constructor
  · have := weighted_le (f := fun j m => (-1) * b j m) hw (g := fun j m => f j m - g j m) fun j m => by linarith [(abs_le.1 (h j m)).1]
    rw [weighted_mul] at this
    linarith
  · exact weighted_le hw fun j m => (abs_le.1 (h j m)).2

theorem weighted_const (w : Fin nb → ℝ) (c : ℝ) : weighted w (fun _ (_ : Fin nf) => c) = nf * (∑ j, w j) * c := by
  have := weighted_mul w c (fun _ (_ : Fin nf) => (1 : ℝ))
  rw [weighted_one] at this
  simp only [mul_one] at this
  rw [this]; ring

variable (k : Consts) (T : Fin nt → ℝ) (band band' : Fin nb → Fin nf → Fin nv → ℝ) (w : Fin nb → ℝ) {δ : ℝ}

/-- C166: when the positive frequencies of a volume are known to the fraction `δ`, the zero-point energy is known to the fraction
`δ`, the free energy to `δ` times the vibrational energy, the thermal energy to `δ k_B T` and entropy and heat capacity to
`δ k_B` per mode. -/
theorem C166_errors (hw : ∀ j, 0 ≤ w j) (i : Fin nt) (hT : 0 ≤ T i) (n : Fin nv) (hδ : ∀ j m, Within δ (band j m n) (band' j m n)) :
    let modes := nf * ∑ j, w j
    |zeroPointEnergy k T band' w i n - zeroPointEnergy k T band w i n| ≤ δ * zeroPointEnergy k T band w i n ∧
    |vibrationalFreeEnergy k T band' w i n - vibrationalFreeEnergy k T band w i n| ≤
      δ * (zeroPointEnergy k T band w i n + thermalEnergy k T band w i n) ∧
    |thermalEnergy k T band' w i n - thermalEnergy k T band w i n| ≤ δ * (modes * (k.N / 1000 * (k.kB * T i))) ∧
    |entropy k T band' w i n - entropy k T band w i n| ≤ δ * (modes * (k.N * k.kB)) ∧
    |isochoricHeatCapacity k T band' w i n - isochoricHeatCapacity k T band w i n| ≤ δ * (modes * (k.N * k.kB)) := by
  intro modes
  have cst : ∀ c : ℝ, δ * (modes * c) = weighted w (fun _ (_ : Fin nf) => δ * c) := fun c => by
    rw [weighted_const]; simp only [modes]; ring
  simp only [zeroPointEnergy, vibrationalFreeEnergy, thermalEnergy, entropy, isochoricHeatCapacity, kernel_weighted, cst]
  refine ⟨?_, ?_, ?_, ?_, ?_⟩
  · rw [← weighted_mul]; exact weighted_sub_le hw fun j m => osc_zpe_error k (hδ j m)
  · rw [← weighted_add, ← weighted_mul]; exact weighted_sub_le hw fun j m => osc_free_error k hT (hδ j m)
  · exact weighted_sub_le hw fun j m => osc_thermal_error k hT (hδ j m)
  · exact weighted_sub_le hw fun j m => osc_entropy_error k hT (hδ j m)
  · exact weighted_sub_le hw fun j m => osc_cv_error k hT (hδ j m)

/-! ### Witness -/

/-- Frequencies known to two percent. -/
example (k : Consts) := C166_errors k (fun _ : Fin 1 => 300) ![![![1e13], ![3e13]]] ![![![1.01e13], ![2.96e13]]] (δ := 0.02) (fun _ => 1)
  (fun _ => by norm_num) 0 (by norm_num) 0
  (fun j m => by fin_cases j; fin_cases m <;> simp [Within] <;> norm_num)

end Verif.StatMech
