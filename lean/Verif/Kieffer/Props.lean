/-
C63: the acoustic contributions of Kieffer's model.
-/
import Mathlib.Analysis.Complex.ExponentialBounds
import Mathlib.Analysis.Real.Pi.Bounds
import Mathlib.Analysis.SpecialFunctions.Trigonometric.Bounds
import Verif.Kieffer.Lemmas

noncomputable section

namespace Verif.Kieffer
open Verif.Units Verif.StatMech Spec MeasureTheory Set

variable {k : Consts} {quad : Quad}

/-- C63: the density of states is that of one mode per branch. -/
theorem C63_one_mode {c : ℝ} (hc : 0 < c) : ∫ ν in 0..c, density c ν = 1 := by
  rw [density_integral le_rfl hc.le le_rfl, count_cutoff hc, count_zero, sub_zero]

/-- C63, in part: with an exact quadrature, the heat capacity and the Helmholtz energy are the integrals of
the functions of the single oscillator over the density of states of the branches, from the lowest frequency
the code considers; both vanish at absolute zero.  Missing: the entropy. -/
theorem C63_value_partial (hq : Exact quad) {T : ℝ} (hT : 0 < T) {frequencies : List ℝ}
    (hf : ∀ c ∈ frequencies, lowest k T ≤ c) :
    heatCapacity k quad frequencies T =
      (frequencies.map fun c => ∫ ν in lowest k T..c, density c ν * hoCv k T ν).sum ∧
    helmholtz k quad frequencies T =
      (frequencies.map fun c => ∫ ν in lowest k T..c, density c ν * modeF k T ν).sum := by
  rw [heatCapacity, helmholtz, foldl_add, foldl_add, zero_add, zero_add, acofreqExp, List.map_map, List.map_map]
  constructor
  · congr 1
    exact List.map_congr_left fun c hc => heat_integral hq hT (hf c hc)
  · congr 1
    exact List.map_congr_left fun c hc => helmholtz_integral hq hT (hf c hc)

/-- At absolute zero the contributions vanish. -/
theorem C63_absolute_zero (quad : Quad) (frequencies : List ℝ) :
    heatCapacity k quad frequencies 0 = 0 ∧ helmholtz k quad frequencies 0 = 0 ∧
      entropy k quad frequencies 0 = 0 := by
  rw [heatCapacity, helmholtz, entropy, foldl_add, foldl_add, foldl_add]
  have h : ∀ f : ℝ → ℝ, (∀ x, f x = 0) → ∀ l : List ℝ, (0 : ℝ) + (l.map f).sum = 0 := by
    intro f hf l
    rw [zero_add]
    refine List.sum_eq_zero fun v hv => ?_
    obtain ⟨x, -, rfl⟩ := List.mem_map.1 hv
    exact hf x
  exact ⟨h _ (fun x => by simp [heatCapacityIntegral]) _, h _ (fun x => by simp [helmholtzIntegral]) _,
    h _ (fun x => by simp [entropyIntegral]) _⟩

/-- C63, in part: what the code integrates for the Helmholtz energy and the heat capacity is consistent at
each frequency: with f and c the contributions per hertz, there is s with s = -df/dT and c = T ds/dT, at
every temperature.  Missing: the s of the code, see the next theorem. -/
theorem C63_consistent_partial {c ν : ℝ} (hν : 0 < ν) :
    let f := fun T => perHertz k T (fun x => helmholtzFunction x T (c * k.h / k.kB)) ν *
      (3 * T * k.N * k.kB * (2 / Real.pi) ^ 3)
    let cv := fun T => perHertz k T (fun x => heatCapacityFunction x T (c * k.h / k.kB)) ν *
      3 * k.N * k.kB * (2 / Real.pi) ^ 3
    ∃ s : ℝ → ℝ, ∀ T, 0 < T → HasDerivAt f (-(s T)) T ∧ HasDerivAt s (cv T / T) T := by
  intro f cv
  refine ⟨fun T => density c ν * hoS k T ν, fun T hT => ⟨?_, ?_⟩⟩
  · have h1 : HasDerivAt (fun t => density c ν * (1000 * (hoF k t ν - k.N * k.h * ν / 2000))) _ T :=
      (((hasDerivAt_hoF k hT ν).sub_const _).const_mul 1000).const_mul (density c ν)
    refine (h1.congr_of_eventuallyEq ?_).congr_deriv (by ring)
    filter_upwards [isOpen_Ioi.mem_nhds (mem_Ioi.2 hT)] with t ht
    rw [show f t = density c ν * modeF k t ν from helmholtz_perHertz ht hν, modeF, hoZpe_pos k t hν]
  · refine ((hasDerivAt_hoS k hT ν).const_mul (density c ν)).congr_deriv ?_
    rw [show cv T = density c ν * hoCv k T ν from heat_perHertz hT hν]
    ring

/-- C63, violated: what the code integrates for the entropy is not -df/dT, at any frequency of the branch and
any temperature but the one with hν = kB T ln 2. -/
theorem C63_entropy_violated {c ν T : ℝ} (hν : 0 < ν) (hc : ν < c) (hT : 0 < T)
    (hx : k.h * ν / (k.kB * T) ≠ Real.log 2) :
    let f := fun T => perHertz k T (fun x => helmholtzFunction x T (c * k.h / k.kB)) ν *
      (3 * T * k.N * k.kB * (2 / Real.pi) ^ 3)
    let s := perHertz k T (fun x => entropyFunction x T (c * k.h / k.kB)) ν * 3 * k.N * k.kB * (2 / Real.pi) ^ 3
    ¬ HasDerivAt f (-s) T := by
  intro f s h
  have h1 : HasDerivAt (fun t => density c ν * (1000 * (hoF k t ν - k.N * k.h * ν / 2000))) _ T :=
    (((hasDerivAt_hoF k hT ν).sub_const _).const_mul 1000).const_mul (density c ν)
  have h2 : HasDerivAt f (-(density c ν * hoS k T ν)) T := by
    refine (h1.congr_of_eventuallyEq ?_).congr_deriv (by ring)
    filter_upwards [isOpen_Ioi.mem_nhds (mem_Ioi.2 hT)] with t ht
    rw [show f t = density c ν * modeF k t ν from helmholtz_perHertz ht hν, modeF, hoZpe_pos k t hν]
  have h3 := h.unique h2
  rw [show s = density c ν * codeS k T ν from entropy_perHertz hT, neg_inj] at h3
  have hd : density c ν ≠ 0 := by
    have hc0 : 0 < c := hν.trans hc
    have ha : 0 < Real.arcsin (ν / c) := Real.arcsin_pos.2 (div_pos hν hc0)
    have hs : 0 < Real.sqrt (c ^ 2 - ν ^ 2) := Real.sqrt_pos.2 (by nlinarith)
    have := Real.pi_pos
    unfold density
    positivity
  have h4 := mul_left_cancel₀ hd h3
  rw [codeS, hoS_pos k hT.ne' hν, x_eq] at h4
  have hN : k.N * k.kB ≠ 0 := (mul_pos k.N_pos k.kB_pos).ne'
  have h5 := mul_left_cancel₀ hN h4
  rw [sub_left_inj] at h5
  rw [x_eq] at hx
  set x := einstein k ν / T with hxd
  have hx0 : 0 < x := div_pos (einstein_pos k hν) hT
  have he := exp_sub_one_pos hx0
  have h6 : Real.exp x - 1 = 1 := by
    rw [div_eq_div_iff (by positivity) he.ne'] at h5
    have := mul_left_cancel₀ hx0.ne' (by linarith : x * (Real.exp x - 1) = x * ((Real.exp x - 1) ^ 2))
    have h7 : (Real.exp x - 1) * (Real.exp x - 1 - 1) = 0 := by linarith [sq (Real.exp x - 1)]
    have := (mul_eq_zero.1 h7).resolve_left he.ne'
    linarith
  exact hx (by rw [← Real.log_exp x]; congr 1; linarith)

/-- C63, violated: the entropy is integrated up to 0.999 of the highest frequency only, which leaves out more
than seven percent of the modes of every branch. -/
theorem C63_truncated_violated (hq : Exact quad) {T : ℝ} (hT : 0 < T) (frequencies : List ℝ) :
    entropy k quad frequencies T =
      (frequencies.map fun c => ∫ ν in lowest k T..(0.999 * c), density c ν * codeS k T ν).sum ∧
    ∀ c > 0, ∫ ν in 0..(0.999 * c), density c ν < 0.93 := by
  constructor
  · rw [entropy, foldl_add, zero_add, acofreqExp, List.map_map]
    congr 1
    exact List.map_congr_left fun c _ => entropy_integral hq hT
  · intro c hc
    rw [density_integral le_rfl (by positivity) (by linarith), count_zero, sub_zero, count,
      mul_div_assoc, div_self hc.ne', mul_one]
    have h1 : Real.arcsin 0.999 ≤ 1.53 := by
      rw [Real.arcsin_le_iff_le_sin ⟨by norm_num, by norm_num⟩
        ⟨by linarith [Real.pi_pos], by linarith [Real.pi_gt_d2]⟩]
      have h2 := Real.one_sub_sq_div_two_le_cos (x := Real.pi / 2 - 1.53)
      rw [Real.cos_pi_div_two_sub] at h2
      have h3 := Real.pi_gt_d4
      have h4 := Real.pi_lt_d4
      nlinarith
    have h0 : 0 ≤ Real.arcsin 0.999 := Real.arcsin_nonneg.2 (by norm_num)
    have h5 : 2 / Real.pi ≤ 2 / 3.14 := div_le_div_of_nonneg_left (by norm_num) (by norm_num) Real.pi_gt_d2.le
    have h6 : 0 ≤ 2 / Real.pi := by have := Real.pi_pos; positivity
    calc (2 / Real.pi) ^ 3 * Real.arcsin 0.999 ^ 3 ≤ (2 / 3.14) ^ 3 * 1.53 ^ 3 := by gcongr
      _ < 0.93 := by norm_num

/-- With an exact quadrature the heat capacity is between zero and the value of Dulong and Petit, one NA kB
per branch, and the Helmholtz energy is not positive. -/
theorem C63_bounds (hq : Exact quad) {T : ℝ} (hT : 0 < T) {frequencies : List ℝ}
    (hf : ∀ c ∈ frequencies, lowest k T ≤ c) :
    0 ≤ heatCapacity k quad frequencies T ∧
    heatCapacity k quad frequencies T ≤ frequencies.length * (k.N * k.kB) ∧
    helmholtz k quad frequencies T ≤ 0 := by
  have h0 := lowest_pos (k := k) hT
  have hN := k.N_pos
  have hk := k.kB_pos
  obtain ⟨h1, h2⟩ := C63_value_partial hq hT hf
  rw [h1, h2]
  refine ⟨List.sum_nonneg ?_, ?_, ?_⟩
  · intro v hv
    obtain ⟨c, hc, rfl⟩ := List.mem_map.1 hv
    exact intervalIntegral.integral_nonneg (hf c hc) fun ν _ => mul_nonneg density_nonneg (hoCv_nonneg k T ν)
  · have : ∀ v ∈ frequencies.map (fun c => ∫ ν in lowest k T..c, density c ν * hoCv k T ν), v ≤ k.N * k.kB := by
      intro v hv
      obtain ⟨c, hc, rfl⟩ := List.mem_map.1 hv
      have hc' := hf c hc
      have hi := density_integrable h0.le hc' (le_refl c)
      have hle : ∫ ν in lowest k T..c, density c ν * hoCv k T ν ≤
          ∫ ν in lowest k T..c, density c ν * (k.N * k.kB) := by
        by_cases hint : IntervalIntegrable (fun ν => density c ν * hoCv k T ν) volume (lowest k T) c
        · exact intervalIntegral.integral_mono_on hc' hint (hi.mul_const _) fun ν _ =>
            mul_le_mul_of_nonneg_left (hoCv_le k hT.le ν) density_nonneg
        · rw [intervalIntegral.integral_undef hint]
          exact intervalIntegral.integral_nonneg hc' fun ν _ => mul_nonneg density_nonneg (by positivity)
      refine hle.trans ?_
      rw [intervalIntegral.integral_mul_const, density_integral h0.le hc' le_rfl, count_cutoff (h0.trans_le hc')]
      have : 0 ≤ count c (lowest k T) := by
        have := Real.pi_pos
        have := Real.arcsin_nonneg.2 (div_nonneg h0.le (h0.trans_le hc').le)
        unfold count; positivity
      nlinarith [mul_pos hN hk]
    simpa using List.sum_le_card_nsmul _ _ this
  · have hsum : ∀ l : List ℝ, (∀ v ∈ l, v ≤ 0) → l.sum ≤ 0 := fun l hl => by
      simpa using List.sum_le_card_nsmul l 0 hl
    refine hsum _ ?_
    intro v hv
    obtain ⟨c, hc, rfl⟩ := List.mem_map.1 hv
    rw [← neg_nonneg, ← intervalIntegral.integral_neg]
    refine intervalIntegral.integral_nonneg (hf c hc) fun ν _ => ?_
    have h5 := hoF_le_hoZpe k hT.le ν
    have h6 : 0 ≤ density c ν := density_nonneg
    unfold modeF
    nlinarith

/-- The exact quadrature, and a branch of ten terahertz at 300 kelvin. -/
example : ∃ quad : Quad, Exact quad ∧ lowest codata 300 ≤ 1e13 ∧
    codata.h * 1e12 / (codata.kB * 300) ≠ Real.log 2 := by
  refine ⟨fun f a b => ∫ x in a..b, f x, fun _ _ _ => rfl, ?_, ?_⟩
  · norm_num [lowest, codata]
  · have h1 := Real.log_two_gt_d9
    have : codata.h * 1e12 / (codata.kB * 300) < 0.5 := by norm_num [codata]
    intro h
    linarith

end Verif.Kieffer
