/-
C106, errors of the normalised pressures.
-/
import Verif.EoS.NormalizeProps

namespace Verif.EoS
open Verif.EoS.Spec Verif.Py

/-- The factor depends on the ratio of the volumes only. -/
theorem factor_ratio (f : Formulation) {V0 V : ℝ} : factor f V0 V = factor f 1 (V / V0) := by
  cases f <;> simp only [factor, one_div, inv_div]

theorem bm_hasDeriv {x : ℝ} (hx : 0 < x) : HasDerivAt (factor .birchMurnaghan 1)
    (-(1 / 2 * x ^ (-(8:ℝ) / 3) * (7 * x ^ (-(2:ℝ) / 3) - 5))) x := by
  have e : (fun y => 3 / 2 * (y ^ (-(7:ℝ) / 3) - y ^ (-(5:ℝ) / 3))) =ᶠ[nhds x] factor .birchMurnaghan 1 := by
    filter_upwards [lt_mem_nhds hx] with y hy
    simp only [factor]
    rw [one_div, Real.inv_rpow hy.le, Real.inv_rpow hy.le, ← Real.rpow_neg hy.le, ← Real.rpow_neg hy.le]
    norm_num
  refine HasDerivAt.congr_of_eventuallyEq ?_ e.symm
  have h := (((Real.hasDerivAt_rpow_const (x := x) (p := -(7:ℝ) / 3) (.inl hx.ne')).sub
    (Real.hasDerivAt_rpow_const (p := -(5:ℝ) / 3) (.inl hx.ne'))).const_mul (3 / 2))
  refine h.congr_deriv ?_
  have e1 : x ^ (-(7:ℝ) / 3 - 1) = x ^ (-(8:ℝ) / 3) * x ^ (-(2:ℝ) / 3) := by
    rw [← Real.rpow_add hx]; norm_num
  have e2 : x ^ (-(5:ℝ) / 3 - 1) = x ^ (-(8:ℝ) / 3) := by norm_num
  rw [e1, e2]
  ring

theorem ns_hasDeriv {x : ℝ} (hx : 0 < x) : HasDerivAt (factor .naturalStrain 1) ((Real.log x - 1) / x ^ 2) x := by
  have e : factor .naturalStrain 1 = fun y => -(Real.log y / y) := by
    funext y
    simp only [factor, one_div, Real.log_inv]
    ring
  rw [e]
  refine ((Real.hasDerivAt_log hx.ne').div (hasDerivAt_id x) hx.ne').neg.congr_deriv ?_
  simp only [id]
  field_simp
  ring

/-- The error of the code, for Birch-Murnaghan and natural strain: propagation with `sig_eta` as the error of the ratio. -/
theorem sigNormObs_sq {f : Formulation} (hf : f = .birchMurnaghan ∨ f = .naturalStrain) {V_0 s_0 v s P t : ℝ} (h0 : 0 < V_0)
    (hv : 0 < v) (hlt : v < V_0) (hP : P ≠ 0) :
    sigNormObs f V_0 s_0 v s P t ^ 2 =
      (t / factor f V_0 v) ^ 2 + (deriv (fun y => P / factor f 1 y) (v / V_0) * sigEta V_0 s_0 v s) ^ 2 ∧
    deriv (fun y => P / factor f 1 y) (v / V_0) ≠ 0 := by
  have hx : 0 < v / V_0 := div_pos hv h0
  have hx1 : v / V_0 < 1 := (div_lt_one h0).2 hlt
  have hp : HasPlot f := by rcases hf with rfl | rfl <;> simp [HasPlot]
  have hF := factor_ne hp h0 hv hlt.ne
  have hn : normObs f V_0 v P = P / factor f V_0 v := by
    rw [eq_div_iff hF, normObs_factor hp h0 hv hlt.ne]
  have hg : factor f 1 (v / V_0) ≠ 0 := by rw [← factor_ratio]; exact hF
  have hsq : ∀ a b : ℝ, √(a ^ 2 + b ^ 2) ^ 2 = a ^ 2 + b ^ 2 := fun a b => Real.sq_sqrt (by positivity)
  rcases hf with rfl | rfl
  · have hd := (hasDerivAt_const (v / V_0) P).div (bm_hasDeriv hx) hg
    have hd' : deriv (fun y => P / factor .birchMurnaghan 1 y) (v / V_0) = _ := hd.deriv
    have hu : 1 < (v / V_0) ^ (-(2:ℝ) / 3) := Real.one_lt_rpow_of_pos_of_lt_one_of_neg hx hx1 (by norm_num)
    have h8 := Real.rpow_pos_of_pos hx (-(8:ℝ) / 3)
    have hfac : factor .birchMurnaghan 1 (v / V_0) =
        3 / 2 * ((v / V_0) * (v / V_0) ^ (-(8:ℝ) / 3)) * ((v / V_0) ^ (-(2:ℝ) / 3) - 1) := by
      have a1 : (v / V_0) ^ ((7:ℝ) / 3) ≠ 0 := (Real.rpow_pos_of_pos hx _).ne'
      have e5 : (v / V_0) ^ (-(5:ℝ) / 3) = (v / V_0) * (v / V_0) ^ (-(8:ℝ) / 3) := by
        nth_rw 2 [← Real.rpow_one (v / V_0)]
        rw [← Real.rpow_add hx]; norm_num
      have e7 : (v / V_0) ^ (-(7:ℝ) / 3) = (v / V_0) ^ (-(5:ℝ) / 3) * (v / V_0) ^ (-(2:ℝ) / 3) := by
        rw [← Real.rpow_add hx]; norm_num
      rw [← e5, factor, one_div, Real.inv_rpow hx.le, Real.inv_rpow hx.le, ← Real.rpow_neg hx.le, ← Real.rpow_neg hx.le,
        show -((7:ℝ) / 3) = -(7:ℝ) / 3 by norm_num, show -((5:ℝ) / 3) = -(5:ℝ) / 3 by norm_num, e7]
      ring
    rw [hd']
    simp only [sigNormObs, hn, mul_pow, hsq]
    rw [factor_ratio]
    rw [hfac]
    generalize (v / V_0) ^ (-(2:ℝ) / 3) = U at *
    generalize (v / V_0) ^ (-(8:ℝ) / 3) = W at *
    generalize v / V_0 = X at *
    generalize sigEta V_0 s_0 v s = S
    have hU : U - 1 ≠ 0 := by linarith
    have hU' : 1 - U ≠ 0 := by intro h; apply hU; linarith
    have hU7 : 7 * U - 5 ≠ 0 := by linarith
    refine ⟨?_, ?_⟩
    · have : (1 - U) = -(U - 1) := by ring
      rw [this]
      field_simp
      ring
    · simp only [zero_mul, zero_sub]
      refine div_ne_zero ?_ (pow_ne_zero _ ?_)
      · simp only [mul_neg, neg_neg]
        positivity
      · positivity
  · have hd := (hasDerivAt_const (v / V_0) P).div (ns_hasDeriv hx) hg
    have hd' : deriv (fun y => P / factor .naturalStrain 1 y) (v / V_0) = _ := hd.deriv
    have hl : Real.log (v / V_0) < 0 := Real.log_neg hx hx1
    have hfac : factor .naturalStrain 1 (v / V_0) = -(Real.log (v / V_0) / (v / V_0)) := by
      simp only [factor, one_div, Real.log_inv]; ring
    rw [hd']
    simp only [sigNormObs, hn, mul_pow, hsq]
    rw [factor_ratio, hfac]
    generalize Real.log (v / V_0) = L at *
    generalize v / V_0 = X at *
    generalize sigEta V_0 s_0 v s = S
    have hL : L ≠ 0 := hl.ne
    have hL1 : L - 1 ≠ 0 := by linarith
    refine ⟨?_, ?_⟩
    · field_simp
      ring
    · simp only [zero_mul, zero_sub]
      refine div_ne_zero (neg_ne_zero.2 (mul_ne_zero hP (div_ne_zero hL1 (by positivity)))) (pow_ne_zero _ ?_)
      exact neg_ne_zero.2 (div_ne_zero hL hx.ne')

theorem sigEta_pos {V_0 s_0 v s : ℝ} (h0 : 0 < V_0) (hv : 0 < v) (hs0 : 0 ≤ s_0) (hs : 0 < s) : 0 < sigEta V_0 s_0 v s := by
  have : 0 ≤ s_0 / V_0 := by positivity
  have : 0 < s / v := by positivity
  rw [sigEta]; linarith

/-- C106, violated, Birch-Murnaghan and natural strain: the errors of the normalised pressures `P / g(V / V_0)` are not
those of first-order propagation.  The part of the pressure is right; the part of the volumes is that of
propagation divided by `V / V_0`, too large for every compressed volume. -/
theorem C106_pressure_errors_violated {f : Formulation} (hf : f = .birchMurnaghan ∨ f = .naturalStrain) (p : Pars)
    {V_0 s_0 v s x t : ℝ} (h0 : 0 < V_0) (hv : 0 < v) (hlt : v < V_0) (hs0 : 0 ≤ s_0) (hs : 0 < s) (hx : 0 < x)
    {V P sv sp : List ℝ} (P_0 e_0 : ℝ) (order : ℕ) (linear : Bool) :
    ∃ r p' e, normalize f p (V_0 :: V) (P_0 :: P) (some (s_0 :: sv, e_0 :: sp)) order linear = .ok (r, p') ∧
      (let D := deriv (fun y => x / factor f 1 y) (v / V_0)
       e ^ 2 = (t / factor f V_0 v) ^ 2 + (D * ratioError V_0 s_0 v s / (v / V_0)) ^ 2 ∧
       (t / factor f V_0 v) ^ 2 + (D * ratioError V_0 s_0 v s) ^ 2 < e ^ 2) ∧
      ∀ i : ℕ, V[i]? = some v → sv[i]? = some s → P[i]? = some x → sp[i]? = some t → r.sigNP[i]? = some e := by
  obtain ⟨h1, h2⟩ := sigNormObs_sq hf (s_0 := s_0) (s := s) (t := t) h0 hv hlt hx.ne'
  have hr : ratioError V_0 s_0 v s = sigEta V_0 s_0 v s * (v / V_0) := by
    rw [ratioError, sigEta]; field_simp
  have hy : 0 < v / V_0 := div_pos hv h0
  have hS := sigEta_pos h0 hv hs0 hs
  refine ⟨_, _, sigNormObs f V_0 s_0 v s x t, rfl, ⟨?_, ?_⟩, fun i a b c d => ?_⟩
  · rw [h1, hr, ← mul_assoc, mul_div_cancel_right₀ _ hy.ne']
  · rw [h1, hr, ← mul_assoc, mul_pow _ (v / V_0)]
    have h3 : 0 < (deriv (fun y => x / factor f 1 y) (v / V_0) * sigEta V_0 s_0 v s) ^ 2 := by
      have := mul_ne_zero h2 hS.ne'
      positivity
    have h4 : (v / V_0) ^ 2 < 1 := pow_lt_one₀ hy.le ((div_lt_one h0).2 hlt) (by norm_num)
    nlinarith
  · simp only [List.headD_cons, List.tail_cons, List.getElem?_zipWith, a, b, c, d, List.zip]

/-- C106, violated, Vinet: the errors of the normalised pressures are not proportional to the errors of the data.  With
exact pressures, making every error of a volume four times as large only doubles them. -/
theorem C106_vinet_errors_violated (p : Pars) {V_0 s_0 v s x : ℝ} (h0 : 0 < V_0) (hv : 0 < v) (hlt : v < V_0)
    (hbig : 1 < 3 * (v / V_0) ^ ((2:ℝ) / 3)) (hs0 : 0 ≤ s_0) (hs : 0 < s) (hx : 0 < x)
    {V P sv sp sv' : List ℝ} (P_0 e_0 : ℝ) (order : ℕ) (linear : Bool) :
    ∃ r r' p' e, 0 < e ∧
      normalize .vinet p (V_0 :: V) (P_0 :: P) (some (s_0 :: sv, e_0 :: sp)) order linear = .ok (r, p') ∧
      normalize .vinet p (V_0 :: V) (P_0 :: P) (some (4 * s_0 :: sv', e_0 :: sp)) order linear = .ok (r', p') ∧
      ∀ i : ℕ, V[i]? = some v → sv[i]? = some s → sv'[i]? = some (4 * s) → P[i]? = some x → sp[i]? = some 0 →
        r.sigNP[i]? = some e ∧ r'.sigNP[i]? = some (2 * e) := by
  have hp : HasPlot .vinet := .inr (.inr rfl)
  have hS := sigEta_pos h0 hv hs0 hs
  have hS4 : sigEta V_0 (4 * s_0) v (4 * s) = 4 * sigEta V_0 s_0 v s := by simp only [sigEta]; ring
  have hF : 0 < factor .vinet V_0 v := by
    have h1 : 1 < V_0 / v := (one_lt_div hv).2 hlt
    have : (V_0 / v) ^ ((1:ℝ) / 3) < (V_0 / v) ^ ((2:ℝ) / 3) := Real.rpow_lt_rpow_of_exponent_lt h1 (by norm_num)
    simp only [factor]; linarith
  have hn : 0 < normObs .vinet V_0 v x := by
    have h := normObs_factor hp h0 hv hlt.ne x
    by_contra hc
    nlinarith
  have hd : 0 < 3 * (v / V_0) ^ ((2:ℝ) / 3) - 1 := by linarith
  have he : sigNormObs .vinet V_0 (4 * s_0) v (4 * s) x 0 = 2 * sigNormObs .vinet V_0 s_0 v s x 0 := by
    simp only [sigNormObs, hS4, zero_div]
    have e : (0:ℝ) ^ 2 + 4 * sigEta V_0 s_0 v s / (3 * (v / V_0) ^ ((2:ℝ) / 3) - 1) =
        2 ^ 2 * (0 ^ 2 + sigEta V_0 s_0 v s / (3 * (v / V_0) ^ ((2:ℝ) / 3) - 1)) := by ring
    rw [e, Real.sqrt_mul (by norm_num), Real.sqrt_sq (by norm_num)]
    ring
  refine ⟨_, _, _, sigNormObs .vinet V_0 s_0 v s x 0, ?_, rfl, rfl, fun i a b b' c d => ⟨?_, ?_⟩⟩
  · simp only [sigNormObs, zero_div]
    refine mul_pos hn (Real.sqrt_pos.2 ?_)
    have := div_pos hS hd
    linarith
  · simp only [List.headD_cons, List.tail_cons, List.getElem?_zipWith, List.zip, a, b, c, d]
  · rw [← he]
    simp only [List.headD_cons, List.tail_cons, List.getElem?_zipWith, List.zip, a, b', c, d]

/-- A datum at nine tenths of the volume with an error of one part in a hundred. -/
example : (0:ℝ) < 10 ∧ (0:ℝ) < 9 ∧ (9:ℝ) < 10 ∧ 1 < 3 * ((9:ℝ) / 10) ^ ((2:ℝ) / 3) := by
  have : ((9:ℝ) / 10) ^ (1:ℝ) ≤ ((9:ℝ) / 10) ^ ((2:ℝ) / 3) :=
    Real.rpow_le_rpow_of_exponent_ge (by norm_num) (by norm_num) (by norm_num)
  rw [Real.rpow_one] at this
  refine ⟨by norm_num, by norm_num, by norm_num, by linarith⟩

end Verif.EoS
