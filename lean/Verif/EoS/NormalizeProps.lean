/-
C106: the f-F plot.
-/
import Mathlib.Analysis.SpecialFunctions.Pow.Deriv
import Verif.EoS.Curves
import Verif.EoS.Normalize
import Verif.EoS.NormalizeSpec

namespace Verif.EoS
open Verif.EoS.Spec Verif.Py

theorem normStrain_eq {f : Formulation} {V0 V : ℝ} (hV0 : 0 < V0) (hV : 0 < V) :
    normStrain f V0 V = strain f V0 V := by
  cases f <;> simp only [normStrain, strain]
  · ring
  · rw [Real.log_div hV0.ne' hV.ne']; ring

/-- Powers of the ratio in terms of its cube root. -/
theorem ratio_pow {V0 V : ℝ} (hV0 : 0 < V0) (hV : 0 < V) (n : ℕ) {a : ℝ} (ha : a = n / 3) :
    (V0 / V) ^ a = ((V0 / V) ^ ((1:ℝ) / 3)) ^ n := by
  rw [← Real.rpow_natCast, ← Real.rpow_mul (div_pos hV0 hV).le, ha]
  congr 1; ring

theorem cuberoot_ne {V0 V : ℝ} (hV0 : 0 < V0) (hV : 0 < V) (hne : V ≠ V0) : (V0 / V) ^ ((1:ℝ) / 3) ≠ 1 := by
  intro h
  have h1 : (V0 / V) ^ ((1:ℝ) / 3) = (1:ℝ) ^ ((1:ℝ) / 3) := by rw [h, Real.one_rpow]
  have := Real.rpow_left_injOn (by norm_num : (1:ℝ) / 3 ≠ 0) (div_pos hV0 hV).le (Set.mem_setOf.2 zero_le_one) h1
  rw [div_eq_one_iff_eq hV.ne'] at this
  exact hne this.symm

/-- The factor of the code. -/
theorem bm_factor {V0 V : ℝ} (hV0 : 0 < V0) (hV : 0 < V) :
    3 * normStrain .birchMurnaghan V0 V * (1 + 2 * normStrain .birchMurnaghan V0 V) ^ (2.5 : ℝ) =
      factor .birchMurnaghan V0 V := by
  have hx := div_pos hV0 hV
  have e : 1 + 2 * normStrain .birchMurnaghan V0 V = (V0 / V) ^ ((2:ℝ) / 3) := by
    simp only [normStrain]; ring
  have e2 : ((V0 / V) ^ ((2:ℝ) / 3)) ^ (2.5:ℝ) = (V0 / V) ^ ((5:ℝ) / 3) := by
    rw [← Real.rpow_mul hx.le]; norm_num
  have e3 : (V0 / V) ^ ((7:ℝ) / 3) = (V0 / V) ^ ((2:ℝ) / 3) * (V0 / V) ^ ((5:ℝ) / 3) := by
    rw [← Real.rpow_add hx]; norm_num
  rw [e, e2, factor, e3]
  simp only [normStrain]
  ring

theorem ns_factor {V0 V : ℝ} : 3 * (V0 / V) * normStrain .naturalStrain V0 V = factor .naturalStrain V0 V := by
  simp only [normStrain, factor]; ring

theorem vinet_root {V0 V : ℝ} (hV0 : 0 < V0) (hV : 0 < V) :
    normStrain .vinet V0 V = 1 - ((V0 / V) ^ ((1:ℝ) / 3))⁻¹ := by
  rw [normStrain, ← Real.inv_rpow (div_pos hV0 hV).le, inv_div]

theorem factor_ne {f : Formulation} (hf : HasPlot f) {V0 V : ℝ} (hV0 : 0 < V0) (hV : 0 < V) (hne : V ≠ V0) :
    factor f V0 V ≠ 0 := by
  have hx := div_pos hV0 hV
  have hy := Real.rpow_pos_of_pos hx ((1:ℝ) / 3)
  have h1 := sub_ne_zero.2 (cuberoot_ne hV0 hV hne)
  rcases hf with rfl | rfl | rfl
  · rw [factor, ratio_pow hV0 hV 7 (a := (7:ℝ) / 3) (by norm_num),
      ratio_pow hV0 hV 5 (a := (5:ℝ) / 3) (by norm_num)]
    set y := (V0 / V) ^ ((1:ℝ) / 3)
    have : 3 / 2 * (y ^ 7 - y ^ 5) = 3 / 2 * (y ^ 5 * ((y - 1) * (y + 1))) := by ring
    rw [this]
    have : y + 1 ≠ 0 := by positivity
    exact mul_ne_zero (by norm_num) (mul_ne_zero (by positivity) (mul_ne_zero h1 this))
  · rw [factor]
    refine mul_ne_zero hx.ne' (Real.log_ne_zero_of_pos_of_ne_one hx fun h => hne ?_)
    rw [div_eq_one_iff_eq hV.ne'] at h
    exact h.symm
  · rw [factor, ratio_pow hV0 hV 2 (a := (2:ℝ) / 3) (by norm_num)]
    set y := (V0 / V) ^ ((1:ℝ) / 3)
    have : 3 * (y ^ 2 - y) = 3 * (y * (y - 1)) := by ring
    rw [this]
    exact mul_ne_zero (by norm_num) (mul_ne_zero hy.ne' h1)

/-- The normalised pressure of the curve times the factor is the pressure. -/
theorem normCalc_factor {f : Formulation} (hf : HasPlot f) {q : Pars} (hV0 : 0 < q.V0) {V : ℝ} (hV : 0 < V)
    (hne : V ≠ q.V0) (order : ℕ) (linear : Bool) :
    normCalc f q V order linear * factor f q.V0 V = (eos f q V order linear false).1 := by
  have hF := factor_ne hf hV0 hV hne
  rcases hf with rfl | rfl | rfl
  · simp only [normCalc]
    rw [bm_factor hV0 hV, div_mul_cancel₀ _ hF]
  · simp only [normCalc]
    rw [ns_factor, div_mul_cancel₀ _ hF]
  · have hy := Real.rpow_pos_of_pos (div_pos hV0 hV) ((1:ℝ) / 3)
    have e : (V / q.V0) ^ ((1:ℝ) / 3) = ((q.V0 / V) ^ ((1:ℝ) / 3))⁻¹ := by
      rw [← Real.inv_rpow (div_pos hV0 hV).le, inv_div]
    simp only [normCalc, factor, eos, parsAfter, setKpp, setKp, formula, normStrain, e,
      ratio_pow hV0 hV 2 (by norm_num : (2:ℝ) / 3 = (2:ℕ) / 3), Bool.false_eq_true, if_false]
    generalize Real.exp _ = X
    set y := (q.V0 / V) ^ ((1:ℝ) / 3)
    rw [sub_sub_cancel]
    field_simp

theorem normObs_factor {f : Formulation} (hf : HasPlot f) {V0 V : ℝ} (hV0 : 0 < V0) (hV : 0 < V)
    (hne : V ≠ V0) (P : ℝ) : normObs f V0 V P * factor f V0 V = P := by
  have hF := factor_ne hf hV0 hV hne
  rcases hf with rfl | rfl | rfl
  · simp only [normObs]
    rw [bm_factor hV0 hV, div_mul_cancel₀ _ hF]
  · simp only [normObs]
    rw [ns_factor, div_mul_cancel₀ _ hF]
  · have hy := Real.rpow_pos_of_pos (div_pos hV0 hV) ((1:ℝ) / 3)
    have h1 := sub_ne_zero.2 (cuberoot_ne hV0 hV hne)
    simp only [normObs, factor, vinet_root hV0 hV,
      ratio_pow hV0 hV 2 (by norm_num : (2:ℝ) / 3 = (2:ℕ) / 3)]
    set y := (V0 / V) ^ ((1:ℝ) / 3)
    rw [sub_sub_cancel]
    have h2 : 1 - y⁻¹ = (y - 1) / y := by field_simp
    rw [h2]
    field_simp

theorem normPars_id (f : Formulation) (p : Pars) {order : ℕ} {linear : Bool} (h : ¬ (order = 2 ∧ linear = true)) :
    normPars f p order linear = p := if_neg h

/-! ### C106 -/

/-- C106, curve: each point of the curve has the strain of its volume, and its normalised pressure times the
factor is the pressure of the equation of state; the caller's parameters stay as they were (all fits but the
axial ones of second order; volumes other than `V0`). -/
theorem C106_curve_partial {f : Formulation} (hf : HasPlot f) (p : Pars) (hV0 : 0 < p.V0) {V P : List ℝ} (hV : V ≠ [])
    (sigma : Option (List ℝ × List ℝ)) {order : ℕ} {linear : Bool} (h : ¬ (order = 2 ∧ linear = true)) :
    ∃ r, normalize f p V P sigma order linear = .ok (r, p) ∧ r.fCalc.length = V.length ∧
      r.NPcalc.length = V.length ∧ ∀ (i : ℕ) (v : ℝ), V[i]? = some v → 0 < v → v ≠ p.V0 →
        ∃ F, r.fCalc[i]? = some (strain f p.V0 v) ∧ r.NPcalc[i]? = some F ∧
          F * factor f p.V0 v = (eos f p v order linear false).1 := by
  obtain ⟨V_0, rest, rfl⟩ := List.exists_cons_of_ne_nil hV
  simp only [normalize, normPars_id f p h]
  refine ⟨_, rfl, List.length_map .., List.length_map .., fun i v hi hv hne => ⟨normCalc f p v order linear, ?_, ?_, ?_⟩⟩
  · simp only [List.getElem?_map, hi, Option.map_some, normStrain_eq hV0 hv]
  · simp only [List.getElem?_map, hi, Option.map_some]
  · exact normCalc_factor hf hV0 hv hne order linear

/-- C106, data: each datum after the first has its strain with respect to the first volume, and its normalised
pressure times the factor is its pressure. -/
theorem C106_data {f : Formulation} (hf : HasPlot f) (p : Pars) {V_0 : ℝ} (h0 : 0 < V_0) {V P : List ℝ} (P_0 : ℝ)
    (sigma : Option (List ℝ × List ℝ)) (order : ℕ) (linear : Bool) :
    ∃ r p', normalize f p (V_0 :: V) (P_0 :: P) sigma order linear = .ok (r, p') ∧
      ∀ (i : ℕ) (v x : ℝ), V[i]? = some v → P[i]? = some x → 0 < v → v ≠ V_0 →
        ∃ F, r.fObs[i]? = some (strain f V_0 v) ∧ r.NPobs[i]? = some F ∧ F * factor f V_0 v = x := by
  refine ⟨_, _, rfl, fun i v x hi hx hv hne => ⟨normObs f V_0 v x, ?_, ?_, ?_⟩⟩
  · simp only [List.getElem?_map, hi, Option.map_some, normStrain_eq h0 hv]
  · simp only [List.tail_cons, List.getElem?_zipWith, hi, hx]
  · exact normObs_factor hf h0 hv hne x

/-- C106, exact data: if the first datum is the volume at zero pressure and the pressures are those of the
equation of state, the data lie on the curve. -/
theorem C106_exact {f : Formulation} (hf : HasPlot f) (p : Pars) (hV0 : 0 < p.V0) {V P : List ℝ} (P_0 : ℝ)
    (sigma : Option (List ℝ × List ℝ)) {order : ℕ} {linear : Bool} (h : ¬ (order = 2 ∧ linear = true))
    (hV : ∀ v ∈ V, 0 < v ∧ v ≠ p.V0) (hP : P = V.map fun v => (eos f p v order linear false).1) :
    ∃ r, normalize f p (p.V0 :: V) (P_0 :: P) sigma order linear = .ok (r, p) ∧ r.fObs = r.fCalc.tail ∧
      r.NPobs = r.NPcalc.tail := by
  simp only [normalize, normPars_id f p h]
  refine ⟨_, rfl, rfl, ?_⟩
  simp only [List.map_cons, List.tail_cons, hP]
  rw [List.zipWith_map_right]
  have : ∀ W : List ℝ, (∀ v ∈ W, 0 < v ∧ v ≠ p.V0) →
      List.zipWith (fun a b => normObs f p.V0 a (eos f p b order linear false).1) W W =
        W.map fun v => normCalc f p v order linear := by
    intro W
    induction W with
    | nil => intro _; rfl
    | cons w ws ih =>
      intro hW
      obtain ⟨hw, hne⟩ := hW w (by simp)
      rw [List.zipWith_cons_cons, List.map_cons, ih fun v hv => hW v (by simp [hv])]
      refine congrArg (· :: _) (mul_right_cancel₀ (factor_ne hf hV0 hw hne) ?_)
      rw [normObs_factor hf hV0 hw hne, normCalc_factor hf hV0 hw hne]
  exact this V hV

/-- C106, straight line: for the parameters of a fit of third order or below, the normalised pressure is a
straight line in the strain with the intercept `K0` and the slope `3/2 K0 (K' - 4)` (Birch-Murnaghan) or
`3/2 K0 (K' - 2)` (natural strain); the logarithm is one for Vinet, with slope `3/2 (K' - 1)`. -/
theorem C106_line {f : Formulation} (hf : HasPlot f) {p : Pars} (hK : 0 < p.K0) (hV0 : 0 < p.V0) {order : ℕ}
    (ho : order < 4) (linear : Bool) {V : ℝ} (hV : 0 < V) (hne : V ≠ p.V0) {q : Pars}
    (hq : q = parsAfter f p order linear true) {F : ℝ}
    (hF : F * factor f q.V0 V = (eos f q V order linear false).1) :
    match f with
    | .birchMurnaghan => F = q.K0 + 3 / 2 * q.K0 * (q.Kp - 4) * strain f q.V0 V
    | .naturalStrain => F = q.K0 + 3 / 2 * q.K0 * (q.Kp - 2) * strain f q.V0 V
    | _ => Real.log F = Real.log q.K0 + 3 / 2 * (q.Kp - 1) * strain f q.V0 V := by
  have hq0 : q.V0 = p.V0 := by
    rw [hq]; cases f <;> simp [parsAfter, setKpp, setKp, ho] <;> split <;> (try split) <;> rfl
  have hqK : q.K0 = p.K0 := by
    rw [hq]; cases f <;> simp [parsAfter, setKpp, setKp, ho] <;> split <;> (try split) <;> rfl
  have hqV : 0 < q.V0 := hq0 ▸ hV0
  have hn : V ≠ q.V0 := hq0 ▸ hne
  have hK' : 0 < q.K0 := hqK ▸ hK
  have hfac := factor_ne hf hqV hV hn
  have hx := div_pos hqV hV
  rw [← normCalc_factor hf hqV hV hn] at hF
  have hF' := mul_right_cancel₀ hfac hF
  rcases hf with rfl | rfl | rfl
  · have hz : q.K0 * q.Kpp + (q.Kp - 4) * (q.Kp - 3) + 35 / 9 = 0 := by
      have : q.Kpp = (-1 / q.K0) * ((3 - q.Kp) * (4 - q.Kp) + 35 / 9) := by
        rw [hq]; simp [parsAfter, setKpp, ho]
      rw [this]; field_simp; ring
    simp only
    rw [hF', ← normStrain_eq hqV hV]
    simp only [normCalc]
    rw [bm_factor hqV hV, div_eq_iff hfac, ← bm_factor hqV hV]
    have e : (eos .birchMurnaghan q V order linear false).1 = formula .birchMurnaghan q V := by
      simp [eos, parsAfter, setKpp, setKp]
    rw [e]
    simp only [formula]
    rw [hz]
    simp only [normStrain]
    ring
  · have hz : 1 + q.Kpp * q.K0 + (q.Kp - 2) + (q.Kp - 2) ^ 2 = 0 := by
      have : q.Kpp = (-1 / q.K0) * (1 + (q.Kp - 2) + (q.Kp - 2) ^ 2) := by
        rw [hq]; simp [parsAfter, setKpp, ho]
      rw [this]; field_simp; ring
    simp only
    rw [hF', ← normStrain_eq hqV hV]
    simp only [normCalc]
    rw [ns_factor, div_eq_iff hfac, ← ns_factor]
    have e : (eos .naturalStrain q V order linear false).1 = formula .naturalStrain q V := by
      simp [eos, parsAfter, setKpp, setKp]
    rw [e]
    simp only [formula]
    rw [hz]
    simp only [normStrain]
    ring
  · simp only
    rw [hF', ← normStrain_eq hqV hV]
    simp only [normCalc]
    rw [Real.log_mul hK'.ne' (Real.exp_pos _).ne', Real.log_exp]
    ring

/-- C106, violated: after an axial fit of second order, whose `K'` is 12, 6 or 3, the curve is drawn for another
solid: at every volume but `V0` its normalised pressure times the factor is not the pressure of the fit; and the
caller's `K'` is overwritten. -/
theorem C106_axial_violated {f : Formulation} (hf : HasPlot f) {p : Pars} (hK : 0 < p.K0) (hV0 : 0 < p.V0)
    {V P : List ℝ} (hV : V ≠ []) (sigma : Option (List ℝ × List ℝ)) {q : Pars}
    (hq : q = parsAfter f p 2 true true) :
    ∃ r q', normalize f q V P sigma 2 true = .ok (r, q') ∧ q'.Kp ≠ q.Kp ∧ q'.K0 = q.K0 ∧ q'.V0 = q.V0 ∧
      ∀ (i : ℕ) (v : ℝ), V[i]? = some v → 0 < v → v ≠ p.V0 → ∃ F, r.NPcalc[i]? = some F ∧
        F * factor f q.V0 v ≠ (eos f p v 2 true true).1 := by
  obtain ⟨V_0, rest, rfl⟩ := List.exists_cons_of_ne_nil hV
  have hq0 : q.V0 = p.V0 := by rw [hq]; cases f <;> rfl
  have hqK : q.K0 = p.K0 := by rw [hq]; cases f <;> rfl
  have h0 : (normPars f q 2 true).V0 = q.V0 := by cases f <;> simp [normPars]
  refine ⟨_, _, rfl, ?_, by cases f <;> simp [normPars], h0, fun i v hi hv hne => ?_⟩
  · rw [hq]
    rcases hf with rfl | rfl | rfl <;>
      simp [normPars, parsAfter, setKpp, setKp, impliedKpLinear] <;> norm_num
  refine ⟨normCalc f (normPars f q 2 true) v 2 true, by simp only [List.getElem?_map, hi, Option.map_some], ?_⟩
  have e : (eos f p v 2 true true).1 = (eos f q v 2 true false).1 := by
    rw [hq]
    rcases hf with rfl | rfl | rfl <;> simp [eos, parsAfter, setKpp, setKp, impliedKpLinear]
  have hqV : 0 < q.V0 := hq0 ▸ hV0
  have hn : v ≠ q.V0 := hq0 ▸ hne
  have hfac := factor_ne hf hqV hv hn
  have hqK' : 0 < q.K0 := hqK ▸ hK
  rw [e, ← normCalc_factor hf hqV hv hn 2 true]
  intro hc
  have hc' := mul_right_cancel₀ hfac hc
  -- both as functions of the strain
  have hs : strain f q.V0 v ≠ 0 := by
    intro hs
    rcases hf with rfl | rfl | rfl
    · apply hfac
      rw [← bm_factor hqV hv, normStrain_eq hqV hv, hs]; simp
    · apply hfac
      rw [← ns_factor, normStrain_eq hqV hv, hs]; simp
    · have h1 := cuberoot_ne hqV hv hn
      rw [← normStrain_eq hqV hv, vinet_root hqV hv, sub_eq_zero, eq_comm, inv_eq_one] at hs
      exact h1 hs
  have l1 := C106_line hf hK hV0 (by norm_num : 2 < 4) true hv hne hq
    (normCalc_factor hf hqV hv hn 2 true)
  rcases hf with rfl | rfl | rfl
  · have h2 : normPars .birchMurnaghan q 2 true = parsAfter .birchMurnaghan q 2 false true := by
      simp [normPars, parsAfter, setKpp, setKp, impliedKp]
    have l2 := C106_line (.inl rfl) hqK' hqV (by norm_num : 2 < 4) false hv hn h2 (F := normCalc .birchMurnaghan (normPars .birchMurnaghan q 2 true) v 2 true)
      (by
        rw [← normCalc_factor (.inl rfl) (by rw [h0]; exact hqV) hv (by rw [h0]; exact hn) 2 false]
        simp [normCalc, eos, parsAfter, setKpp, setKp])
    simp only at l1 l2
    rw [l1, l2, h0] at hc'
    have k1 : (normPars .birchMurnaghan q 2 true).K0 = q.K0 := rfl
    have k2 : (normPars .birchMurnaghan q 2 true).Kp = 4 := rfl
    have k3 : q.Kp = 12 := by rw [hq]; rfl
    rw [k1, k2, k3] at hc'
    exact hs (mul_left_cancel₀ hqK'.ne' (by linarith : q.K0 * strain .birchMurnaghan q.V0 v = q.K0 * 0))
  · have h2 : normPars .naturalStrain q 2 true = parsAfter .naturalStrain q 2 false true := by
      simp [normPars, parsAfter, setKpp, setKp, impliedKp]
    have l2 := C106_line (.inr (.inl rfl)) hqK' hqV (by norm_num : 2 < 4) false hv hn h2 (F := normCalc .naturalStrain (normPars .naturalStrain q 2 true) v 2 true)
      (by
        rw [← normCalc_factor (.inr (.inl rfl)) (by rw [h0]; exact hqV) hv (by rw [h0]; exact hn) 2 false]
        simp [normCalc, eos, parsAfter, setKpp, setKp])
    simp only at l1 l2
    rw [l1, l2, h0] at hc'
    have k1 : (normPars .naturalStrain q 2 true).K0 = q.K0 := rfl
    have k2 : (normPars .naturalStrain q 2 true).Kp = 2 := rfl
    have k3 : q.Kp = 6 := by rw [hq]; rfl
    rw [k1, k2, k3] at hc'
    exact hs (mul_left_cancel₀ hqK'.ne' (by linarith : q.K0 * strain .naturalStrain q.V0 v = q.K0 * 0))
  · simp only [normCalc, normStrain_eq hqV hv, h0] at hc'
    have k1 : (normPars .vinet q 2 true).K0 = q.K0 := rfl
    have k2 : (normPars .vinet q 2 true).Kp = 2 := rfl
    have k3 : q.Kp = 3 := by rw [hq]; rfl
    rw [k1, k2, k3] at hc'
    have := Real.exp_injective (mul_left_cancel₀ hqK'.ne' hc')
    exact hs (by linarith)

theorem deriv_strain {f : Formulation} (hf : HasPlot f) {x : ℝ} (hx : 0 < x) :
    deriv (strain f 1) x = match f with
      | .birchMurnaghan => -(1 / 3 * x ^ (-(5:ℝ) / 3))
      | .naturalStrain => -(1 / 3 * x⁻¹)
      | _ => -(1 / 3 * x ^ (-(2:ℝ) / 3)) := by
  rcases hf with rfl | rfl | rfl
  · have e : strain .birchMurnaghan 1 =ᶠ[nhds x] fun y => (y ^ (-(2:ℝ) / 3) - 1) / 2 := by
      filter_upwards [lt_mem_nhds hx] with y hy
      simp only [strain]
      rw [one_div, Real.inv_rpow hy.le, show (-(2:ℝ) / 3) = -(2 / 3) by norm_num, Real.rpow_neg hy.le]
    rw [e.deriv_eq]
    have h : HasDerivAt (fun y : ℝ => (y ^ (-(2:ℝ) / 3) - 1) / 2) _ x :=
      ((Real.hasDerivAt_rpow_const (p := -(2:ℝ) / 3) (.inl hx.ne')).sub_const 1).div_const 2
    rw [h.deriv]
    norm_num
    ring
  · have h : HasDerivAt (strain .naturalStrain 1) (-x⁻¹ / 3) x :=
      ((Real.hasDerivAt_log hx.ne').const_sub (Real.log 1)).div_const 3
    rw [h.deriv]
    ring
  · have e : strain .vinet 1 = fun y => 1 - y ^ ((1:ℝ) / 3) := by funext y; simp [strain]
    rw [e]
    have h : HasDerivAt (fun y : ℝ => 1 - y ^ ((1:ℝ) / 3)) _ x :=
      (Real.hasDerivAt_rpow_const (p := (1:ℝ) / 3) (.inl hx.ne')).const_sub 1
    rw [h.deriv]
    norm_num

/-- C106, violated: the errors of the strains are not those of first-order propagation.  They are those errors
divided by `V / V_0`, so they are too large for every compressed volume, for all errors of the volumes. -/
theorem C106_errors_violated {f : Formulation} (hf : HasPlot f) (p : Pars) {V_0 s_0 v s : ℝ} (h0 : 0 < V_0)
    (hv : 0 < v) (hlt : v < V_0) (hs0 : 0 ≤ s_0) (hs : 0 < s) {V P sv sp : List ℝ} (P_0 e_0 : ℝ) (order : ℕ)
    (linear : Bool) :
    ∃ r p' e, normalize f p (V_0 :: V) (P_0 :: P) (some (s_0 :: sv, e_0 :: sp)) order linear = .ok (r, p') ∧
      |deriv (strain f 1) (v / V_0)| * ratioError V_0 s_0 v s = e * (v / V_0) ∧
      |deriv (strain f 1) (v / V_0)| * ratioError V_0 s_0 v s < e ∧
      ∀ i : ℕ, V[i]? = some v → sv[i]? = some s → r.sigf[i]? = some e := by
  have hx : 0 < v / V_0 := div_pos hv h0
  have hr : ratioError V_0 s_0 v s = sigEta V_0 s_0 v s * (v / V_0) := by
    rw [ratioError, sigEta]; field_simp
  have hse : 0 < sigEta V_0 s_0 v s := by
    have : 0 ≤ s_0 / V_0 := by positivity
    have : 0 < s / v := by positivity
    rw [sigEta]; linarith
  have he : |deriv (strain f 1) (v / V_0)| * sigEta V_0 s_0 v s = sigStrain f V_0 s_0 v s := by
    have h1 := Real.rpow_pos_of_pos hx (-(5:ℝ) / 3)
    have h2 := Real.rpow_pos_of_pos hx (-(2:ℝ) / 3)
    rw [deriv_strain hf hx]
    rcases hf with rfl | rfl | rfl
    · simp only [sigStrain]; rw [abs_neg, abs_of_pos (by positivity)]
    · simp only [sigStrain]; rw [abs_neg, abs_of_pos (by positivity)]
    · simp only [sigStrain]; rw [abs_neg, abs_of_pos (by positivity)]
  have hpos : 0 < |deriv (strain f 1) (v / V_0)| := by
    have h1 := Real.rpow_pos_of_pos hx (-(5:ℝ) / 3)
    have h2 := Real.rpow_pos_of_pos hx (-(2:ℝ) / 3)
    rw [deriv_strain hf hx]
    rcases hf with rfl | rfl | rfl <;> simp only [abs_neg] <;> positivity
  refine ⟨_, _, sigStrain f V_0 s_0 v s, rfl, ?_, ?_, fun i hi hj => ?_⟩
  · rw [hr, ← mul_assoc, he]
  · rw [hr, ← mul_assoc, he]
    have : 0 < sigStrain f V_0 s_0 v s := he ▸ mul_pos hpos hse
    have h1 : v / V_0 < 1 := (div_lt_one h0).2 hlt
    nlinarith
  · simp only [List.headD_cons, List.tail_cons, List.getElem?_zipWith, hi, hj]

/-- C106: there is no f-F plot for Murnaghan and Tait; the arrays are zeros. -/
theorem C106_none {f : Formulation} (hf : f = .murnaghan ∨ f = .tait) (p : Pars) (V_0 P_0 : ℝ) {V P : List ℝ}
    (hl : P.length = V.length) (order : ℕ) (linear : Bool) :
    ∃ r, normalize f p (V_0 :: V) (P_0 :: P) none order linear = .ok (r, p) ∧
      r.fCalc = List.replicate (V.length + 1) 0 ∧ r.NPcalc = List.replicate (V.length + 1) 0 ∧
      r.fObs = List.replicate V.length 0 ∧ r.NPobs = List.replicate V.length 0 := by
  have hp : normPars f p order linear = p := by
    rcases hf with rfl | rfl <;> simp [normPars]
  have hc : ∀ W : List ℝ, W.map (fun _ => (0:ℝ)) = List.replicate W.length 0 := fun W => by simp
  have hz : ∀ W Z : List ℝ, Z.length = W.length →
      List.zipWith (fun _ _ => (0:ℝ)) W Z = List.replicate W.length 0 := by
    intro W
    induction W with
    | nil => intro Z _; rfl
    | cons w ws ih =>
      intro Z h
      cases Z with
      | nil => simp at h
      | cons z zs => simp only [List.zipWith_cons_cons, List.length_cons, List.replicate_succ, ih zs (by simpa using h)]
  have h1 : ∀ a, normStrain f a = fun _ => 0 := by rcases hf with rfl | rfl <;> intro a <;> rfl
  have h2 : (fun v => normCalc f p v order linear) = fun _ => 0 := by rcases hf with rfl | rfl <;> rfl
  have h3 : normObs f V_0 = fun _ _ => 0 := by rcases hf with rfl | rfl <;> rfl
  simp only [normalize, hp, h1, h2, h3]
  exact ⟨_, rfl, hc (V_0 :: V), hc (V_0 :: V), hc V, hz V P hl⟩

/-- A solid and data that meet the hypotheses. -/
example : ∃ r, normalize .birchMurnaghan ⟨100, 4, -35 / 900, 70⟩ [70, 65, 60]
    (0 :: [65, 60].map fun v => (eos .birchMurnaghan ⟨100, 4, -35 / 900, 70⟩ v 3 false false).1) none 3 false =
      .ok (r, ⟨100, 4, -35 / 900, 70⟩) ∧ r.fObs = r.fCalc.tail ∧ r.NPobs = r.NPcalc.tail :=
  C106_exact (.inl rfl) ⟨100, 4, -35 / 900, 70⟩ (by norm_num) 0 none (by simp)
    (fun v hv => by
      rcases (by simpa using hv : v = 65 ∨ v = 60) with rfl | rfl <;> norm_num) rfl

end Verif.EoS
