/- Derivatives along a curve written in the coordinate `t = log (V / V0)`. -/
import Mathlib.Analysis.SpecialFunctions.Log.Deriv
import Mathlib.Analysis.SpecialFunctions.Pow.Deriv
import Mathlib.Analysis.SpecialFunctions.ExpDeriv
import Mathlib.Analysis.Calculus.Deriv.Pow
import Verif.EoS.Model
import Verif.EoS.Spec

namespace Verif.EoS
open Verif.EoS.Spec
open Filter (Eventually)
open Topology

theorem hasDerivAt_logcoord {V0 V : ℝ} (hV0 : 0 < V0) (hV : 0 < V) :
    HasDerivAt (fun V => Real.log (V / V0)) (1 / V) V := by
  have h : HasDerivAt (fun V => Real.log (V / V0)) ((1 / V0) / (V / V0)) V :=
    ((hasDerivAt_id V).div_const V0).log (by positivity)
  refine h.congr_deriv ?_
  field_simp

theorem tendsto_logcoord {V0 : ℝ} (hV0 : 0 < V0) :
    Filter.Tendsto (fun V => Real.log (V / V0)) (𝓝 V0) (𝓝 0) := by
  have := (hasDerivAt_logcoord hV0 hV0).continuousAt.tendsto
  simpa [div_self hV0.ne'] using this

theorem hasDerivAt_comp_log {G : ℝ → ℝ} {g V V0 : ℝ} (hV0 : 0 < V0) (hV : 0 < V)
    (h : HasDerivAt G g (Real.log (V / V0))) :
    HasDerivAt (fun V => G (Real.log (V / V0))) (g / V) V := by
  have := h.comp V (hasDerivAt_logcoord hV0 hV)
  refine this.congr_deriv ?_
  ring

/-- Values of `K`, `K'` and `K''` at `V0` from the derivatives of `G(t) = P(V0 exp t)` at 0. -/
theorem log_coordinates {P G G1 G2 : ℝ → ℝ} {g3 V0 : ℝ} (hV0 : 0 < V0)
    (hP : ∀ᶠ V in 𝓝 V0, P V = G (Real.log (V / V0)))
    (h1 : ∀ᶠ t in 𝓝 (0:ℝ), HasDerivAt G (G1 t) t) (h2 : ∀ᶠ t in 𝓝 (0:ℝ), HasDerivAt G1 (G2 t) t)
    (h3 : HasDerivAt G2 g3 0) (hne : G1 0 ≠ 0) :
    P V0 = G 0 ∧ DifferentiableAt ℝ P V0 ∧ bulk P V0 = -G1 0 ∧
    DifferentiableAt ℝ (bulk P) V0 ∧ bulkPrime P V0 = -G2 0 / G1 0 ∧
    DifferentiableAt ℝ (bulkPrime P) V0 ∧
    bulkSecond P V0 = -(g3 * G1 0 - G2 0 ^ 2) / G1 0 ^ 3 := by
  have hlog0 : Real.log (V0 / V0) = 0 := by rw [div_self hV0.ne', Real.log_one]
  have hpos : ∀ᶠ V in 𝓝 V0, 0 < V := lt_mem_nhds hV0
  have h1' := (tendsto_logcoord hV0).eventually h1
  have h2' := (tendsto_logcoord hV0).eventually h2
  have hc1 : ContinuousAt G1 0 := h2.self_of_nhds.continuousAt
  have hne' : ∀ᶠ V in 𝓝 V0, G1 (Real.log (V / V0)) ≠ 0 :=
    (tendsto_logcoord hV0).eventually (hc1.eventually_ne hne)
  have hd : ∀ᶠ V in 𝓝 V0, HasDerivAt P (G1 (Real.log (V / V0)) / V) V := by
    filter_upwards [hP.eventually_nhds, h1', hpos] with V hV hg hp
    exact (hasDerivAt_comp_log hV0 hp hg).congr_of_eventuallyEq hV
  have hb : ∀ᶠ V in 𝓝 V0, bulk P V = -G1 (Real.log (V / V0)) := by
    filter_upwards [hd, hpos] with V hV hp
    rw [bulk, hV.deriv]
    field_simp
  have hbd : ∀ᶠ V in 𝓝 V0, HasDerivAt (bulk P) (-(G2 (Real.log (V / V0)) / V)) V := by
    filter_upwards [hb.eventually_nhds, h2', hpos] with V hV hg hp
    exact (hasDerivAt_comp_log hV0 hp hg).neg.congr_of_eventuallyEq hV
  have hk : ∀ᶠ V in 𝓝 V0, bulkPrime P V =
      (fun t => -G2 t / G1 t) (Real.log (V / V0)) := by
    filter_upwards [hd, hbd, hpos, hne'] with V hV hbV hp hn
    rw [bulkPrime, dP, hV.deriv, hbV.deriv]
    field_simp
  have hq : HasDerivAt (fun t => -G2 t / G1 t) ((-g3 * G1 0 - -G2 0 * G2 0) / G1 0 ^ 2) 0 :=
    h3.neg.div h2.self_of_nhds hne
  have hq' : HasDerivAt (fun t => -G2 t / G1 t) ((-g3 * G1 0 - -G2 0 * G2 0) / G1 0 ^ 2)
      (Real.log (V0 / V0)) := by rw [hlog0]; exact hq
  have hkd : HasDerivAt (bulkPrime P) (((-g3 * G1 0 - -G2 0 * G2 0) / G1 0 ^ 2) / V0) V0 :=
    (hasDerivAt_comp_log hV0 hV0 hq').congr_of_eventuallyEq hk
  have e1 := hd.self_of_nhds
  have e2 := hbd.self_of_nhds
  rw [hlog0] at e1 e2
  refine ⟨?_, e1.differentiableAt, ?_, e2.differentiableAt, ?_, hkd.differentiableAt, ?_⟩
  · rw [hP.self_of_nhds, hlog0]
  · rw [hb.self_of_nhds, hlog0]
  · rw [hk.self_of_nhds, hlog0]
  · rw [bulkSecond, dP, hkd.deriv, e1.deriv]
    field_simp
    ring

/-- Powers of `V0/V` and `V/V0` in the coordinate `t`. -/
theorem ratio_exp {V0 V : ℝ} (hV0 : 0 < V0) (hV : 0 < V) :
    V / V0 = Real.exp (Real.log (V / V0)) ∧ V0 / V = Real.exp (-Real.log (V / V0)) := by
  have h : 0 < V / V0 := by positivity
  refine ⟨(Real.exp_log h).symm, ?_⟩
  rw [Real.exp_neg, Real.exp_log h, inv_div]

theorem rpow_ratio {V0 V : ℝ} (hV0 : 0 < V0) (hV : 0 < V) (a : ℝ) :
    (V / V0) ^ a = Real.exp (a * Real.log (V / V0)) ∧
    (V0 / V) ^ a = Real.exp (-a * Real.log (V / V0)) := by
  have h : 0 < V / V0 := by positivity
  have h' : 0 < V0 / V := by positivity
  constructor
  · rw [Real.rpow_def_of_pos h, mul_comm]
  · rw [Real.rpow_def_of_pos h', ← Real.log_inv_div hV0 hV]
    ring_nf
where
  Real.log_inv_div {V0 V : ℝ} (hV0 : 0 < V0) (hV : 0 < V) :
      -Real.log (V / V0) = Real.log (V0 / V) := by
    rw [← Real.log_inv, inv_div]

end Verif.EoS
