/-
Property C177: near the reference volume the choice of the equation of state does not matter.
-/
import Mathlib.Analysis.Calculus.MeanValue
import Mathlib.Analysis.Asymptotics.Lemmas
import Verif.EoS.Props

namespace Verif.EoS
open Verif.EoS.Spec
open Topology Asymptotics

/-! ### Lemmas -/

/-- A function whose derivative is small near a point is smaller by one order. -/
theorem littleO_of_deriv {f f' : ℝ → ℝ} {a : ℝ} {n : ℕ} (h : ∀ᶠ x in 𝓝 a, HasDerivAt f (f' x) x)
    (ho : f' =o[𝓝 a] fun x => (x - a) ^ n) : (fun x => f x - f a) =o[𝓝 a] fun x => (x - a) ^ (n + 1) := by
  rw [isLittleO_iff] at ho ⊢
  intro c hc
  obtain ⟨r, hr, hb⟩ := Metric.eventually_nhds_iff_ball.1 (h.and (ho hc))
  refine Metric.eventually_nhds_iff_ball.2 ⟨r, hr, fun x hx => ?_⟩
  have hx' : |x - a| < r := by simpa [Real.dist_eq] using hx
  have hs : ∀ y ∈ segment ℝ a x, |y - a| ≤ |x - a| := by
    intro y hy
    rw [segment_eq_uIcc] at hy
    exact Set.abs_sub_left_of_mem_uIcc hy
  have hin : ∀ y ∈ segment ℝ a x, y ∈ Metric.ball a r := fun y hy => by
    rw [Metric.mem_ball, Real.dist_eq]
    exact (hs y hy).trans_lt hx'
  have key := Convex.norm_image_sub_le_of_norm_hasDerivWithin_le (f := f) (f' := f') (C := c * |x - a| ^ n)
    (s := segment ℝ a x) (fun y hy => (hb y (hin y hy)).1.hasDerivWithinAt) (fun y hy => by
      refine (hb y (hin y hy)).2.trans ?_
      rw [Real.norm_eq_abs, abs_pow]
      exact mul_le_mul_of_nonneg_left (pow_le_pow_left₀ (abs_nonneg _) (hs y hy) n) hc.le)
    (convex_segment a x) (left_mem_segment ℝ a x) (right_mem_segment ℝ a x)
  rw [Real.norm_eq_abs] at key
  rw [Real.norm_eq_abs, Real.norm_eq_abs, abs_pow, pow_succ, ← mul_assoc]
  exact key

/-- The expansion of a curve with given bulk modulus and derivative at `V0`. -/
theorem Meaning.expansion {P : ℝ → ℝ} {K0 Kp Kpp V0 : ℝ} (h : Meaning P K0 Kp Kpp V0) (hV0 : 0 < V0) (hK0 : 0 < K0) :
    (fun V => P V - (K0 * ((V0 - V) / V0) + K0 * (1 + Kp) / 2 * ((V0 - V) / V0) ^ 2)) =o[𝓝 V0] fun V => (V - V0) ^ 2 := by
  have hb : -V0 * deriv P V0 = K0 := h.bulk
  have hd0 : deriv P V0 = -K0 / V0 := by
    field_simp
    linarith
  have hd : DifferentiableAt ℝ (deriv P) V0 := by
    have : DifferentiableAt ℝ (fun V => -(Spec.bulk P V / V)) V0 := (h.diffK.div differentiableAt_id hV0.ne').neg
    refine this.congr_of_eventuallyEq ?_
    filter_upwards [lt_mem_nhds hV0] with V hV
    have : V ≠ 0 := ne_of_gt hV
    simp only [Spec.bulk]
    field_simp
  have hne : deriv P V0 ≠ 0 := by
    rw [hd0]
    exact div_ne_zero (neg_ne_zero.2 hK0.ne') hV0.ne'
  have hnear : ∀ᶠ V in 𝓝 V0, HasDerivAt P (deriv P V) V := by
    filter_upwards [hd.continuousAt.eventually_ne hne] with V hV
    exact (differentiableAt_of_deriv_ne_zero hV).hasDerivAt
  have hd2 : deriv (deriv P) V0 = K0 * (1 + Kp) / V0 ^ 2 := by
    have e : HasDerivAt (Spec.bulk P) (-1 * deriv P V0 + -V0 * deriv (deriv P) V0) V0 := by
      exact (hasDerivAt_neg' V0).fun_mul hd.hasDerivAt
    have hp : deriv (Spec.bulk P) V0 / deriv P V0 = Kp := h.prime
    rw [e.deriv, hd0] at hp
    field_simp at hp ⊢
    linarith
  have ho : (fun V => deriv P V - (-K0 / V0 + K0 * (1 + Kp) / V0 ^ 2 * (V - V0))) =o[𝓝 V0] fun V => (V - V0) ^ 1 := by
    have := hd.hasDerivAt.isLittleO
    rw [hd0, hd2] at this
    refine (this.congr_left fun V => ?_).congr_right fun V => (pow_one _).symm
    simp only [smul_eq_mul]
    ring
  have hder : ∀ᶠ V in 𝓝 V0, HasDerivAt (fun V => P V - (K0 * ((V0 - V) / V0) + K0 * (1 + Kp) / 2 * ((V0 - V) / V0) ^ 2))
      (deriv P V - (-K0 / V0 + K0 * (1 + Kp) / V0 ^ 2 * (V - V0))) V := by
    filter_upwards [hnear] with V hV
    have h1 : HasDerivAt (fun V => (V0 - V) / V0) (-1 / V0) V := ((hasDerivAt_id V).const_sub V0).div_const V0
    have h2 : HasDerivAt (fun V => ((V0 - V) / V0) ^ 2) (2 * ((V0 - V) / V0) * (-1 / V0)) V := by
      have := h1.fun_pow 2
      simpa using this
    refine (hV.fun_sub ((h1.const_mul K0).fun_add (h2.const_mul (K0 * (1 + Kp) / 2)))).congr_deriv ?_
    generalize deriv P V = D
    field_simp
    ring
  have := littleO_of_deriv hder ho
  simpa [h.zero] using this

/-! ### C177 -/

/-- C177: for every formulation, order, kind of data and mode of call, the pressure is
`K0 x + K0 (1 + K') x² / 2` with the compression `x = (V0 - V) / V0`, up to terms of higher order than the second. -/
theorem C177_expansion (f : Formulation) (p : Pars) (order : ℕ) (linear dofit : Bool) (hV0 : 0 < p.V0) (hK0 : 0 < p.K0)
    (hr : Regular f (eos f p p.V0 order linear dofit).2) :
    (fun V => (eos f p V order linear dofit).1 - (p.K0 * ((p.V0 - V) / p.V0) +
      p.K0 * (1 + (eos f p p.V0 order linear dofit).2.Kp) / 2 * ((p.V0 - V) / p.V0) ^ 2)) =o[𝓝 p.V0] fun V => (V - p.V0) ^ 2 := by
  obtain ⟨h1, h2⟩ := parsAfter_K0 f p order linear dofit
  obtain ⟨_, m, _⟩ := meaning f (parsAfter f p order linear dofit) (by rwa [h2]) (by rwa [h1]) hr
  have := m.expansion (by rwa [h2]) (by rwa [h1])
  rw [h1, h2] at this
  exact this

/-- C177: two formulations, of whatever orders, that use the same `K'` give the same pressure up to terms of higher order than the
second in the compression. -/
theorem C177_agree (f g : Formulation) (p p' : Pars) (order order' : ℕ) (linear linear' dofit dofit' : Bool) (hV0 : 0 < p.V0)
    (hK0 : 0 < p.K0) (hV : p'.V0 = p.V0) (hK : p'.K0 = p.K0)
    (hKp : (eos g p' p'.V0 order' linear' dofit').2.Kp = (eos f p p.V0 order linear dofit).2.Kp)
    (hr : Regular f (eos f p p.V0 order linear dofit).2) (hr' : Regular g (eos g p' p'.V0 order' linear' dofit').2) :
    (fun V => (eos f p V order linear dofit).1 - (eos g p' V order' linear' dofit').1) =o[𝓝 p.V0] fun V => (V - p.V0) ^ 2 := by
  have h1 := C177_expansion f p order linear dofit hV0 hK0 hr
  have h2 := C177_expansion g p' order' linear' dofit' (by rwa [hV]) (by rwa [hK]) hr'
  rw [hKp, hV, hK] at h2
  refine (h1.sub h2).congr_left fun V => ?_
  ring

/-- C177: two formulations of the energy with the same parameters give the same energy up to terms of higher order than the third. -/
theorem C177_energy (f g : EForm) (E0 K0 Kp V0 : ℝ) (hV0 : 0 < V0) (hK0 : 0 < K0) (hf : ERegular f Kp) (hg : ERegular g Kp) :
    (fun V => energy f E0 K0 Kp V0 V - energy g E0 K0 Kp V0 V) =o[𝓝 V0] fun V => (V - V0) ^ 3 := by
  have reg : ∀ f, ERegular f Kp → Regular (pvType f) (eos (pvType f) ⟨K0, Kp, 0, V0⟩ V0 3 false true).2 := by
    intro f hf
    cases f
    · exact hf.1
    all_goals trivial
  have hkp : ∀ f, (eos (pvType f) ⟨K0, Kp, 0, V0⟩ V0 3 false true).2.Kp = Kp := fun f => by
    rw [C23_which_Kp]
    simp
  have hp := C177_agree (pvType g) (pvType f) ⟨K0, Kp, 0, V0⟩ ⟨K0, Kp, 0, V0⟩ 3 3 false false true true hV0 hK0 rfl rfl
    (by rw [hkp, hkp]) (reg g hg) (reg f hf)
  have hd : ∀ᶠ V in 𝓝 V0, HasDerivAt (fun V => energy f E0 K0 Kp V0 V - energy g E0 K0 Kp V0 V)
      ((eos (pvType g) ⟨K0, Kp, 0, V0⟩ V 3 false true).1 - (eos (pvType f) ⟨K0, Kp, 0, V0⟩ V 3 false true).1) V := by
    filter_upwards [lt_mem_nhds hV0] with V hV
    refine ((energy_hasDerivAt f E0 K0 Kp V0 V hV0 hV hK0 hf).sub (energy_hasDerivAt g E0 K0 Kp V0 V hV0 hV hK0 hg)).congr_deriv ?_
    ring
  have := littleO_of_deriv hd hp
  have e1 := (C25_minimum f E0 K0 Kp V0 hV0 hK0 hf).1
  have e2 := (C25_minimum g E0 K0 Kp V0 hV0 hK0 hg).1
  simpa [e1, e2] using this

end Verif.EoS
