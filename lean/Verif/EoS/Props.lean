/- Properties C23-C27: equations of state. -/
import Verif.EoS.Energy

namespace Verif.EoS
open Verif.EoS.Spec
open Filter (Eventually)
open Topology

theorem parsAfter_K0 (f : Formulation) (p : Pars) (order : ℕ) (linear dofit : Bool) :
    (parsAfter f p order linear dofit).K0 = p.K0 ∧ (parsAfter f p order linear dofit).V0 = p.V0 := by
  cases f <;> cases linear <;> cases dofit <;> simp only [parsAfter, setKpp, setKp] <;>
    split_ifs <;> simp

/-- All derivative claims at once, with the true `K''` of the curve. -/
theorem meaning (f : Formulation) (q : Pars) (hV0 : 0 < q.V0) (hK0 : 0 < q.K0) (hr : Regular f q) :
    ∃ Kpp, Meaning (formula f q) q.K0 q.Kp Kpp q.V0 ∧
      (f = .murnaghan → Kpp = 0) ∧
      (f = .vinet → Kpp = -1 / q.K0 * ((q.Kp / 2) ^ 2 + q.Kp / 2 - 19 / 36)) ∧
      (f ≠ .murnaghan → f ≠ .vinet → Kpp = q.Kpp) := by
  cases f with
  | murnaghan => exact ⟨_, curve_murnaghan q hV0 hK0.ne' hr, by simp, by simp, by simp⟩
  | birchMurnaghan => exact ⟨_, curve_bm q hV0 hK0.ne', by simp, by simp, by simp⟩
  | naturalStrain => exact ⟨_, curve_ns q hV0 hK0.ne', by simp, by simp, by simp⟩
  | vinet => exact ⟨_, curve_vinet q hV0 hK0.ne', by simp, by simp, by simp⟩
  | tait => exact ⟨_, curve_tait q hV0 hK0.ne' hr.1 hr.2.1 hr.2.2, by simp, by simp, by simp⟩

/-- **C23.** For every formulation, order, kind of data and mode of call: with `[K0, K', K'', V0]`
the parameter array after the call, the pressure curve vanishes at `V0`, its bulk modulus
`-V dP/dV` there is `K0` and the pressure derivative of its bulk modulus there is `K'`.  `K0` and
`V0` are the supplied ones. -/
theorem C23_parameters (f : Formulation) (p : Pars) (order : ℕ) (linear dofit : Bool)
    (hV0 : 0 < p.V0) (hK0 : 0 < p.K0) (hr : Regular f (eos f p p.V0 order linear dofit).2) :
    let P := fun V => (eos f p V order linear dofit).1
    let q := (eos f p p.V0 order linear dofit).2
    P p.V0 = 0 ∧ DifferentiableAt ℝ P p.V0 ∧ bulk P p.V0 = p.K0 ∧
      DifferentiableAt ℝ (bulk P) p.V0 ∧ bulkPrime P p.V0 = q.Kp ∧ q.K0 = p.K0 ∧ q.V0 = p.V0 := by
  obtain ⟨h1, h2⟩ := parsAfter_K0 f p order linear dofit
  obtain ⟨_, m, _⟩ := meaning f (parsAfter f p order linear dofit) (by rwa [h2]) (by rwa [h1]) hr
  have z := m.zero; have d := m.diff; have b := m.bulk; have dk := m.diffK; have k := m.prime
  rw [h2] at z d b dk k
  rw [h1] at b
  exact ⟨z, d, b, dk, k, h1, h2⟩

/-- **C23 (which K').** A call that is not a second-order fit keeps the supplied `K'`; a
second-order fit uses the conventional value of its formulation, three times it for axial data. -/
theorem C23_which_Kp (f : Formulation) (p : Pars) (V : ℝ) (order : ℕ) (linear dofit : Bool) :
    (eos f p V order linear dofit).2.Kp =
      if dofit = true ∧ order = 2 then secondOrderKp f linear p.Kp else p.Kp := by
  have h : (eos f p V order linear dofit).2.Kp = (setKp f p order linear dofit).Kp := by
    cases f <;> simp only [eos, parsAfter, setKpp] <;> (try split_ifs) <;> rfl
  rw [h]
  cases f <;> cases linear <;> cases dofit <;>
    simp [setKp, secondOrderKp, impliedKp, impliedKpLinear] <;> split_ifs <;> norm_num

/-- **C23 (truncation).** A second-order volumetric fit uses only the first term of the strain
expansion, and a third-order one (volumetric or axial) only the first two. -/
theorem C23_truncation (p : Pars) (V : ℝ) (linear : Bool) (hK0 : p.K0 ≠ 0) :
    let f := ((p.V0 / V) ^ ((2:ℝ) / 3) - 1) / 2
    let n := Real.log (p.V0 / V) / 3
    (eos .birchMurnaghan p V 2 false true).1 = 3 * p.K0 * f * (1 + 2 * f) ^ ((5:ℝ) / 2) ∧
    (eos .birchMurnaghan p V 3 linear true).1 =
      3 * p.K0 * f * (1 + 2 * f) ^ ((5:ℝ) / 2) * (1 + 3 / 2 * (p.Kp - 4) * f) ∧
    (eos .naturalStrain p V 2 false true).1 = 3 * p.K0 * (p.V0 / V) * n *
      (1 + 3 / 2 * (2 - 2) * n) ∧
    (eos .naturalStrain p V 3 linear true).1 = 3 * p.K0 * (p.V0 / V) * n *
      (1 + 3 / 2 * (p.Kp - 2) * n) ∧
    (eos .vinet p V 2 false true).1 = 3 * p.K0 * (1 - (V / p.V0) ^ ((1:ℝ) / 3)) /
      ((V / p.V0) ^ ((1:ℝ) / 3)) ^ 2 := by
  have e1 : (2.5:ℝ) = 5 / 2 := by norm_num
  have e2 : ((p.V0 / V) ^ ((2:ℝ) / 3) - 1) / 2 = 0.5 * ((p.V0 / V) ^ ((2:ℝ) / 3) - 1) := by ring
  have e3 : ∀ z : ℝ, 1 - (1 - z) = z := fun z => by ring
  refine ⟨?_, ?_, ?_, ?_, ?_⟩
  · simp [eos, parsAfter, setKpp, setKp, impliedKp, formula, e1, e2]
    have : p.K0 * (-1 / p.K0 * (35 / 9)) + 35 / 9 = 0 := by field_simp; ring
    rw [this]; ring
  · simp [eos, parsAfter, setKpp, setKp, formula, e1, e2]
    left; field_simp; ring
  · simp [eos, parsAfter, setKpp, setKp, impliedKp, formula]
    field_simp; ring
  · simp [eos, parsAfter, setKpp, setKp, formula]
    field_simp; ring
  · simp [eos, parsAfter, setKpp, setKp, impliedKp, formula, e3]
    ring

/-- **C24, proved part.** For Murnaghan, Birch-Murnaghan, natural strain and Tait curves, whatever
the order and mode of call, `K''` in the parameter array after the call is the second pressure
derivative of the bulk modulus at `V0`.  Missing: Vinet (see `C24_vinet_violated`). -/
theorem C24_second_derivative_partial (f : Formulation) (hf : f ≠ .vinet) (p : Pars) (order : ℕ)
    (linear dofit : Bool) (hV0 : 0 < p.V0) (hK0 : 0 < p.K0)
    (hr : Regular f (eos f p p.V0 order linear dofit).2) :
    let P := fun V => (eos f p V order linear dofit).1
    DifferentiableAt ℝ (bulkPrime P) p.V0 ∧
      bulkSecond P p.V0 = (eos f p p.V0 order linear dofit).2.Kpp := by
  obtain ⟨h1, h2⟩ := parsAfter_K0 f p order linear dofit
  obtain ⟨Kpp, m, a, _, c⟩ :=
    meaning f (parsAfter f p order linear dofit) (by rwa [h2]) (by rwa [h1]) hr
  have s := m.second; have d := m.diffKp
  rw [h2] at s d
  refine ⟨d, ?_⟩
  refine Eq.trans s ?_
  by_cases hm : f = .murnaghan
  · subst hm
    rw [a rfl]; rfl
  · exact c hm hf

/-- **C24 fails for Vinet.** The `K''` that a Vinet call stores is never the second derivative of
its curve: the constant is 19/46 in the code and 19/36 for the curve. -/
theorem C24_vinet_violated (p : Pars) (order : ℕ) (linear dofit : Bool) (hV0 : 0 < p.V0)
    (hK0 : 0 < p.K0) :
    let P := fun V => (eos .vinet p V order linear dofit).1
    bulkSecond P p.V0 ≠ (eos .vinet p p.V0 order linear dofit).2.Kpp ∧
      bulkSecond P p.V0 - (eos .vinet p p.V0 order linear dofit).2.Kpp =
        (19 / 36 - 19 / 46) / p.K0 := by
  obtain ⟨h1, h2⟩ := parsAfter_K0 .vinet p order linear dofit
  obtain ⟨Kpp, m, _, b, _⟩ :=
    meaning .vinet (parsAfter .vinet p order linear dofit) (by rwa [h2]) (by rwa [h1]) trivial
  have s := m.second
  rw [h2, b rfl] at s
  have e : (eos .vinet p p.V0 order linear dofit).2.Kpp =
      (-1 / (parsAfter .vinet p order linear dofit).K0) *
        (((parsAfter .vinet p order linear dofit).Kp / 2) ^ 2 +
          (parsAfter .vinet p order linear dofit).Kp / 2 - 19 / 46) := rfl
  have key : bulkSecond (fun V => (eos .vinet p V order linear dofit).1) p.V0 -
      (eos .vinet p p.V0 order linear dofit).2.Kpp = (19 / 36 - 19 / 46) / p.K0 := by
    refine Eq.trans (congrArg₂ (· - ·) s e) ?_
    rw [h1]
    field_simp
    ring
  refine ⟨fun h => ?_, key⟩
  have h' := key
  rw [h, sub_self] at h'
  have : (19 / 36 - 19 / 46) / p.K0 ≠ 0 := div_ne_zero (by norm_num) hK0.ne'
  exact this h'.symm

/-- The curve whose potential is the E(V) formulation: the third-order P-V formulation with its
implied `K''`. -/
theorem energy_hasDerivAt (f : EForm) (E0 K0 Kp V0 V : ℝ) (hV0 : 0 < V0) (hV : 0 < V)
    (hK0 : 0 < K0) (hr : ERegular f Kp) :
    HasDerivAt (energy f E0 K0 Kp V0)
      (-(eos (pvType f) ⟨K0, Kp, 0, V0⟩ V 3 false true).1) V := by
  cases f with
  | murnaghan =>
    refine (energy_murnaghan E0 K0 Kp V0 V hV0 hV hr.1 hr.2).congr_deriv ?_
    simp [eos, parsAfter, setKpp, setKp, pvType]
  | birchMurnaghan =>
    refine (energy_bm E0 K0 Kp V0 V hV0 hV hK0.ne').congr_deriv ?_
    simp [eos, parsAfter, setKpp, setKp, pvType]
  | pourierTarantola =>
    refine (energy_pt E0 K0 Kp V0 V hV0 hV hK0.ne').congr_deriv ?_
    simp [eos, parsAfter, setKpp, setKp, pvType]
  | vinet =>
    refine (energy_vinet E0 K0 Kp V0 V hV0 hV hr 0).congr_deriv ?_
    simp [eos, parsAfter, setKpp, setKp, pvType, formula]

/-- **C25.** Every E(V) formulation is differentiable with `E(V0) = E0`, `E'(V0) = 0` and
`V0 E''(V0) = K0`; the pressure `-E'` has `K'` as derivative of its bulk modulus. -/
theorem C25_minimum (f : EForm) (E0 K0 Kp V0 : ℝ) (hV0 : 0 < V0) (hK0 : 0 < K0)
    (hr : ERegular f Kp) :
    let E := energy f E0 K0 Kp V0
    E V0 = E0 ∧ deriv E V0 = 0 ∧ DifferentiableAt ℝ (deriv E) V0 ∧ V0 * deriv (deriv E) V0 = K0 ∧
      bulkPrime (fun V => -deriv E V) V0 = Kp ∧ (∀ V, 0 < V → DifferentiableAt ℝ E V) := by
  intro E
  have hd : ∀ V, 0 < V → deriv E V = -(eos (pvType f) ⟨K0, Kp, 0, V0⟩ V 3 false true).1 :=
    fun V hV => (energy_hasDerivAt f E0 K0 Kp V0 V hV0 hV hK0 hr).deriv
  have hreg : Regular (pvType f) (eos (pvType f) ⟨K0, Kp, 0, V0⟩ V0 3 false true).2 := by
    cases f with
    | murnaghan => simpa [Regular, pvType, eos, parsAfter, setKpp, setKp] using hr.1
    | _ => trivial
  obtain ⟨z, d, b, _, k, _, _⟩ := C23_parameters (pvType f) ⟨K0, Kp, 0, V0⟩ 3 false true hV0 hK0 hreg
  set P := fun V => (eos (pvType f) ⟨K0, Kp, 0, V0⟩ V 3 false true).1 with hP
  have hev : deriv E =ᶠ[𝓝 V0] fun V => -P V := by
    filter_upwards [lt_mem_nhds hV0] with V hV using hd V hV
  have hev2 : (fun V => -deriv E V) =ᶠ[𝓝 V0] P := by
    filter_upwards [hev] with V hV
    rw [hV, neg_neg]
  have hder : deriv (deriv E) V0 = -deriv P V0 := by
    rw [hev.deriv_eq]; exact deriv.fun_neg
  refine ⟨?_, ?_, ?_, ?_, ?_, fun V hV =>
    (energy_hasDerivAt f E0 K0 Kp V0 V hV0 hV hK0 hr).differentiableAt⟩
  · cases f with
    | murnaghan =>
      have h1 : Kp - 1 ≠ 0 := sub_ne_zero.2 hr.2
      have := hr.1
      simp only [E, energy, div_self hV0.ne', Real.one_rpow]
      field_simp
      ring
    | birchMurnaghan => simp [E, energy, hV0.ne']
    | pourierTarantola => simp [E, energy, hV0.ne']
    | vinet => simp [E, energy, hV0.ne']; norm_num
  · rw [hd V0 hV0]; simpa using z
  · exact d.neg.congr_of_eventuallyEq hev
  · rw [hder]
    have : -V0 * deriv P V0 = K0 := b
    linarith
  · have hK : bulk (fun V => -deriv E V) =ᶠ[𝓝 V0] bulk P := by
      filter_upwards [hev2.deriv] with V hV
      simp only [bulk, hV]
    have hkp : bulkPrime (fun V => -deriv E V) V0 = bulkPrime P V0 := by
      simp only [bulkPrime, dP, hK.deriv_eq, hev2.deriv_eq]
    rw [hkp, k]
    rw [C23_which_Kp]
    simp

/-- **C26, proved part.** For Murnaghan and Vinet fits the reported pressure is `-dE/dV` at every
volume; for all four formulations it is at `V0`.  Missing: Birch-Murnaghan and
Pourier-Tarantola away from `V0` (see `C26_pressure_violated`). -/
theorem C26_pressure_partial (f : EForm) (E0 K0 Kp V0 V : ℝ) (hV0 : 0 < V0) (hV : 0 < V)
    (hK0 : 0 < K0) (hr : ERegular f Kp) (h : f = .murnaghan ∨ f = .vinet ∨ V = V0) :
    pressure f K0 Kp V0 V = -deriv (energy f E0 K0 Kp V0) V := by
  rw [(energy_hasDerivAt f E0 K0 Kp V0 V hV0 hV hK0 hr).deriv, neg_neg]
  rcases h with h | h | h
  · subst h
    simp [pressure, pvType, eos, parsAfter, setKpp, setKp]
  · subst h
    simp [pressure, pvType, eos, parsAfter, setKpp, setKp]
  · subst h
    cases f <;> simp [pressure, pvType, eos, parsAfter, setKpp, setKp, formula, hV.ne']

/-- **C26 fails for Birch-Murnaghan and Pourier-Tarantola.** At every volume other than `V0` the
reported pressure differs from `-dE/dV` of the fit: too high under compression and too low under
expansion. -/
theorem C26_pressure_violated (f : EForm) (hf : f = .birchMurnaghan ∨ f = .pourierTarantola)
    (E0 K0 Kp V0 V : ℝ) (hV0 : 0 < V0) (hV : 0 < V) (hK0 : 0 < K0) :
    (V < V0 → -deriv (energy f E0 K0 Kp V0) V < pressure f K0 Kp V0 V) ∧
      (V0 < V → pressure f K0 Kp V0 V < -deriv (energy f E0 K0 Kp V0) V) := by
  have hr : ERegular f Kp := by rcases hf with h | h <;> subst h <;> trivial
  rw [(energy_hasDerivAt f E0 K0 Kp V0 V hV0 hV hK0 hr).deriv, neg_neg]
  have h1 : V < V0 → 1 < V0 / V := fun h => by rwa [lt_div_iff₀ hV, one_mul]
  have h2 : V0 < V → V0 / V < 1 := fun h => by rwa [div_lt_one hV]
  have h0 : 0 < V0 / V := by positivity
  rcases hf with h | h <;> subst h
  · -- the code keeps the quadratic strain term
    set x := 0.5 * ((V0 / V) ^ ((2:ℝ) / 3) - 1) with hx
    have hc : 0 < (Kp - 4) * (Kp - 3) + 35 / 9 := by nlinarith [sq_nonneg (Kp - 7 / 2)]
    have hpos : 0 < (1 + 2 * x) ^ (2.5:ℝ) := by
      apply Real.rpow_pos_of_pos
      have : 1 + 2 * x = (V0 / V) ^ ((2:ℝ) / 3) := by rw [hx]; ring
      rw [this]
      exact Real.rpow_pos_of_pos h0 _
    have key : pressure .birchMurnaghan K0 Kp V0 V =
        (eos (pvType .birchMurnaghan) ⟨K0, Kp, 0, V0⟩ V 3 false true).1 +
          x ^ 3 * (3 * K0 * (1 + 2 * x) ^ (2.5:ℝ) * (1.5 * ((Kp - 4) * (Kp - 3) + 35 / 9))) := by
      simp [pressure, pvType, eos, parsAfter, setKpp, setKp, formula, ← hx]
      field_simp
      ring
    have hm : 0 < 3 * K0 * (1 + 2 * x) ^ (2.5:ℝ) * (1.5 * ((Kp - 4) * (Kp - 3) + 35 / 9)) := by
      positivity
    rw [key]
    constructor
    · intro h
      have := Real.one_lt_rpow (h1 h) (show (0:ℝ) < 2 / 3 by norm_num)
      have hx0 : 0 < x := by rw [hx]; norm_num; linarith
      have : 0 < x ^ 3 * (3 * K0 * (1 + 2 * x) ^ (2.5:ℝ) *
        (1.5 * ((Kp - 4) * (Kp - 3) + 35 / 9))) := by positivity
      linarith
    · intro h
      have := Real.rpow_lt_one h0.le (h2 h) (show (0:ℝ) < 2 / 3 by norm_num)
      have hx0 : x < 0 := by rw [hx]; norm_num; linarith
      have hx3 : x ^ 3 < 0 := by have := pow_pos (neg_pos.2 hx0) 3; nlinarith
      have := mul_neg_of_neg_of_pos hx3 hm
      linarith
  · set x := 1 / 3 * Real.log (V0 / V) with hx
    have hc : 0 < 1 + (Kp - 2) + (Kp - 2) ^ 2 := by nlinarith [sq_nonneg (Kp - 2 + 1 / 2)]
    have key : pressure .pourierTarantola K0 Kp V0 V =
        (eos (pvType .pourierTarantola) ⟨K0, Kp, 0, V0⟩ V 3 false true).1 +
          x ^ 3 * (3 * K0 * (V0 / V) * (1.5 * (1 + (Kp - 2) + (Kp - 2) ^ 2))) := by
      have e3 : -1 / K0 * (1 + (Kp - 2) + (Kp - 2) ^ 2) * K0 = -(1 + (Kp - 2) + (Kp - 2) ^ 2) := by
        field_simp
      simp only [pressure, pvType, eos, parsAfter, setKpp, setKp, formula]
      simp only [Bool.false_eq_true, if_false, if_true, true_and, false_and,
        show (3:ℕ) < 4 by norm_num, show ¬ (3:ℕ) = 2 by norm_num, e3]
      ring
    have hm : 0 < 3 * K0 * (V0 / V) * (1.5 * (1 + (Kp - 2) + (Kp - 2) ^ 2)) := by positivity
    rw [key]
    constructor
    · intro h
      have := Real.log_pos (h1 h)
      have hx0 : 0 < x := by rw [hx]; positivity
      have : 0 < x ^ 3 * (3 * K0 * (V0 / V) * (1.5 * (1 + (Kp - 2) + (Kp - 2) ^ 2))) := by positivity
      linarith
    · intro h
      have := Real.log_neg h0 (h2 h)
      have hx0 : x < 0 := by rw [hx]; linarith
      have hx3 : x ^ 3 < 0 := by have := pow_pos (neg_pos.2 hx0) 3; nlinarith
      have := mul_neg_of_neg_of_pos hx3 hm
      linarith

theorem formula_V0 (f : Formulation) (q : Pars) (hV0 : 0 < q.V0) (hK0 : 0 < q.K0)
    (hr : Regular f q) : formula f q q.V0 = 0 := by
  obtain ⟨_, m, _⟩ := meaning f q hV0 hK0 hr
  exact m.zero

theorem stiffening_regular (f : Formulation) (q : Pars) (hK0 : 0 < q.K0) (hs : Stiffening f q) :
    Regular f q := by
  cases f with
  | murnaghan => exact (show 0 < q.Kp from hs).ne'
  | tait =>
    obtain ⟨hKp, hKpp, hD⟩ := hs
    have hm : q.K0 * q.Kpp ≤ 0 := mul_nonpos_of_nonneg_of_nonpos hK0.le hKpp
    have hE : 0 < q.Kp ^ 2 + q.Kp - q.K0 * q.Kpp := by have := sq_nonneg q.Kp; linarith
    exact ⟨by linarith, hD.ne', hE.ne'⟩
  | _ => trivial

/-- **C27 (near equilibrium).** For every formulation, order, kind of data and mode of call, and
all parameters with positive `K0` and `V0`, the pressure is strictly decreasing around `V0`:
positive just below and negative just above. -/
theorem C27_near_equilibrium (f : Formulation) (p : Pars) (order : ℕ) (linear dofit : Bool)
    (hV0 : 0 < p.V0) (hK0 : 0 < p.K0) (hr : Regular f (eos f p p.V0 order linear dofit).2) :
    let P := fun V => (eos f p V order linear dofit).1
    ∃ δ > 0, StrictAntiOn P (Set.Ioo (p.V0 - δ) (p.V0 + δ)) ∧
      (∀ V, p.V0 - δ < V → V < p.V0 → 0 < P V) ∧ (∀ V, p.V0 < V → V < p.V0 + δ → P V < 0) := by
  intro P
  obtain ⟨z, d, b, dk, -, -, -⟩ := C23_parameters f p order linear dofit hV0 hK0 hr
  have hev : ∀ᶠ V in 𝓝 p.V0, 0 < bulk P V :=
    dk.continuousAt.eventually (lt_mem_nhds (by rw [b]; exact hK0))
  have hev2 : ∀ᶠ V in 𝓝 p.V0, deriv P V < 0 := by
    filter_upwards [hev, lt_mem_nhds hV0] with V h1 h2
    have h1' : 0 < -V * deriv P V := h1
    by_contra h
    have := mul_nonneg h2.le (not_lt.1 h)
    linarith
  obtain ⟨δ, hδ, hball⟩ := Metric.eventually_nhds_iff.1 hev2
  have hneg : ∀ V ∈ Set.Ioo (p.V0 - δ) (p.V0 + δ), deriv P V < 0 := fun V hV =>
    hball (by rw [Real.dist_eq, abs_lt]; constructor <;> linarith [hV.1, hV.2])
  have hanti : StrictAntiOn P (Set.Ioo (p.V0 - δ) (p.V0 + δ)) := by
    apply strictAntiOn_of_deriv_neg (convex_Ioo _ _)
    · intro V hV
      have : DifferentiableAt ℝ P V := by
        by_contra h
        have := hneg V hV
        rw [deriv_zero_of_not_differentiableAt h] at this
        exact lt_irrefl _ this
      exact this.continuousAt.continuousWithinAt
    · intro V hV
      rw [interior_Ioo] at hV
      exact hneg V hV
  refine ⟨δ, hδ, hanti, fun V h1 h2 => ?_, fun V h1 h2 => ?_⟩
  · have := hanti ⟨h1, by linarith⟩ ⟨by linarith, by linarith⟩ h2
    rwa [show P p.V0 = 0 from z] at this
  · have := hanti ⟨by linarith, by linarith⟩ ⟨by linarith, h2⟩ h1
    rwa [show P p.V0 = 0 from z] at this

/-- **C27 (all compressions).** With non-negative strain coefficients the pressure is positive and
strictly decreasing over every compressed volume, however small. -/
theorem C27_compression (f : Formulation) (p : Pars) (order : ℕ) (linear dofit : Bool)
    (hV0 : 0 < p.V0) (hK0 : 0 < p.K0) (hs : Stiffening f (eos f p p.V0 order linear dofit).2) :
    let P := fun V => (eos f p V order linear dofit).1
    StrictAntiOn P (Set.Ioc 0 p.V0) ∧ ∀ V, 0 < V → V < p.V0 → 0 < P V := by
  intro P
  obtain ⟨h1, h2⟩ := parsAfter_K0 f p order linear dofit
  set q := parsAfter f p order linear dofit with hq
  have hq0 : 0 < q.V0 := by rwa [h2]
  have hk0 : 0 < q.K0 := by rwa [h1]
  have hs' : Stiffening f q := hs
  have key : StrictAntiOn P (Set.Ioc 0 p.V0) := by
    intro V hV W hW h
    have hW' : W ≤ q.V0 := by rw [h2]; exact hW.2
    change formula f q W < formula f q V
    cases f with
    | murnaghan => exact strictAnti_murnaghan q hq0 hk0 hs' hV.1 h
    | birchMurnaghan => exact strictAnti_bm q hq0 hk0 hs' hV.1 h hW'
    | naturalStrain => exact strictAnti_ns q hq0 hk0 hs' hV.1 h hW'
    | vinet => exact strictAnti_vinet q hq0 hk0 hs' hV.1 h hW'
    | tait => exact strictAnti_tait q hq0 hk0 hs' hV.1 h
  refine ⟨key, fun V h h' => ?_⟩
  have := key ⟨h, h'.le⟩ ⟨hV0, le_rfl⟩ h'
  have z : P p.V0 = 0 := by
    have := formula_V0 f q hq0 hk0 (stiffening_regular f q hk0 hs')
    rw [h2] at this
    exact this
  rwa [z] at this

/-- **C27 (all volumes).** Murnaghan and Tait curves decrease at every volume, hence are negative at
every expanded one. -/
theorem C27_all_volumes (f : Formulation) (hf : f = .murnaghan ∨ f = .tait) (p : Pars) (order : ℕ)
    (linear dofit : Bool) (hV0 : 0 < p.V0) (hK0 : 0 < p.K0)
    (hs : Stiffening f (eos f p p.V0 order linear dofit).2) :
    let P := fun V => (eos f p V order linear dofit).1
    StrictAntiOn P (Set.Ioi 0) ∧ ∀ V, p.V0 < V → P V < 0 := by
  intro P
  obtain ⟨h1, h2⟩ := parsAfter_K0 f p order linear dofit
  set q := parsAfter f p order linear dofit with hq
  have hq0 : 0 < q.V0 := by rwa [h2]
  have hk0 : 0 < q.K0 := by rwa [h1]
  have hs' : Stiffening f q := hs
  have key : StrictAntiOn P (Set.Ioi 0) := by
    intro V hV W hW h
    change formula f q W < formula f q V
    rcases hf with hf | hf <;> subst hf
    · exact strictAnti_murnaghan q hq0 hk0 hs' hV h
    · exact strictAnti_tait q hq0 hk0 hs' hV h
  refine ⟨key, fun V h => ?_⟩
  have := key (show p.V0 ∈ Set.Ioi 0 from hV0) (show V ∈ Set.Ioi 0 from hV0.trans h) h
  have z : P p.V0 = 0 := by
    have := formula_V0 f q hq0 hk0 (stiffening_regular f q hk0 hs')
    rw [h2] at this
    exact this
  rwa [z] at this

/-- **C27 (ordinary fits).** Second- and third-order fits meet the hypotheses above as soon as the
`K'` in use is at least the second-order value of the formulation. -/
theorem C27_fits (f : Formulation) (p : Pars) (V : ℝ) (order : ℕ) (linear : Bool) (ho : order < 4)
    (hK0 : 0 < p.K0)
    (hKp : (if f = .murnaghan ∨ f = .tait then 0 < (eos f p V order linear true).2.Kp
      else secondOrderKp f false 0 ≤ (eos f p V order linear true).2.Kp)) :
    Stiffening f (eos f p V order linear true).2 := by
  obtain ⟨h1, -⟩ := parsAfter_K0 f p order linear true
  have e : (eos f p V order linear true).2 = parsAfter f p order linear true := rfl
  rw [e] at hKp ⊢
  have k0 : (setKp f p order linear true).K0 = p.K0 := by
    simp only [setKp]; split_ifs <;> simp
  cases f with
  | murnaghan => simpa [Stiffening] using hKp
  | vinet => simpa [secondOrderKp, Stiffening] using hKp
  | birchMurnaghan =>
    have hq : 4 ≤ (parsAfter .birchMurnaghan p order linear true).Kp := by
      simpa [secondOrderKp] using hKp
    refine ⟨hq, ?_⟩
    simp only [parsAfter, setKpp, ho, and_self, if_true, k0]
    apply le_of_eq
    field_simp
    ring
  | naturalStrain =>
    have hq : 2 ≤ (parsAfter .naturalStrain p order linear true).Kp := by
      simpa [secondOrderKp] using hKp
    refine ⟨hq, ?_⟩
    simp only [parsAfter, setKpp, ho, and_self, if_true, k0]
    apply le_of_eq
    field_simp
    ring
  | tait =>
    have hq : 0 < (parsAfter .tait p order linear true).Kp := by simpa using hKp
    simp only [parsAfter, setKpp, ho, and_self, if_true] at hq ⊢
    refine ⟨hq, ?_, ?_⟩
    · simp only [k0]
      exact (div_neg_of_neg_of_pos (neg_neg_of_pos hq) hK0).le
    · simp only [k0]
      have : p.K0 * (-(setKp .tait p order linear true).Kp / p.K0) =
        -(setKp .tait p order linear true).Kp := by field_simp
      rw [this]; linarith

/-! ### Witnesses: periclase-like parameters meet every hypothesis above -/

noncomputable def periclase : Pars := ⟨160, 4.2, 0, 74.7⟩

example : 0 < periclase.V0 ∧ 0 < periclase.K0 := by constructor <;> norm_num [periclase]

example (f : Formulation) : Regular f (eos f periclase periclase.V0 3 false true).2 :=
  stiffening_regular f _ (by
      have := (parsAfter_K0 f periclase 3 false true).1
      change 0 < (parsAfter f periclase 3 false true).K0
      rw [this]; norm_num [periclase])
    (C27_fits f periclase _ 3 false (by norm_num) (by norm_num [periclase]) (by
      rw [C23_which_Kp]; cases f <;> norm_num [periclase, secondOrderKp]))

example (f : Formulation) : Stiffening f (eos f periclase periclase.V0 3 false true).2 :=
  C27_fits f periclase _ 3 false (by norm_num) (by norm_num [periclase]) (by
    rw [C23_which_Kp]; cases f <;> norm_num [periclase, secondOrderKp])

/-- The code's fourth-order mode, with a K'' of its own. -/
example : Stiffening .birchMurnaghan
    (eos .birchMurnaghan ⟨160, 4.2, -0.02, 74.7⟩ 74.7 4 false true).2 := by
  simp [Stiffening, eos, parsAfter, setKpp, setKp]; norm_num

example (f : EForm) : ERegular f 4.2 := by cases f <;> norm_num [ERegular]

end Verif.EoS
