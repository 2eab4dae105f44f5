/-
Property C150: the equilibrium found by the equation-of-state minimisation, at every pressure.
-/
import Verif.QHA.Props
import Verif.QHA.EosMinSpec
import Verif.EoS.Identify
import Verif.EoS.Inverse
import Mathlib.Analysis.Calculus.DerivativeTest

namespace Verif.QHA
open Verif.Py Verif.Units Verif.HA Verif.QHA.Spec Verif.StatMech Verif.EoS Verif.EoS.Spec
open scoped Topology

variable {nt np nb nf nv : ℕ} {k : Consts} {ext : Ext} {s : Settings nt np} {x : Input nb nf nv}
  {u : Choice} {r : Results nt np}

/-- The reported volume, bulk modulus and derivative are those of the fit to `F + p V`. -/
theorem eos_reported (hu : u.Of s) (hmin : s.minimization = .eos) {f : EForm} (hf : s.eos = formName f)
    (hrun : run k ext s x = .ok r) {ha : HA.Results nt nv}
    (hha : HA.run k (harmonicSettings s) x.toInput = .ok ha) (i : Fin nt) (j : Fin np) :
    r.VT i j = (fitted ext f x.volume (loaded k u s x (ha.F i) j)).V0 ∧
      r.KT i j * u.p.pascal * u.v.m3 k = (fitted ext f x.volume (loaded k u s x (ha.F i) j)).K0 * u.e.joule k ∧
      r.Kp i j = (fitted ext f x.volume (loaded k u s x (ha.F i) j)).Kp := by
  obtain ⟨G, hG, h1, h2, h3⟩ := C69_eos_parameters hu hmin hrun hha i j
  have hj := (joule_pos k u.e).ne'
  have e : G = loaded k u s x (ha.F i) j := by
    funext n
    rw [loaded]
    field_simp
    linarith [hG n]
  subst e
  rw [hf] at h1 h2 h3
  exact ⟨h1, h2, h3⟩

/-- A run with equation-of-state minimisation goes through. -/
theorem eos_runs (hu : u.Of s) (hk : s.kieffer = false) (hmin : s.minimization = .eos) :
    ∃ r, run k ext s x = .ok r := by
  obtain ⟨ha, hha, -⟩ := harmonic_run hu x (k := k)
  obtain ⟨-, h⟩ := run_cases (ext := ext) hu hk hha
  have hm : ∃ m, minimizeAll k ext s x ha.F = .ok m := by
    exact ⟨_, (seqFin_ok _ _).2 fun i => (seqFin_ok _ _).2 fun j => minimize_eos hu hmin x.volume (ha.F i) (s.pressure j) none⟩
  obtain ⟨m, hm⟩ := hm
  obtain ⟨-, r, hr, -⟩ := h m hm
  exact ⟨r, hr⟩

theorem deriv_unloaded (f : EForm) {q : EPars} (hq : Solid f q) (j : Fin np) {V : ℝ} (hV : 0 < V) :
    deriv (unloaded k u s f q j) V = deriv (energy f q.E0 q.K0 q.Kp q.V0) V * u.e.joule k -
      s.pressure j * u.p.pascal * u.v.m3 k := by
  obtain ⟨-, -, -, -, -, hd⟩ := C25_minimum f q.E0 q.K0 q.Kp q.V0 hq.2.1 hq.1 hq.2.2
  have h1 := ((hd V hV).hasDerivAt.mul_const (u.e.joule k)).sub
    (((hasDerivAt_id V).mul_const (u.v.m3 k)).const_mul (s.pressure j * u.p.pascal))
  rw [one_mul] at h1
  exact h1.deriv

/-- Pressure of the free energy curve of a fit. -/
theorem pressure_unloaded (f : EForm) {q : EPars} (hq : Solid f q) (j : Fin np) {V : ℝ} (hV : 0 < V) :
    pressureOf k u (unloaded k u s f q j) V =
      -deriv (energy f q.E0 q.K0 q.Kp q.V0) V * (u.e.joule k / u.v.m3 k) + s.pressure j * u.p.pascal := by
  have hv := (m3_pos k u.v).ne'
  rw [pressureOf, deriv_unloaded f hq j hV]
  field_simp
  ring

/-- Scaling and shifting the pressure leaves `K' = dK/dP` as it is. -/
theorem bulkPrime_affine {P Q : ℝ → ℝ} {c d V : ℝ} (hc : c ≠ 0) (h : ∀ᶠ v in 𝓝 V, Q v = P v * c + d) :
    bulkPrime Q V = bulkPrime P V := by
  have e1 : ∀ᶠ v in 𝓝 V, deriv Q v = deriv P v * c := by
    filter_upwards [h.eventually_nhds] with v hv
    rw [Filter.EventuallyEq.deriv_eq (f := fun v => P v * c + d) hv, deriv_add_const, deriv_mul_const_field]
  have e2 : ∀ᶠ v in 𝓝 V, bulk Q v = bulk P v * c := by
    filter_upwards [e1] with v hv
    rw [bulk, bulk, hv]; ring
  rw [bulkPrime, dP, bulkPrime, dP, e1.self_of_nhds, Filter.EventuallyEq.deriv_eq (f := fun v => bulk P v * c) e2,
    deriv_mul_const_field, mul_div_mul_right _ _ hc]

/-- The second derivative of the free energy curve of a fit. -/
theorem second_unloaded (f : EForm) {q : EPars} (hq : Solid f q) (j : Fin np) {V : ℝ} (hV : 0 < V) :
    deriv (deriv (unloaded k u s f q j)) V = deriv (deriv (energy f q.E0 q.K0 q.Kp q.V0)) V * u.e.joule k := by
  have e : deriv (unloaded k u s f q j) =ᶠ[𝓝 V] fun V => deriv (energy f q.E0 q.K0 q.Kp q.V0) V * u.e.joule k -
      s.pressure j * u.p.pascal * u.v.m3 k := by
    filter_upwards [lt_mem_nhds hV] with v hv
    exact deriv_unloaded f hq j hv
  rw [e.deriv_eq, deriv_sub_const, deriv_mul_const_field]

/-! ### The fitted curve -/

/-- At every temperature and pressure the reported volume is the equilibrium of the fitted curve: if `F + p V` has
a best fit at all, then along some best fit, less `p V`, the pressure at the reported volume is the one asked for,
the reported bulk modulus is `V d²A/dV²` there, the reported derivative is `dK/dP` there, and `A + p V` has a
minimum there — over all volumes for the Murnaghan and Vinet formulations. -/
theorem C150_equilibrium (hext : BestFits ext) (hu : u.Of s) (hmin : s.minimization = .eos) {f : EForm}
    (hf : s.eos = formName f) (hrun : run k ext s x = .ok r) {ha : HA.Results nt nv}
    (hha : HA.run k (harmonicSettings s) x.toInput = .ok ha) (i : Fin nt) (j : Fin np)
    (hbest : ∃ q, Best f x.volume (loaded k u s x (ha.F i) j) q) :
    ∃ q, Best f x.volume (loaded k u s x (ha.F i) j) q ∧
      let A := unloaded k u s f q j
      let load := fun V => (s.pressure j * u.p.pascal) * (V * u.v.m3 k)
      0 < r.VT i j ∧ 0 < r.KT i j ∧
      pressureOf k u A (r.VT i j) = s.pressure j * u.p.pascal ∧
      r.VT i j * deriv (deriv A) (r.VT i j) / u.v.m3 k = r.KT i j * u.p.pascal ∧
      bulkPrime (pressureOf k u A) (r.VT i j) = r.Kp i j ∧
      IsLocalMin (fun V => A V + load V) (r.VT i j) ∧
      (f = .murnaghan ∨ f = .vinet → ∀ V, 0 < V → V ≠ r.VT i j →
        A (r.VT i j) + load (r.VT i j) < A V + load V) := by
  obtain ⟨h1, h2, h3⟩ := eos_reported hu hmin hf hrun hha i j
  have hq := hext f x.volume (loaded k u s x (ha.F i) j) hbest
  generalize fitted ext f x.volume (loaded k u s x (ha.F i) j) = q at h1 h2 h3 hq
  have hs := hq.1
  have hj := joule_pos k u.e
  have hv := m3_pos k u.v
  have hp := pascal_pos u.p
  obtain ⟨c0, c1, c2, c3, c4, c5⟩ := C25_minimum f q.E0 q.K0 q.Kp q.V0 hs.2.1 hs.1 hs.2.2
  have hK : r.KT i j * u.p.pascal = q.K0 * u.e.joule k / u.v.m3 k := by
    rw [← h2]; field_simp
  have hs2 := second_unloaded (k := k) (u := u) (s := s) f hs j hs.2.1
  have hsum : ∀ V, unloaded k u s f q j V + (s.pressure j * u.p.pascal) * (V * u.v.m3 k) =
      energy f q.E0 q.K0 q.Kp q.V0 V * u.e.joule k := fun V => by rw [unloaded]; ring
  refine ⟨q, hq, ?_⟩
  simp only [hsum]
  rw [h1, h3]
  refine ⟨hs.2.1, ?_, ?_, ?_, ?_, ?_, ?_⟩
  · by_contra hle
    have : r.KT i j * u.p.pascal ≤ 0 := mul_nonpos_of_nonpos_of_nonneg (not_lt.1 hle) hp.le
    rw [hK] at this
    have h0 : 0 < q.K0 * u.e.joule k / u.v.m3 k := div_pos (mul_pos hs.1 hj) hv
    linarith
  · rw [pressure_unloaded f hs j hs.2.1, c1]; ring
  · rw [hs2, hK, ← mul_assoc, c3]
  · rw [← c4]
    refine bulkPrime_affine (c := u.e.joule k / u.v.m3 k) (d := s.pressure j * u.p.pascal)
      (div_pos hj hv).ne' ?_
    filter_upwards [lt_mem_nhds hs.2.1] with v hv'
    exact pressure_unloaded f hs j hv'
  · have hm : IsLocalMin (energy f q.E0 q.K0 q.Kp q.V0) q.V0 := by
      refine isLocalMin_of_deriv_deriv_pos ?_ c1 (c5 _ hs.2.1).continuousAt
      by_contra hle
      have : q.V0 * deriv (deriv (energy f q.E0 q.K0 q.Kp q.V0)) q.V0 ≤ 0 :=
        mul_nonpos_of_nonneg_of_nonpos hs.2.1.le (not_lt.1 hle)
      rw [c3] at this
      linarith [hs.1]
    filter_upwards [hm] with v hv'
    exact mul_le_mul_of_nonneg_right hv' hj.le
  · intro hfv V hV hne
    have hl := C25_lowest q.E0 q.K0 q.Kp q.V0 V hs.2.1 hs.1 hV hne
    refine mul_lt_mul_of_pos_right ?_ hj
    rw [c0]
    rcases hfv with rfl | rfl
    · exact hl.1 hs.2.2
    · exact hl.2.1 hs.2.2

/-! ### Free energies on a curve of the formulation -/

/-- If `F + p V` lies on a curve of the formulation and enough distinct volumes are given, the reported volume,
bulk modulus and derivative are exactly those of the curve. -/
theorem C150_recovered (hext : BestFits ext) (hu : u.Of s) (hmin : s.minimization = .eos) {f : EForm}
    (hf : s.eos = formName f) (hrun : run k ext s x = .ok r) {ha : HA.Results nt nv}
    (hha : HA.run k (harmonicSettings s) x.toInput = .ok ha) (i : Fin nt) (j : Fin np)
    {q : EPars} (hq : Solid f q) (hn : enough f ≤ nv) (hV : Function.Injective x.volume) (hpos : ∀ n, 0 < x.volume n)
    (hdata : ∀ n, loaded k u s x (ha.F i) j n = energy f q.E0 q.K0 q.Kp q.V0 (x.volume n)) :
    r.VT i j = q.V0 ∧ r.KT i j * u.p.pascal = q.K0 * u.e.joule k / u.v.m3 k ∧ r.Kp i j = q.Kp := by
  obtain ⟨h1, h2, h3⟩ := eos_reported hu hmin hf hrun hha i j
  have hb := C104_recovered f hq hn hV hpos hdata
  have he := (hb _).1 (hext f _ _ ⟨q, (hb q).2 rfl⟩)
  rw [he] at h1 h2 h3
  refine ⟨h1, ?_, h3⟩
  rw [← h2]
  have := (m3_pos k u.v).ne'
  field_simp

/-- At zero pressure, free energies on a curve of the formulation give its volume, bulk modulus and derivative. -/
theorem C150_zero_pressure (hext : BestFits ext) (hu : u.Of s) (hmin : s.minimization = .eos) {f : EForm}
    (hf : s.eos = formName f) (hrun : run k ext s x = .ok r) {ha : HA.Results nt nv}
    (hha : HA.run k (harmonicSettings s) x.toInput = .ok ha) (i : Fin nt) (j : Fin np) (hp : s.pressure j = 0)
    {q : EPars} (hq : Solid f q) (hn : enough f ≤ nv) (hV : Function.Injective x.volume) (hpos : ∀ n, 0 < x.volume n)
    (hF : ∀ n, ha.F i n = energy f q.E0 q.K0 q.Kp q.V0 (x.volume n)) :
    r.VT i j = q.V0 ∧ r.KT i j * u.p.pascal = q.K0 * u.e.joule k / u.v.m3 k ∧ r.Kp i j = q.Kp :=
  C150_recovered hext hu hmin hf hrun hha i j hq hn hV hpos fun n => by
    rw [loaded, hp, hF n]; ring

/-- Adding `p V` to a Murnaghan curve gives a Murnaghan curve. -/
theorem murnaghan_loaded {q : EPars} (hq : Solid .murnaghan q) {p : ℝ} (hp : 0 < q.K0 + q.Kp * p) :
    ∃ E0 W, 0 < W ∧ (q.K0 + q.Kp * p) * W ^ q.Kp = q.K0 * q.V0 ^ q.Kp ∧ ∀ V, 0 < V →
      energy .murnaghan E0 (q.K0 + q.Kp * p) q.Kp W V = energy .murnaghan q.E0 q.K0 q.Kp q.V0 V + p * V := by
  obtain ⟨hK, hV0, hn, hn1⟩ := hq
  have hn1' : q.Kp - 1 ≠ 0 := sub_ne_zero.2 hn1
  have hW : 0 < q.V0 * (q.K0 / (q.K0 + q.Kp * p)) ^ (1 / q.Kp) :=
    mul_pos hV0 (Real.rpow_pos_of_pos (div_pos hK hp) _)
  have hWp : (q.K0 + q.Kp * p) * (q.V0 * (q.K0 / (q.K0 + q.Kp * p)) ^ (1 / q.Kp)) ^ q.Kp = q.K0 * q.V0 ^ q.Kp := by
    rw [Real.mul_rpow hV0.le (Real.rpow_nonneg (div_pos hK hp).le _), ← Real.rpow_mul (div_pos hK hp).le,
      one_div_mul_cancel hn, Real.rpow_one]
    field_simp
  generalize q.V0 * (q.K0 / (q.K0 + q.Kp * p)) ^ (1 / q.Kp) = W at hW hWp
  refine ⟨q.E0 + W * (q.K0 + q.Kp * p) / (q.Kp - 1) - q.V0 * q.K0 / (q.Kp - 1), W, hW, hWp, fun V hV => ?_⟩
  simp only [energy]
  rw [Real.div_rpow hW.le hV.le, Real.div_rpow hV0.le hV.le]
  have hVp : V ^ q.Kp ≠ 0 := (Real.rpow_pos_of_pos hV _).ne'
  have e : (q.K0 + q.Kp * p) * V / q.Kp * (W ^ q.Kp / V ^ q.Kp / (q.Kp - 1) + 1) =
      q.K0 * V / q.Kp * (q.V0 ^ q.Kp / V ^ q.Kp / (q.Kp - 1) + 1) + p * V := by
    have e1 : (q.K0 + q.Kp * p) * V / q.Kp * (W ^ q.Kp / V ^ q.Kp / (q.Kp - 1) + 1) =
        ((q.K0 + q.Kp * p) * W ^ q.Kp) * (V / q.Kp / V ^ q.Kp / (q.Kp - 1)) + (q.K0 + q.Kp * p) * V / q.Kp := by ring
    rw [e1, hWp]
    field_simp
    ring
  rw [e]
  ring

/-- Free energies on a Murnaghan curve: at every pressure above the one where its bulk modulus vanishes, the
reported volume is the one at which the curve has that pressure, the reported bulk modulus is that of the curve
there, `K0 + K' p`, and the reported derivative is `K'`. -/
theorem C150_murnaghan (hext : BestFits ext) (hu : u.Of s) (hmin : s.minimization = .eos)
    (hf : s.eos = formName .murnaghan) (hrun : run k ext s x = .ok r) {ha : HA.Results nt nv}
    (hha : HA.run k (harmonicSettings s) x.toInput = .ok ha) (i : Fin nt) (j : Fin np)
    {q : EPars} (hq : Solid .murnaghan q) (hn : 4 ≤ nv) (hV : Function.Injective x.volume)
    (hpos : ∀ n, 0 < x.volume n)
    (hF : ∀ n, ha.F i n = energy .murnaghan q.E0 q.K0 q.Kp q.V0 (x.volume n))
    (hp : 0 < q.K0 * u.e.joule k / u.v.m3 k + q.Kp * (s.pressure j * u.p.pascal)) :
    let A := fun V => energy .murnaghan q.E0 q.K0 q.Kp q.V0 V * u.e.joule k
    0 < r.VT i j ∧ pressureOf k u A (r.VT i j) = s.pressure j * u.p.pascal ∧
      r.VT i j * deriv (deriv A) (r.VT i j) / u.v.m3 k = r.KT i j * u.p.pascal ∧
      r.KT i j * u.p.pascal = q.K0 * u.e.joule k / u.v.m3 k + q.Kp * (s.pressure j * u.p.pascal) ∧
      r.Kp i j = q.Kp := by
  intro A
  have hj := joule_pos k u.e
  have hv := m3_pos k u.v
  obtain ⟨p, hpe⟩ : ∃ p : ℝ, p = s.pressure j * u.p.pascal * u.v.m3 k / u.e.joule k := ⟨_, rfl⟩
  have hp' : 0 < q.K0 + q.Kp * p := by
    have : q.K0 + q.Kp * p = (q.K0 * u.e.joule k / u.v.m3 k + q.Kp * (s.pressure j * u.p.pascal)) *
        (u.v.m3 k / u.e.joule k) := by rw [hpe]; field_simp
    rw [this]; exact mul_pos hp (div_pos hv hj)
  obtain ⟨E0, W, hW, -, hE⟩ := murnaghan_loaded hq hp'
  have hq' : Solid .murnaghan ⟨E0, q.K0 + q.Kp * p, q.Kp, W⟩ := ⟨hp', hW, hq.2.2⟩
  obtain ⟨h1, h2, h3⟩ := C150_recovered hext hu hmin hf hrun hha i j hq' hn hV hpos fun n => by
    rw [hE _ (hpos n), loaded, hF n, hpe]; ring
  obtain ⟨-, c1, -, c3, -, -⟩ := C25_minimum .murnaghan E0 (q.K0 + q.Kp * p) q.Kp W hW hp' hq.2.2
  have hAu : ∀ V, 0 < V → A V = unloaded k u s .murnaghan ⟨E0, q.K0 + q.Kp * p, q.Kp, W⟩ j V := fun V hV => by
    rw [unloaded, hE V hV, hpe]
    simp only [A]
    field_simp
    ring
  have hAe : ∀ V, 0 < V → A =ᶠ[𝓝 V] unloaded k u s .murnaghan ⟨E0, q.K0 + q.Kp * p, q.Kp, W⟩ j := fun V hV => by
    filter_upwards [lt_mem_nhds hV] with v hv'
    exact hAu v hv'
  have hd : deriv A =ᶠ[𝓝 W] deriv (unloaded k u s .murnaghan ⟨E0, q.K0 + q.Kp * p, q.Kp, W⟩ j) := by
    filter_upwards [lt_mem_nhds hW] with v hv'
    exact (hAe v hv').deriv_eq
  rw [h1]
  refine ⟨hW, ?_, ?_, ?_, h3⟩
  · have := pressure_unloaded (k := k) (u := u) (s := s) .murnaghan hq' j hW
    rw [pressureOf, hd.self_of_nhds, ← pressureOf, this, c1]; ring
  · rw [hd.deriv_eq, second_unloaded .murnaghan hq' j hW, h2]
    simp only
    rw [← mul_assoc, c3]
  · rw [h2, hpe]
    field_simp

end Verif.QHA
