/-
Property C171: the columns of a quasi-harmonic run along the pressure.
-/
import Verif.QHA.ThermoCurves
import Mathlib.Analysis.Calculus.InverseFunctionTheorem.Deriv

namespace Verif.QHA
open Verif.Py Verif.Units Verif.HA Verif.QHA.Spec Verif.StatMech Verif.Poly.Spec
open Filter Topology

variable {nt np nb nf nv : ℕ} {k : Consts} {ext : Ext} {s : Settings nt np} {x : Input nb nf nv}
  {u : Choice} {r : Results nt np}

/-- Polynomials are smooth. -/
theorem value_contDiff {n : ℕ} (c : Fin n → ℝ) : ContDiff ℝ ⊤ (value c) := by
  have e : value c = fun V => ∑ i, c i * V ^ (i : ℕ) := by
    funext V
    rfl
  rw [e]
  fun_prop

/-- The volumes at which the slope of a curve is a given one, near a volume at which it is convex. -/
theorem slope_inverse {n : ℕ} (c : Fin n → ℝ) {V : ℝ} (hV : 0 < deriv (deriv (value c)) V) :
    ∃ w : ℝ → ℝ, w (deriv (value c) V) = V ∧ HasDerivAt w (deriv (deriv (value c)) V)⁻¹ (deriv (value c) V) ∧
      ∀ᶠ y in 𝓝 (deriv (value c) V), deriv (value c) (w y) = y ∧ 0 < deriv (deriv (value c)) (w y) := by
  have hd : ContDiff ℝ 1 (deriv (value c)) := by
    have : ContDiff ℝ (1 + 1) (value c) := (value_contDiff c).of_le le_top
    exact (contDiff_succ_iff_deriv.1 this).2.2
  have hst : HasStrictDerivAt (deriv (value c)) (deriv (deriv (value c)) V) V :=
    hd.contDiffAt.hasStrictDerivAt one_ne_zero
  have hinv := hst.to_localInverse hV.ne'
  set w := hst.localInverse _ _ _ hV.ne'
  have hw : w (deriv (value c) V) = V :=
    (hst.hasStrictFDerivAt_equiv hV.ne').localInverse_apply_image
  refine ⟨w, hw, hinv.hasDerivAt, ?_⟩
  have e1 := (hst.hasStrictFDerivAt_equiv hV.ne').eventually_right_inverse
  have c2 : ContinuousAt (fun y => deriv (deriv (value c)) (w y)) (deriv (value c) V) :=
    ContinuousAt.comp (g := deriv (deriv (value c))) (value_differentiable c).2.2.continuousAt hinv.hasDerivAt.continuousAt
  have e2 := c2.eventually_const_lt (show 0 < deriv (deriv (value c)) (w (deriv (value c) V)) by rw [hw]; exact hV)
  filter_upwards [e1, e2] with y h1 h2
  exact ⟨h1, h2⟩

/-- C171: with thermodynamic interpolation and fits of degree 3 (as by default) or less, the columns that a run reports along
the pressure obey the laws of thermodynamics.  Around any pressure of a run, at any of its temperatures, there are curves `V`,
`G`, `S₁` and `H` of the pressure such that runs of the same crystal at pressures nearby succeed, every run reports the values
of the curves at its pressures nearby, and at this pressure: `dV/dP = -V / KT`, `dG/dP = V`, `dS/dP = -V α` (the relation of
Maxwell, as `V α` is the derivative of the volume with respect to the temperature, C170) and `dH/dP = V (1 - T α)`, where `q`
turns the product of the units of pressure and volume into the unit of energy. -/
theorem C171_curves (hext : Numerics ext) (hu : u.Of s) (hmin : s.minimization = .poly) (hs : s.scheme = .td)
    (hinj : Function.Injective x.volume) (hdeg : s.edeg + 1 ≤ nv) (h3 : s.edeg ≤ 3) (hrun : run k ext s x = .ok r)
    {h : ℝ → HA.Results 1 nv} (hh : ∀ t, HA.run k (atKelvin s t) x.toInput = .ok (h t))
    {F S : ℝ → ℝ → ℝ} (hF : ∀ t, F t = value (ext.polyfit x.volume ((h t).F 0) s.edeg))
    (hS : ∀ t, S t = value (ext.polyfit x.volume ((h t).S 0) s.edeg)) (i : Fin nt) (j : Fin np) {T₀ : ℝ}
    (hT : T₀ = u.t.kelvin (s.temperature i)) (hV : 0 < r.VT i j) {q α : ℝ} (hq : q * u.e.joule k = u.p.pascal * u.v.m3 k)
    (hα : α = expansion (F T₀) (S T₀) (r.VT i j)) :
    ∃ V G S₁ H : ℝ → ℝ, ∃ δ > 0,
      (∀ {nt' np' : ℕ} {T : Fin nt' → ℝ} {p : Fin np' → ℝ}, (∀ a, T a = s.temperature i) →
        (∀ c, |p c - s.pressure j| < δ) → ∃ r', run k ext (onGrid s T p) x = .ok r') ∧
      (∀ {nt' np' : ℕ} {T : Fin nt' → ℝ} {p : Fin np' → ℝ} {r' : Results nt' np'}, run k ext (onGrid s T p) x = .ok r' →
        ∀ (a : Fin nt') (c : Fin np'), T a = s.temperature i → |p c - s.pressure j| < δ →
        r'.VT a c = V (p c) ∧ r'.G a c = G (p c) ∧ r'.S a c = S₁ (p c) ∧ r'.H a c = H (p c)) ∧
      HasDerivAt V (-(r.VT i j / r.KT i j)) (s.pressure j) ∧
      HasDerivAt G (r.VT i j * q) (s.pressure j) ∧
      HasDerivAt S₁ (-(r.VT i j * α) * q * 1000) (s.pressure j) ∧
      HasDerivAt H (r.VT i j * (1 - T₀ * α) * q) (s.pressure j) := by
  obtain rfl : F = fun t => value (ext.polyfit x.volume ((h t).F 0) s.edeg) := funext hF
  obtain rfl : S = fun t => value (ext.polyfit x.volume ((h t).S 0) s.edeg) := funext hS
  simp only at hα
  have hj := joule_pos k u.e
  have hv := m3_pos k u.v
  have hp := pascal_pos u.p
  obtain rfl : q = u.p.pascal * u.v.m3 k / u.e.joule k := by rw [eq_div_iff hj.ne', hq]
  set q := u.p.pascal * u.v.m3 k / u.e.joule k with hqd
  have hq0 : 0 < q := by positivity
  have qP : ∀ p : ℝ, p * u.p.pascal * u.v.m3 k / u.e.joule k = p * q := fun p => by rw [hqd]; ring
  obtain ⟨n1, n2, n3, n4, n5, n6⟩ := node_values hext hu hmin hs hinj hdeg hrun hh i j hT (qP _).symm
  obtain ⟨ha, hha, -⟩ := harmonic_run hu x (k := k)
  have hK := (C69_bulk_modulus hext hu hmin hs (by omega) hrun hha i j hV).1
  rw [(harmonic_row hu hha i (by rw [← hT]; exact hh T₀)).1] at hK
  set f := value (ext.polyfit x.volume ((h T₀).F 0) s.edeg) with hf
  set g := value (ext.polyfit x.volume ((h T₀).S 0) s.edeg) with hg
  obtain ⟨w, w0, dw, ew⟩ := slope_inverse _ n2
  rw [← hf] at w0 dw ew
  rw [n1] at w0 dw ew
  set W : ℝ → ℝ := fun p => w (-(p * q)) with hWd
  have dlin : HasDerivAt (fun p : ℝ => -(p * q)) (-q) (s.pressure j) :=
    ((hasDerivAt_id (s.pressure j)).mul_const q).neg.congr_deriv (by rw [one_mul])
  have W0 : W (s.pressure j) = r.VT i j := w0
  set D := deriv (deriv f) (r.VT i j) with hD
  have dW : HasDerivAt W (D⁻¹ * -q) (s.pressure j) := dw.comp (s.pressure j) dlin
  have eW : ∀ᶠ p in 𝓝 (s.pressure j), deriv f (W p) = -(p * q) ∧ 0 < deriv (deriv f) (W p) :=
    dlin.continuousAt.eventually ew
  obtain ⟨δ, hδ, hb⟩ := Metric.eventually_nhds_iff.1 eW
  have hVa : r.VT i j * α = deriv g (r.VT i j) / 1000 / D := by
    rw [hα, expansion, ← hD]
    field_simp
  have df : HasDerivAt f (-(s.pressure j * q)) (W (s.pressure j)) := by
    have := ((value_differentiable (ext.polyfit x.volume ((h T₀).F 0) s.edeg)).1 (W (s.pressure j))).hasDerivAt
    rw [W0] at this ⊢
    exact this.congr_deriv n1
  have dg : HasDerivAt g (deriv g (r.VT i j)) (W (s.pressure j)) := by
    have := ((value_differentiable (ext.polyfit x.volume ((h T₀).S 0) s.edeg)).1 (W (s.pressure j))).hasDerivAt
    rw [W0] at this ⊢
    exact this
  have dG : HasDerivAt (fun p => f (W p) + p * q * W p) (r.VT i j * q) (s.pressure j) := by
    have := (df.comp (s.pressure j) dW).add (((hasDerivAt_id (s.pressure j)).mul_const q).mul dW)
    refine this.congr_deriv ?_
    simp only [id, W0]
    ring
  have dS : HasDerivAt (fun p => g (W p)) (-(r.VT i j * α) * q * 1000) (s.pressure j) := by
    refine (dg.comp (s.pressure j) dW).congr_deriv ?_
    rw [hVa]
    field_simp
  refine ⟨W, fun p => f (W p) + p * q * W p, fun p => g (W p), fun p => f (W p) + p * q * W p + T₀ * g (W p) / 1000, δ, hδ,
    ?_, ?_, ?_, dG, dS, ?_⟩
  · intro nt' np' T p hTa hd
    have hu' : u.Of (onGrid s T p) := ⟨hu.e, hu.v, hu.p, hu.t, hu.f⟩
    have hk : s.kieffer = false := kieffer_off hu hrun
    obtain ⟨ha', hha', -⟩ := harmonic_run hu' x (k := k)
    refine (C20_run_succeeds_iff hext hu' hmin hk hha').1 fun a c => ?_
    have eT : u.t.kelvin (T a) = T₀ := by rw [hT, hTa a]
    have row' := (harmonic_row hu' hha' a (hh _)).1
    rw [row']
    change ∃ V, deriv (value (ext.polyfit x.volume ((h (u.t.kelvin (T a))).F 0) s.edeg)) V * _ / _ = -(p c * _) ∧
      0 < deriv (deriv (value (ext.polyfit x.volume ((h (u.t.kelvin (T a))).F 0) s.edeg))) V
    rw [eT]
    obtain ⟨b1, b2⟩ := hb (y := p c) (by rw [Real.dist_eq]; exact hd c)
    refine ⟨W (p c), ?_, b2⟩
    rw [← hf, b1, hqd]
    field_simp
  · intro nt' np' T p r' hrun' a c hTa hd
    have hu' : u.Of (onGrid s T p) := ⟨hu.e, hu.v, hu.p, hu.t, hu.f⟩
    have eT : T₀ = u.t.kelvin ((onGrid s T p).temperature a) := by rw [hT]; exact congrArg _ hTa.symm
    obtain ⟨m1, m2, m3, m4, -, m6⟩ := node_values hext hu' hmin hs hinj hdeg hrun' hh a c eT (qP (p c)).symm
    obtain ⟨b1, b2⟩ := hb (y := p c) (by rw [Real.dist_eq]; exact hd)
    have e : r'.VT a c = W (p c) :=
      equilibrium_unique (n := s.edeg + 1) (by omega) (ext.polyfit x.volume ((h T₀).F 0) s.edeg) (m1.trans b1.symm) m2 b2
    rw [e] at m3 m4
    exact ⟨e, m3, m4, by rw [m6, m3, m4]; rfl⟩
  · refine dW.congr_deriv ?_
    have : r.KT i j = r.VT i j * D / q := by
      rw [hqd, eq_div_iff (by positivity), ← mul_div_assoc, ← mul_assoc, hK]
      field_simp
    rw [this]
    field_simp
  · refine (dG.add ((dS.const_mul T₀).div_const 1000)).congr_deriv ?_
    ring

end Verif.QHA
