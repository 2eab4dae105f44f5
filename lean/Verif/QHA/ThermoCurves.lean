/-
Properties C169 and C170: the columns of a quasi-harmonic run along pressure and temperature.
-/
import Verif.QHA.ExpansionLimit

namespace Verif.QHA
open Verif.Py Verif.Units Verif.HA Verif.QHA.Spec Verif.StatMech Verif.Poly.Spec
open Filter Topology

variable {nt np nb nf nv : ℕ} {k : Consts} {ext : Ext} {s : Settings nt np} {x : Input nb nf nv}
  {u : Choice} {r : Results nt np}

/-! ### C169 -/

/-- C169: with thermodynamic interpolation and fits of degree 3 (as by default) or less, the volumes and bulk moduli reported
at any two pressures and one temperature obey the trapezoidal rule exactly: the pressures differ by minus the difference of
the volumes times the mean of `KT / V` at both. -/
theorem C169_trapezoid (hext : Numerics ext) (hu : u.Of s) (hmin : s.minimization = .poly) (hs : s.scheme = .td)
    (h3 : s.edeg ≤ 3) (hrun : run k ext s x = .ok r) (i : Fin nt) (j l : Fin np) (hj : 0 < r.VT i j) (hl : 0 < r.VT i l) :
    s.pressure l - s.pressure j = -(r.VT i l - r.VT i j) * (r.KT i j / r.VT i j + r.KT i l / r.VT i l) / 2 := by
  obtain ⟨ha, hha, -⟩ := harmonic_run hu x (k := k)
  have hJ := joule_pos k u.e
  have hv := m3_pos k u.v
  have hp := pascal_pos u.p
  obtain ⟨-, e1, -, -⟩ := C20_equilibrium_volume hext hu hmin hrun hha i j
  obtain ⟨-, e2, -, -⟩ := C20_equilibrium_volume hext hu hmin hrun hha i l
  have k1 := (C69_bulk_modulus hext hu hmin hs (by omega) hrun hha i j hj).1
  have k2 := (C69_bulk_modulus hext hu hmin hs (by omega) hrun hha i l hl).1
  have tr := (cubic_slopes (n := s.edeg + 1) (by omega) (ext.polyfit x.volume (ha.F i) s.edeg) (r.VT i j) (r.VT i l)).2
  set F' := deriv (value (ext.polyfit x.volume (ha.F i) s.edeg))
  have k1' : r.KT i j / r.VT i j * u.p.pascal = deriv F' (r.VT i j) * u.e.joule k / u.v.m3 k := by
    rw [div_mul_eq_mul_div, k1]
    field_simp
  have k2' : r.KT i l / r.VT i l * u.p.pascal = deriv F' (r.VT i l) * u.e.joule k / u.v.m3 k := by
    rw [div_mul_eq_mul_div, k2]
    field_simp
  refine mul_right_cancel₀ hp.ne' ?_
  have : (F' (r.VT i l) - F' (r.VT i j)) * u.e.joule k / u.v.m3 k = -((s.pressure l - s.pressure j) * u.p.pascal) := by
    rw [sub_mul, sub_div, e1, e2]
    ring
  rw [tr] at this
  have e3 : (r.VT i l - r.VT i j) * (deriv F' (r.VT i j) + deriv F' (r.VT i l)) / 2 * u.e.joule k / u.v.m3 k =
      (r.VT i l - r.VT i j) * (deriv F' (r.VT i j) * u.e.joule k / u.v.m3 k + deriv F' (r.VT i l) * u.e.joule k / u.v.m3 k) / 2 := by
    ring
  rw [e3, ← k1', ← k2'] at this
  linear_combination this

/-- C169: so the reported bulk modulus is minus the volume times the slope of the pressure: to any tolerance there is a step
such that every run of the same crystal, at any temperatures and pressures that contain those of a node, and another pressure
nearer than the step, reports volumes whose difference quotient is `-V / KT` within the tolerance. -/
theorem C169_limit (hext : Numerics ext) (hu : u.Of s) (hmin : s.minimization = .poly) (hs : s.scheme = .td)
    (h3 : s.edeg ≤ 3) (hrun : run k ext s x = .ok r) (i : Fin nt) (j : Fin np) (hV : 0 < r.VT i j) {ε : ℝ} (hε : 0 < ε) :
    ∃ δ > 0, ∀ {nt' np' : ℕ} {T : Fin nt' → ℝ} {p : Fin np' → ℝ} {r' : Results nt' np'},
      run k ext (onGrid s T p) x = .ok r' → ∀ (a : Fin nt') (b c : Fin np'), T a = s.temperature i → p c = s.pressure j →
      p b ≠ p c → |p b - p c| < δ →
      r'.VT a c = r.VT i j ∧ r'.KT a c = r.KT i j ∧
      |(r'.VT a b - r'.VT a c) / (p b - p c) + r.VT i j / r.KT i j| < ε := by
  obtain ⟨ha, hha, -⟩ := harmonic_run hu x (k := k)
  have hJ := joule_pos k u.e
  have hv := m3_pos k u.v
  have hp := pascal_pos u.p
  obtain ⟨-, e1, c1, -⟩ := C20_equilibrium_volume hext hu hmin hrun hha i j
  have k1 := (C69_bulk_modulus hext hu hmin hs (by omega) hrun hha i j hV).1
  set F' := deriv (value (ext.polyfit x.volume (ha.F i) s.edeg)) with hF'
  set V := r.VT i j with hVd
  set q := u.p.pascal * u.v.m3 k / u.e.joule k with hq
  have hq0 : 0 < q := by positivity
  have lim := quotient_limit (A := Set.univ) (T₀ := s.pressure j) (V₀ := V) (D := fun _ => deriv F' V)
    (E := fun _ => deriv F' (V + 1)) (g := fun _ => -q) (ξ := id) continuousWithinAt_const continuousWithinAt_const
    continuousWithinAt_const c1 (fun t _ _ => ⟨trivial, le_rfl⟩)
    (Z := {z | z.1 ≠ s.pressure j ∧ F' z.2 * u.e.joule k / u.v.m3 k = -(z.1 * u.p.pascal) ∧ 0 < deriv F' z.2}) (by
      rintro ⟨p, w⟩ ⟨hne, hs', hc⟩
      obtain ⟨t1, t2⟩ := cubic_slopes (n := s.edeg + 1) (by omega) (ext.polyfit x.volume (ha.F i) s.edeg) V w
      rw [← hF'] at t1 t2
      simp only at hne hs' hc ⊢
      refine ⟨trivial, hne, by rw [← t1]; exact hc, ?_⟩
      rw [t1] at t2
      have e : F' w - F' V = -q * (p - s.pressure j) := by
        have a1 : F' w = -(p * u.p.pascal) * u.v.m3 k / u.e.joule k := by rw [← hs']; field_simp
        have a2 : F' V = -(s.pressure j * u.p.pascal) * u.v.m3 k / u.e.joule k := by rw [← e1]; field_simp
        rw [a1, a2, hq]
        ring
      linear_combination e - t2)
  have eL : -q / deriv F' V = -(V / r.KT i j) := by
    have : r.KT i j = V * deriv F' V / q := by
      rw [hq, eq_div_iff (by positivity), ← mul_div_assoc, ← mul_assoc, k1]
      field_simp
    rw [this]
    field_simp
  have hev := (Metric.tendsto_nhds.1 lim) ε hε
  rw [eventually_inf_principal, eventually_comap] at hev
  obtain ⟨δ, hδ, hev⟩ := Metric.eventually_nhds_iff.1 hev
  refine ⟨δ, hδ, fun {nt' np' T p r'} hrun' a b c hTa hpc hne hd => ?_⟩
  have hsame := C159_node hu hrun hrun' hTa.symm hpc.symm
  have hu' : u.Of (onGrid s T p) := ⟨hu.e, hu.v, hu.p, hu.t, hu.f⟩
  refine ⟨hsame.VT.symm, hsame.KT.symm, ?_⟩
  obtain ⟨ha', hha', -⟩ := harmonic_run hu' x (k := k)
  choose h hh using at_exists (k := k) hu x
  have eT : u.t.kelvin (T a) = u.t.kelvin (s.temperature i) := congrArg _ hTa
  have row : ha.F i = ha'.F a := by
    rw [(harmonic_row hu hha i (hh _)).1, (harmonic_row hu' hha' a (hh _)).1]
    show _ = (h (u.t.kelvin (T a))).F 0
    rw [eT]
  obtain ⟨-, e2, c2, -⟩ := C20_equilibrium_volume hext hu' hmin hrun' hha' a b
  rw [← row] at e2 c2
  have := hev (y := p b) (by rw [Real.dist_eq, ← hpc]; exact hd) (p b, r'.VT a b) rfl ⟨by rw [← hpc]; exact hne, e2, c2⟩
  rw [Real.dist_eq, eL, sub_neg_eq_add] at this
  rw [← hsame.VT, hpc]
  exact this

/-! ### C170 -/

/-- The total derivative of a fit whose data and argument depend on the temperature. -/
theorem fit_total_derivative (hext : Numerics ext) {X : Fin nv → ℝ} (hinj : Function.Injective X) {d : ℕ} (hdeg : d + 1 ≤ nv)
    {Y : ℝ → Fin nv → ℝ} {Y' : Fin nv → ℝ} {W : ℝ → ℝ} {w' t : ℝ} (hY : ∀ n, HasDerivAt (fun t => Y t n) (Y' n) t)
    (hW : HasDerivAt W w' t) :
    HasDerivAt (fun t => value (ext.polyfit X (Y t) d) (W t))
      (value (ext.polyfit X Y' d) (W t) + deriv (value (ext.polyfit X (Y t) d)) (W t) * w') t := by
  have e : (fun t => value (ext.polyfit X (Y t) d) (W t)) =
      fun t => ∑ n, Y t n * value (ext.polyfit X (Pi.single n 1) d) (W t) :=
    funext fun t => fit_linear hext hinj hdeg (W t) (Y t)
  rw [e, fit_linear hext hinj hdeg (W t) Y', fit_slope_linear hext hinj hdeg (W t) (Y t), Finset.sum_mul, ← Finset.sum_add_distrib]
  refine HasDerivAt.fun_sum fun n _ => ?_
  have hφ : HasDerivAt (value (ext.polyfit X (Pi.single n 1) d)) (deriv (value (ext.polyfit X (Pi.single n 1) d)) (W t)) (W t) :=
    ((value_differentiable _).1 _).hasDerivAt
  have := (hY n).mul (hφ.comp t hW)
  refine this.congr_deriv ?_
  simp only [Function.comp_apply]
  ring

/-- The entropy at a volume of the input grows with temperature at the rate of the heat capacity over the temperature. -/
theorem entropy_hasDerivAt (hu : u.Of s) {h : ℝ → HA.Results 1 nv} (hh : ∀ t, HA.run k (atKelvin s t) x.toInput = .ok (h t))
    {t : ℝ} (ht : 0 < t) (n : Fin nv) : HasDerivAt (fun t => (h t).S 0 n) ((h t).Cv 0 n * (1 / t)) t := by
  have hd := C08_heat_capacity_is_T_dS k (fun q b n => x.freq q b n * u.f.hertz k) (usedWeights x.weights) n ht
  have := (hd.mul_const (1000 / k.N)).div_const (u.e.joule k)
  have e : (fun t => (h t).S 0 n) = fun t =>
      atTemp (entropy k) (fun q b n => x.freq q b n * u.f.hertz k) (usedWeights x.weights) n t *
        (1000 / k.N) / u.e.joule k := funext fun t => (harmonic_at hu (hh t)).2.1 n
  rw [e]
  refine this.congr_deriv ?_
  rw [(harmonic_at hu (hh t)).2.2 n]
  ring

/-- What a run with thermodynamic interpolation reports at a node, in terms of the fits at its temperature. -/
theorem node_values (hext : Numerics ext) (hu : u.Of s) (hmin : s.minimization = .poly) (hs : s.scheme = .td)
    (hinj : Function.Injective x.volume) (hdeg : s.edeg + 1 ≤ nv) (hrun : run k ext s x = .ok r)
    {h : ℝ → HA.Results 1 nv} (hh : ∀ t, HA.run k (atKelvin s t) x.toInput = .ok (h t)) (i : Fin nt) (j : Fin np) {T P : ℝ}
    (hT : T = u.t.kelvin (s.temperature i)) (hP : P = s.pressure j * u.p.pascal * u.v.m3 k / u.e.joule k) :
    deriv (value (ext.polyfit x.volume ((h T).F 0) s.edeg)) (r.VT i j) = -P ∧
    0 < deriv (deriv (value (ext.polyfit x.volume ((h T).F 0) s.edeg))) (r.VT i j) ∧
    r.G i j = value (ext.polyfit x.volume ((h T).F 0) s.edeg) (r.VT i j) + P * r.VT i j ∧
    r.S i j = value (ext.polyfit x.volume ((h T).S 0) s.edeg) (r.VT i j) ∧
    r.Cv i j = value (ext.polyfit x.volume ((h T).Cv 0) s.edeg) (r.VT i j) ∧
    r.H i j = r.G i j + T * r.S i j / 1000 := by
  have hj := joule_pos k u.e
  have hv := m3_pos k u.v
  obtain ⟨ha, hha, -⟩ := harmonic_run hu x (k := k)
  obtain ⟨rF, rS, rC⟩ := harmonic_row hu hha i (hh _)
  obtain ⟨-, e1, e2, -⟩ := C20_equilibrium_volume hext hu hmin hrun hha i j
  have ht := C68_td_interpolates hu hrun hs hha i j
  rw [rF, rS, rC, ← hT] at ht
  rw [rF, ← hT] at e1 e2
  obtain ⟨-, -, -, tS, tC, -, tF⟩ := ht
  have hG := (C15_legendre hu hrun i j).2
  refine ⟨?_, e2, ?_, tS, tC, ?_⟩
  · rw [div_eq_iff hv.ne'] at e1
    refine mul_right_cancel₀ hj.ne' (e1.trans ?_)
    rw [hP]
    field_simp
  · refine mul_right_cancel₀ hj.ne' (hG.trans ?_)
    rw [tF, hP]
    field_simp
  · have := C68_H_minus_G hext hu hrun (fun _ => ⟨hinj, hdeg⟩) i j
    rw [← hT] at this
    linarith

/-- C170: with thermodynamic interpolation and fits of degree 3 (as by default) or less, the columns that a run reports along
the temperature obey the laws of thermodynamics.  Around any temperature and pressure of a run there are curves `V`, `G`, `S₁`
and `H` of the temperature such that every run of the same crystal reports their values at its temperatures nearby, and at
this temperature: `dV/dT = V α`, `dG/dT = -S`, `dS/dT = Cp / T` and `dH/dT = Cp`, with `Cp = Cv + T (∂S/∂V)² / (∂²F/∂V²)`, to
which the reported heat capacity tends (C168). -/
theorem C170_curves (hext : Numerics ext) (hu : u.Of s) (hmin : s.minimization = .poly) (hs : s.scheme = .td)
    (hinj : Function.Injective x.volume) (hdeg : s.edeg + 1 ≤ nv) (h3 : s.edeg ≤ 3) (hrun : run k ext s x = .ok r)
    {h : ℝ → HA.Results 1 nv} (hh : ∀ t, HA.run k (atKelvin s t) x.toInput = .ok (h t))
    {F S : ℝ → ℝ → ℝ} (hF : ∀ t, F t = value (ext.polyfit x.volume ((h t).F 0) s.edeg))
    (hS : ∀ t, S t = value (ext.polyfit x.volume ((h t).S 0) s.edeg)) (i : Fin nt) (j : Fin np) {T₀ : ℝ}
    (hT : T₀ = u.t.kelvin (s.temperature i)) (h0 : 0 < T₀) (hV : r.VT i j ≠ 0) {Cp : ℝ}
    (hCp : Cp = r.Cv i j + T₀ * deriv (S T₀) (r.VT i j) ^ 2 / (1000 * deriv (deriv (F T₀)) (r.VT i j))) :
    ∃ V G S₁ H : ℝ → ℝ, ∃ δ > 0,
      (∀ {nt' np' : ℕ} {T : Fin nt' → ℝ} {p : Fin np' → ℝ} {r' : Results nt' np'}, run k ext (onGrid s T p) x = .ok r' →
        ∀ (a : Fin nt') (c : Fin np'), p c = s.pressure j → |u.t.kelvin (T a) - T₀| < δ →
        r'.VT a c = V (u.t.kelvin (T a)) ∧ r'.G a c = G (u.t.kelvin (T a)) ∧ r'.S a c = S₁ (u.t.kelvin (T a)) ∧
        r'.H a c = H (u.t.kelvin (T a))) ∧
      HasDerivAt V (r.VT i j * expansion (F T₀) (S T₀) (r.VT i j)) T₀ ∧
      HasDerivAt G (-r.S i j / 1000) T₀ ∧ HasDerivAt S₁ (Cp / T₀) T₀ ∧ HasDerivAt H (Cp / 1000) T₀ := by
  obtain rfl : F = fun t => value (ext.polyfit x.volume ((h t).F 0) s.edeg) := funext hF
  obtain rfl : S = fun t => value (ext.polyfit x.volume ((h t).S 0) s.edeg) := funext hS
  set F : ℝ → ℝ → ℝ := fun t => value (ext.polyfit x.volume ((h t).F 0) s.edeg) with hFd
  set S : ℝ → ℝ → ℝ := fun t => value (ext.polyfit x.volume ((h t).S 0) s.edeg) with hSd
  have hj := joule_pos k u.e
  have hv := m3_pos k u.v
  set P : ℝ := s.pressure j * u.p.pascal * u.v.m3 k / u.e.joule k with hP
  obtain ⟨n1, n2, n3, n4, n5, n6⟩ := node_values hext hu hmin hs hinj hdeg hrun hh i j hT hP
  obtain ⟨δ, hδ, hb⟩ := equilibrium_persists hext hu hinj hdeg h3 hh h0.le hFd n2
  choose! W hW using hb
  have uniq : ∀ {t w}, 0 ≤ t → |t - T₀| < δ → deriv (F t) w = -P → 0 < deriv (deriv (F t)) w → w = W t := by
    intro t w ht hd e1 e2
    obtain ⟨w1, w2⟩ := hW t ht hd
    exact equilibrium_unique (n := s.edeg + 1) (by omega) _ (e1.trans (by rw [← n1]; exact w1.symm)) e2 w2
  have hW0 : r.VT i j = W T₀ := uniq h0.le (by simpa using hδ) n1 n2
  rw [hW0] at hV hCp n1 n2 n3 n4 n5 ⊢
  have dW : HasDerivAt W (W T₀ * expansion (F T₀) (S T₀) (W T₀)) T₀ := by
    refine C168_definition hext hu hinj hdeg h3 hh (fun _ => rfl) (fun _ => rfl) (P := P) h0 ?_ hV
    filter_upwards [Metric.ball_mem_nhds T₀ hδ, lt_mem_nhds h0] with t h1 h2
    rw [Metric.mem_ball, Real.dist_eq] at h1
    obtain ⟨w1, w2⟩ := hW t h2.le h1
    refine ⟨w1.trans ?_, w2⟩
    rw [hW0]
    exact n1
  have dF := fit_total_derivative hext hinj hdeg (fun n => free_hasDerivAt hu hh h0 n) dW
  have dS := fit_total_derivative hext hinj hdeg (fun n => entropy_hasDerivAt hu hh h0 n) dW
  have scale : ∀ (Y : Fin nv → ℝ) (c w : ℝ), value (ext.polyfit x.volume (fun n => Y n * c) s.edeg) w =
      value (ext.polyfit x.volume Y s.edeg) w * c := by
    intro Y c w
    rw [fit_linear hext hinj hdeg w Y, fit_linear hext hinj hdeg w, Finset.sum_mul]
    exact Finset.sum_congr rfl fun n _ => by ring
  set D := deriv (deriv (F T₀)) (W T₀) with hD
  set α := expansion (F T₀) (S T₀) (W T₀) with hα
  have eα : W T₀ * α = deriv (S T₀) (W T₀) / 1000 / D := by
    rw [hα, expansion, ← hD]
    field_simp
  have dG : HasDerivAt (fun t => F t (W t) + P * W t) (-r.S i j / 1000) T₀ := by
    refine (dF.add (dW.const_mul P)).congr_deriv ?_
    have : (fun n => -(h T₀).S 0 n / 1000) = fun n => (h T₀).S 0 n * (-1 / 1000) := funext fun n => by ring
    rw [this, scale, n4]
    change S T₀ (W T₀) * (-1 / 1000) + deriv (F T₀) (W T₀) * _ + _ = _
    rw [n1]
    ring
  have dS' : HasDerivAt (fun t => S t (W t)) (Cp / T₀) T₀ := by
    refine dS.congr_deriv ?_
    rw [scale, ← n5]
    change _ + deriv (S T₀) (W T₀) * _ = _
    rw [eα, hCp]
    field_simp
  refine ⟨W, fun t => F t (W t) + P * W t, fun t => S t (W t), fun t => F t (W t) + P * W t + t * S t (W t) / 1000,
    min δ T₀, lt_min hδ h0, ?_, dW, dG, dS', ?_⟩
  · intro nt' np' T p r' hrun' a c hpc hd
    have hu' : u.Of (onGrid s T p) := ⟨hu.e, hu.v, hu.p, hu.t, hu.f⟩
    have ht : 0 ≤ u.t.kelvin (T a) := by
      have := (abs_lt.1 (hd.trans_le (min_le_right _ _))).1
      linarith
    obtain ⟨m1, m2, m3, m4, -, m6⟩ := node_values hext hu' hmin hs hinj hdeg hrun' hh a c rfl
      (show P = p c * _ * _ / _ by rw [hpc])
    change deriv (F (u.t.kelvin (T a))) _ = _ at m1
    change 0 < deriv (deriv (F (u.t.kelvin (T a)))) _ at m2
    change _ = F (u.t.kelvin (T a)) _ + _ at m3
    change _ = S (u.t.kelvin (T a)) _ at m4
    change _ = _ + u.t.kelvin (T a) * _ / _ at m6
    have e := uniq ht (hd.trans_le (min_le_left _ _)) m1 m2
    rw [e] at m3 m4
    refine ⟨e, m3, m4, ?_⟩
    rw [m6, m3, m4]
  · refine (dG.add (((hasDerivAt_id T₀).mul dS').div_const 1000)).congr_deriv ?_
    rw [n4]
    simp only [id]
    field_simp
    ring

end Verif.QHA
