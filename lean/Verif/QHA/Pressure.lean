/-
Property C120: volumes and Gibbs energies along the pressure grid.
-/
import Verif.QHA.Witness
import Mathlib.Analysis.Calculus.Deriv.MeanValue

namespace Verif.QHA
open Verif.Py Verif.Units Verif.HA Verif.QHA.Spec Verif.StatMech Verif.Poly.Spec

variable {nt np nb nf nv : ℕ} {k : Consts} {ext : Ext} {s : Settings nt np} {x : Input nb nf nv}
  {u : Choice} {r : Results nt np}

/-! ### Two equilibrium points of one curve -/

theorem value_polyval {n : ℕ} (c : Fin n → ℝ) : value c = Poly.polyval (List.ofFn c) := by
  rw [polyval_ofFn_fun]

theorem value_differentiable {n : ℕ} (c : Fin n → ℝ) :
    Differentiable ℝ (value c) ∧ Differentiable ℝ (deriv (value c)) ∧ Continuous (deriv (deriv (value c))) := by
  rw [value_polyval, Poly.deriv_polyval, Poly.deriv_polyval]
  exact ⟨fun y => (Poly.hasDerivAt_polyval _ y).differentiableAt, fun y => (Poly.hasDerivAt_polyval _ y).differentiableAt,
    (show Differentiable ℝ _ from fun y => (Poly.hasDerivAt_polyval _ y).differentiableAt).continuous⟩

/-- The curvature of a cubic is affine. -/
theorem cubic_curvature {n : ℕ} (hn : n ≤ 4) (c : Fin n → ℝ) : ∃ a b : ℝ, ∀ v, deriv (deriv (value c)) v = a + b * v := by
  rw [value_polyval, Poly.deriv_polyval, Poly.deriv_polyval]
  generalize hl : List.ofFn c = l
  have hlen : l.length ≤ 4 := by rw [← hl, List.length_ofFn]; exact hn
  match l, hlen with
  | [], _ => exact ⟨0, 0, fun v => by simp [Poly.polyder]⟩
  | [a], _ => exact ⟨0, 0, fun v => by simp [Poly.polyder]⟩
  | [a, b], _ => exact ⟨0, 0, fun v => by simp [Poly.polyder]⟩
  | [a, b, c], _ => exact ⟨2 * c, 0, fun v => by simp [Poly.polyder]⟩
  | [a, b, c, d], _ => exact ⟨2 * c, 6 * d, fun v => by
    have : Poly.polyder (Poly.polyder [a, b, c, d]) = [2 * c, 6 * d] := by
      simp [Poly.polyder]
      ring_nf
    rw [this]
    simp⟩

/-- Two points of a curve, convex between them, with slopes `-P` and `-Q`. -/
theorem two_points {f : ℝ → ℝ} (hf : Differentiable ℝ f) (hf' : Differentiable ℝ (deriv f)) {V W P Q : ℝ} (hPQ : P < Q)
    (hV : deriv f V = -P) (hW : deriv f W = -Q) (hc : ∀ v ∈ Set.uIcc V W, 0 < deriv (deriv f) v) :
    W < V ∧ (∃ ξ ∈ Set.Ioo W V, Q - P = deriv (deriv f) ξ * (V - W)) ∧
      W * (Q - P) < (f W + Q * W) - (f V + P * V) ∧ (f W + Q * W) - (f V + P * V) < V * (Q - P) := by
  have hmono : StrictMonoOn (deriv f) (Set.uIcc V W) := by
    refine strictMonoOn_of_deriv_pos (convex_uIcc V W) hf'.continuous.continuousOn fun v hv => hc v (interior_subset hv)
  have hlt : W < V := by
    by_contra hle
    rcases (not_lt.1 hle).eq_or_lt with h | h
    · rw [h, hW] at hV
      linarith
    · have := hmono Set.left_mem_uIcc Set.right_mem_uIcc h
      rw [hV, hW] at this
      linarith
  have hsub : Set.Icc W V ⊆ Set.uIcc V W := by rw [Set.uIcc_of_ge hlt.le]
  obtain ⟨ξ, hξ, h1⟩ := exists_deriv_eq_slope (deriv f) hlt hf'.continuous.continuousOn hf'.differentiableOn
  obtain ⟨η, hη, h2⟩ := exists_deriv_eq_slope f hlt hf.continuous.continuousOn hf.differentiableOn
  have hVW : 0 < V - W := by linarith
  refine ⟨hlt, ⟨ξ, hξ, ?_⟩, ?_, ?_⟩
  · rw [h1, div_mul_cancel₀ _ hVW.ne', hV, hW]
    ring
  · have h3 : deriv f η < -P := by
      rw [← hV]
      exact hmono (hsub ⟨hη.1.le, hη.2.le⟩) Set.left_mem_uIcc hη.2
    rw [h2, div_lt_iff₀ hVW] at h3
    linarith
  · have h3 : -Q < deriv f η := by
      rw [← hW]
      exact hmono Set.right_mem_uIcc (hsub ⟨hη.1.le, hη.2.le⟩) hη.1
    rw [h2, lt_div_iff₀ hVW] at h3
    linarith

theorem cubic_between {n : ℕ} (hn : n ≤ 4) (c : Fin n → ℝ) {V W : ℝ} (hV : 0 < deriv (deriv (value c)) V)
    (hW : 0 < deriv (deriv (value c)) W) : ∀ v ∈ Set.uIcc V W, 0 < deriv (deriv (value c)) v := by
  obtain ⟨a, b, h⟩ := cubic_curvature hn c
  rw [h] at hV hW
  intro v hv
  rw [h]
  rcases Set.mem_uIcc.1 hv with ⟨h1, h2⟩ | ⟨h1, h2⟩ <;> rcases le_total 0 b with hb | hb
  · nlinarith [mul_le_mul_of_nonneg_left h1 hb]
  · nlinarith [mul_le_mul_of_nonpos_left h2 hb]
  · nlinarith [mul_le_mul_of_nonneg_left h1 hb]
  · nlinarith [mul_le_mul_of_nonpos_left h2 hb]

/-! ### C120 -/

/-- C120: at each temperature the equilibrium volume decreases as the pressure grows, and by the amount that the curvature
of the free energy at some volume in between prescribes.  The free energies are fitted by a polynomial of degree at most
three (the default), or of any degree if the curve is convex between the two volumes. -/
theorem C120_volumes (hext : Numerics ext) (hu : u.Of s) (hmin : s.minimization = .poly)
    (hrun : run k ext s x = .ok r) {ha : HA.Results nt nv} (hha : HA.run k (harmonicSettings s) x.toInput = .ok ha)
    (i : Fin nt) (j l : Fin np) (hp : s.pressure j < s.pressure l) {F : ℝ → ℝ}
    (hF : F = value (ext.polyfit x.volume (ha.F i) s.edeg))
    (hc : s.edeg ≤ 3 ∨ ∀ V ∈ Set.uIcc (r.VT i j) (r.VT i l), 0 < deriv (deriv F) V) :
    r.VT i l < r.VT i j ∧
    ∃ V ∈ Set.Ioo (r.VT i l) (r.VT i j), (s.pressure l - s.pressure j) * u.p.pascal =
      deriv (deriv F) V * (r.VT i j - r.VT i l) * u.e.joule k / u.v.m3 k := by
  obtain ⟨-, h1, h2, -⟩ := C20_equilibrium_volume hext hu hmin hrun hha i j
  obtain ⟨-, h3, h4, -⟩ := C20_equilibrium_volume hext hu hmin hrun hha i l
  rw [← hF] at h1 h2 h3 h4
  have hj := joule_pos k u.e
  have hv := m3_pos k u.v
  have hpa := pascal_pos u.p
  have hc' : ∀ V ∈ Set.uIcc (r.VT i j) (r.VT i l), 0 < deriv (deriv F) V := by
    rcases hc with hd | hc
    · subst hF
      exact cubic_between (by omega) _ h2 h4
    · exact hc
  have hd := value_differentiable (ext.polyfit x.volume (ha.F i) s.edeg)
  rw [← hF] at hd
  have slope : ∀ {y p : ℝ}, y * u.e.joule k / u.v.m3 k = -(p * u.p.pascal) →
      y = -(p * u.p.pascal * u.v.m3 k / u.e.joule k) := by
    intro y p h
    have : y = y * u.e.joule k / u.v.m3 k * u.v.m3 k / u.e.joule k := by field_simp
    rw [this, h]
    ring
  obtain ⟨k1, ⟨ξ, hξ, k2⟩, -⟩ := two_points hd.1 hd.2.1 (P := s.pressure j * u.p.pascal * u.v.m3 k / u.e.joule k)
    (Q := s.pressure l * u.p.pascal * u.v.m3 k / u.e.joule k) (by gcongr) (slope h1) (slope h3) hc'
  refine ⟨k1, ξ, hξ, ?_⟩
  rw [← k2]
  field_simp

/-- C120: in the thermodynamic scheme the Gibbs energy grows with pressure at the rate of the volume: the difference of
the Gibbs energies at two pressures lies between the pressure difference times the smaller and times the larger volume, in
joule. -/
theorem C120_gibbs (hext : Numerics ext) (hu : u.Of s) (hmin : s.minimization = .poly) (hs : s.scheme = .td)
    (hrun : run k ext s x = .ok r) {ha : HA.Results nt nv} (hha : HA.run k (harmonicSettings s) x.toInput = .ok ha)
    (i : Fin nt) (j l : Fin np) (hp : s.pressure j < s.pressure l) {F : ℝ → ℝ}
    (hF : F = value (ext.polyfit x.volume (ha.F i) s.edeg))
    (hc : s.edeg ≤ 3 ∨ ∀ V ∈ Set.uIcc (r.VT i j) (r.VT i l), 0 < deriv (deriv F) V) :
    r.VT i l * u.v.m3 k * ((s.pressure l - s.pressure j) * u.p.pascal) < (r.G i l - r.G i j) * u.e.joule k ∧
    (r.G i l - r.G i j) * u.e.joule k < r.VT i j * u.v.m3 k * ((s.pressure l - s.pressure j) * u.p.pascal) := by
  obtain ⟨-, h1, h2, -⟩ := C20_equilibrium_volume hext hu hmin hrun hha i j
  obtain ⟨-, h3, h4, -⟩ := C20_equilibrium_volume hext hu hmin hrun hha i l
  rw [← hF] at h1 h2 h3 h4
  have hj := joule_pos k u.e
  have hv := m3_pos k u.v
  have hpa := pascal_pos u.p
  have hc' : ∀ V ∈ Set.uIcc (r.VT i j) (r.VT i l), 0 < deriv (deriv F) V := by
    rcases hc with hd | hc
    · subst hF
      exact cubic_between (by omega) _ h2 h4
    · exact hc
  have hd := value_differentiable (ext.polyfit x.volume (ha.F i) s.edeg)
  rw [← hF] at hd
  have slope : ∀ {y p : ℝ}, y * u.e.joule k / u.v.m3 k = -(p * u.p.pascal) →
      y = -(p * u.p.pascal * u.v.m3 k / u.e.joule k) := by
    intro y p h
    have : y = y * u.e.joule k / u.v.m3 k * u.v.m3 k / u.e.joule k := by field_simp
    rw [this, h]
    ring
  obtain ⟨-, -, k1, k2⟩ := two_points hd.1 hd.2.1 (P := s.pressure j * u.p.pascal * u.v.m3 k / u.e.joule k)
    (Q := s.pressure l * u.p.pascal * u.v.m3 k / u.e.joule k) (by gcongr) (slope h1) (slope h3) hc'
  have e1 := (C68_td_interpolates hu hrun hs hha i j).2.2.2.2.2.2
  have e2 := (C68_td_interpolates hu hrun hs hha i l).2.2.2.2.2.2
  have g1 := (C15_legendre hu hrun i j).2
  have g2 := (C15_legendre hu hrun i l).2
  simp only [← hF] at e1 e2
  rw [e1] at g1
  rw [e2] at g2
  have hG : (r.G i l - r.G i j) * u.e.joule k =
      ((F (r.VT i l) + s.pressure l * u.p.pascal * u.v.m3 k / u.e.joule k * r.VT i l) -
        (F (r.VT i j) + s.pressure j * u.p.pascal * u.v.m3 k / u.e.joule k * r.VT i j)) * u.e.joule k := by
    rw [sub_mul, g1, g2]
    field_simp
  rw [hG]
  constructor
  · have := mul_lt_mul_of_pos_right k1 hj
    refine lt_of_eq_of_lt ?_ this
    field_simp
  · have := mul_lt_mul_of_pos_right k2 hj
    refine lt_of_lt_of_eq this ?_
    field_simp

/-- Pressures 0 and 1 GPa. -/
noncomputable def exPressures (nt : ℕ) : Settings nt 2 :=
  { scheme := .td, minimization := .poly, eos := c!"BM", edeg := 2, fdeg := 2,
    eunit := c!"Ha", vunit := c!"A", funit := c!"cm^-1", tunit := c!"K", punit := c!"GPa",
    kieffer := false, temperature := fun i => i.val + 1, pressure := fun j => j.val }

/-- The hypotheses of `C120_volumes` and `C120_gibbs` are met by the crystal of the other examples at two pressures. -/
theorem exPressures_witness (k : Consts) (nt : ℕ) : ∃ (ext : Ext) (ha : HA.Results nt 3) (r : Results nt 2),
    Numerics ext ∧ exUnits.Of (exPressures nt) ∧ HA.run k (harmonicSettings (exPressures nt)) exInput.toInput = .ok ha ∧
    run k ext (exPressures nt) exInput = .ok r ∧ (exPressures nt).pressure 0 < (exPressures nt).pressure 1 ∧
    (exPressures nt).edeg ≤ 3 := by
  obtain ⟨ext, hext⟩ := numerics_exists
  have hu : exUnits.Of (exPressures nt) := ⟨rfl, rfl, rfl, rfl, rfl⟩
  obtain ⟨ha, hha, hF, -, -, -, -, hC, -⟩ := harmonic_run hu exInput (k := k)
  have hfit : ∀ i, ∃ a : ℝ,
      value (ext.polyfit exInput.volume (ha.F i) 2) = fun V => (V - 2) ^ 2 + a := by
    intro i
    refine ⟨ha.F i 1, ?_⟩
    have hval : ∀ V, value ![4 + ha.F i 1, -4, 1] V = (V - 2) ^ 2 + ha.F i 1 := by
      intro V
      simp [value, Fin.sum_univ_three]
      ring
    have hd : ∀ n, ha.F i n = value ![4 + ha.F i 1, -4, 1] (exInput.volume n) := by
      intro n
      rw [hval, hF]
      simp only [freeEnergy, vibrationalFreeEnergy, kernel_eq, exInput]
      fin_cases n <;> simp <;> norm_num
    have : ext.polyfit exInput.volume (ha.F i) 2 = ![4 + ha.F i 1, -4, 1] :=
      Poly.value_injective exInput_injective (le_refl 3) fun n => by
        rw [Poly.leastSquares_exact (hext.fit _ _ _) hd n, hd n]
    rw [this]
    exact funext hval
  have hd1 : ∀ a : ℝ, deriv (fun V : ℝ => (V - 2) ^ 2 + a) = fun V => 2 * (V - 2) := by
    intro a
    funext V
    have h : HasDerivAt (fun V : ℝ => (V - 2) ^ 2 + a) (2 * (V - 2) ^ 1 * 1) V :=
      (((hasDerivAt_id V).sub_const 2).pow 2).add_const a
    rw [h.deriv]; ring
  have hd2 : deriv (fun V : ℝ => 2 * (V - 2)) = fun _ => 2 := by
    funext V
    have h : HasDerivAt (fun V : ℝ => 2 * (V - 2)) (2 * 1) V :=
      ((hasDerivAt_id V).sub_const 2).const_mul 2
    rw [h.deriv]; ring
  obtain ⟨r, hr⟩ := (C20_run_succeeds_iff (x := exInput) hext hu rfl rfl hha).1 (by
    intro i j
    obtain ⟨a, ha⟩ := hfit i
    have hj := (joule_pos k exUnits.e).ne'
    have hv := (m3_pos k exUnits.v).ne'
    refine ⟨2 - (exPressures nt).pressure j * exUnits.p.pascal * exUnits.v.m3 k / exUnits.e.joule k / 2, ?_, ?_⟩
    · show deriv (value (ext.polyfit exInput.volume _ 2)) _ * _ / _ = _
      rw [ha, hd1]
      field_simp
      ring
    · show 0 < deriv (deriv (value (ext.polyfit exInput.volume _ 2))) _
      rw [ha, hd1, hd2]
      norm_num)
  exact ⟨ext, ha, r, hext, hu, hha, hr, by simp [exPressures], by simp [exPressures]⟩

end Verif.QHA
