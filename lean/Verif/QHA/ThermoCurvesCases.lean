/-
Cases of C169 and C170: the rigid crystal under pressure and the crystal that expands, at 300 K.
-/
import Verif.QHA.ThermoCurves

namespace Verif.QHA
open Verif.Py Verif.Units Verif.HA Verif.QHA.Spec Verif.StatMech Verif.Poly.Spec

variable {ext : Ext} {np : ℕ}

/-- The rigid crystal at any temperature and pressures: its volumes. -/
theorem pressed (k : Consts) (hext : Numerics ext) (nt : ℕ) (T : Fin nt → ℝ) (p : Fin np → ℝ) :
    ∃ r, run k ext (onGrid (exSettings nt) T p) exInput = .ok r ∧ ∀ i j,
      r.VT i j = 2 - p j * exUnits.p.pascal * exUnits.v.m3 k / exUnits.e.joule k / 2 := by
  have hu : exUnits.Of (onGrid (exSettings nt) T p) := ⟨rfl, rfl, rfl, rfl, rfl⟩
  obtain ⟨ha, hha, hF, -, -, -, -, hC, -⟩ := harmonic_run hu exInput (k := k)
  have hfit : ∀ i, ∃ a : ℝ,
      value (ext.polyfit exInput.volume (ha.F i) 2) = fun V => (V - 2) ^ 2 + a := by
    intro i
    refine ⟨ha.F i 1, ?_⟩
    have hval : ∀ V, value ![4 + ha.F i 1, -4, 1] V = (V - 2) ^ 2 + ha.F i 1 := by
      intro V
      simp [value, Fin.sum_univ_three]
      ring
    have hd : ∀ n, ha.F i n = value ![4 + ha.F i 1, -4, 1] (exInput.volume n) := by
      intro n
      rw [hval, hF]
      simp only [freeEnergy, vibrationalFreeEnergy, kernel_eq, exInput]
      fin_cases n <;> simp <;> norm_num
    have : ext.polyfit exInput.volume (ha.F i) 2 = ![4 + ha.F i 1, -4, 1] :=
      Poly.value_injective exInput_injective (le_refl 3) fun n => by
        rw [Poly.leastSquares_exact (hext.fit _ _ _) hd n, hd n]
    rw [this]
    exact funext hval
  have hd1 : ∀ a : ℝ, deriv (fun V : ℝ => (V - 2) ^ 2 + a) = fun V => 2 * (V - 2) := by
    intro a
    funext V
    have h : HasDerivAt (fun V : ℝ => (V - 2) ^ 2 + a) (2 * (V - 2) ^ 1 * 1) V :=
      (((hasDerivAt_id V).sub_const 2).pow 2).add_const a
    rw [h.deriv]; ring
  have hd2 : deriv (fun V : ℝ => 2 * (V - 2)) = fun _ => 2 := by
    funext V
    have h : HasDerivAt (fun V : ℝ => 2 * (V - 2)) (2 * 1) V :=
      ((hasDerivAt_id V).sub_const 2).const_mul 2
    rw [h.deriv]; ring
  have hj := (joule_pos k exUnits.e).ne'
  have hv := (m3_pos k exUnits.v).ne'
  obtain ⟨r, hr⟩ := (C20_run_succeeds_iff (x := exInput) hext hu rfl rfl hha).1 (by
    intro i j
    obtain ⟨a, ha⟩ := hfit i
    refine ⟨2 - p j * exUnits.p.pascal * exUnits.v.m3 k / exUnits.e.joule k / 2, ?_, ?_⟩
    · show deriv (value (ext.polyfit exInput.volume _ 2)) _ * _ / _ = -(p j * _)
      rw [ha, hd1]
      field_simp
      ring
    · show 0 < deriv (deriv (value (ext.polyfit exInput.volume _ 2))) _
      rw [ha, hd1, hd2]
      norm_num)
  refine ⟨r, hr, fun i j => ?_⟩
  obtain ⟨a, ea⟩ := hfit i
  obtain ⟨-, e, -⟩ := C20_equilibrium_volume hext hu rfl hr hha i j
  change deriv (value (ext.polyfit exInput.volume _ 2)) _ * _ / _ = -(p j * _) at e
  rw [ea, hd1, div_eq_iff hv] at e
  have : 2 * (r.VT i j - 2) = -(p j * exUnits.p.pascal) * exUnits.v.m3 k / exUnits.e.joule k := by
    rw [← e]
    field_simp
  linear_combination this / 2

/-- `C169_trapezoid` for a pressure under which the volume falls from 2 to 3/2. -/
example (k : Consts) : ∃ (ext : Ext) (p : ℝ) (r : Results 1 2), Numerics ext ∧ 0 < p ∧ r.VT 0 0 = 2 ∧ r.VT 0 1 = 3 / 2 ∧
    run k ext (onGrid (exSettings 1) (fun _ => 300) ![0, p]) exInput = .ok r ∧
    p = (r.KT 0 0 / 2 + r.KT 0 1 / (3 / 2)) / 4 := by
  obtain ⟨ext, hext⟩ := numerics_exists
  have hj := joule_pos k exUnits.e
  have hv := m3_pos k exUnits.v
  have hp := pascal_pos exUnits.p
  set p : ℝ := exUnits.e.joule k / (exUnits.p.pascal * exUnits.v.m3 k) with hpd
  obtain ⟨r, hr, hV⟩ := pressed k hext 1 (fun _ => 300) ![0, p]
  have v0 : r.VT 0 0 = 2 := by rw [hV]; simp
  have v1 : r.VT 0 1 = 3 / 2 := by
    rw [hV]
    have : p * exUnits.p.pascal * exUnits.v.m3 k / exUnits.e.joule k = 1 := by rw [hpd]; field_simp
    show 2 - p * exUnits.p.pascal * exUnits.v.m3 k / exUnits.e.joule k / 2 = _
    rw [this]
    norm_num
  have hu : exUnits.Of (onGrid (exSettings 1) (fun _ : Fin 1 => 300) ![0, p]) := ⟨rfl, rfl, rfl, rfl, rfl⟩
  refine ⟨ext, p, r, hext, by positivity, v0, v1, hr, ?_⟩
  have := C169_trapezoid hext hu rfl rfl (show 2 ≤ 3 by decide) hr 0 0 1 (by rw [v0]; norm_num) (by rw [v1]; norm_num)
  rw [v0, v1] at this
  change p - 0 = _ at this
  linarith

/-- `C169_limit` for the same crystal: there are runs, with as small a step of the pressure as wanted, whose volumes have the
difference quotient of the bulk modulus within any tolerance. -/
example (k : Consts) {ε : ℝ} (hε : 0 < ε) : ∃ (ext : Ext) (p : ℝ) (r : Results 1 2), Numerics ext ∧ 0 < p ∧
    run k ext (onGrid (exSettings 1) (fun _ => 300) ![0, p]) exInput = .ok r ∧ r.VT 0 0 = 2 ∧
    |(r.VT 0 1 - r.VT 0 0) / p + 2 / r.KT 0 0| < ε := by
  obtain ⟨ext, hext⟩ := numerics_exists
  obtain ⟨r, hr, hV⟩ := pressed k hext 1 (fun _ => 300) fun _ : Fin 1 => 0
  have hu : exUnits.Of (onGrid (exSettings 1) (fun _ : Fin 1 => 300) fun _ : Fin 1 => 0) := ⟨rfl, rfl, rfl, rfl, rfl⟩
  have v0 : r.VT 0 0 = 2 := by rw [hV]; simp
  obtain ⟨δ, hδ, hl⟩ := C169_limit hext hu rfl rfl (by decide) hr 0 0 (by rw [v0]; norm_num) hε
  obtain ⟨r', hr', -⟩ := pressed k hext 1 (fun _ => 300) ![0, δ / 2]
  obtain ⟨e1, e2, e3⟩ := hl hr' 0 1 0 rfl rfl (by simp [hδ.ne']) (by
    simp only [Matrix.cons_val_one, Matrix.cons_val_zero, sub_zero, Matrix.cons_val_fin_one]
    rw [abs_of_pos (by linarith)]
    linarith)
  refine ⟨ext, δ / 2, r', hext, by linarith, hr', by rw [e1, v0], ?_⟩
  rw [v0, ← e2] at e3
  simpa using e3

/-- `C170_curves` for the crystal that expands, at 300 K, and a run nearby that reports values of the curves. -/
example (k : Consts) : ∃ (ext : Ext) (A : ℝ) (r₀ : Results 1 1) (V G S₁ H : ℝ → ℝ) (Cp d : ℝ) (r : Results 60 1), Numerics ext ∧
    0 < d ∧ run k ext (exAt .td fun _ : Fin 1 => 300) (exSoft A) = .ok r₀ ∧
    run k ext (onGrid (exAt .td fun _ : Fin 1 => 300) (fun a : Fin 60 => 300 + d * a.val) fun _ : Fin 1 => 0) (exSoft A) = .ok r ∧
    (∀ a : Fin 60, r.VT a 0 = V (300 + d * a.val) ∧ r.G a 0 = G (300 + d * a.val) ∧ r.S a 0 = S₁ (300 + d * a.val) ∧
      r.H a 0 = H (300 + d * a.val)) ∧
    HasDerivAt G (-r₀.S 0 0 / 1000) 300 ∧ HasDerivAt S₁ (Cp / 300) 300 ∧ HasDerivAt H (Cp / 1000) 300 := by
  obtain ⟨ext, hext⟩ := numerics_exists
  obtain ⟨A, r₀, hr, hV⟩ := exSoft_run (nt := 1) k hext .td fun _ => 300
  have hu := exAt_of (nt := 1) .td fun _ => 300
  choose h hh using at_exists (k := k) hu (exSoft A)
  obtain ⟨V, G, S₁, H, δ, hδ, hl, -, dG, dS, dH⟩ := C170_curves hext hu rfl rfl (exSoft_injective A) (le_refl 3) (by decide) hr hh
    (F := fun t => value (ext.polyfit (exSoft A).volume ((h t).F 0) 2))
    (S := fun t => value (ext.polyfit (exSoft A).volume ((h t).S 0) 2)) (fun _ => rfl) (fun _ => rfl) 0 0
    (T₀ := 300) rfl (by norm_num) (by have := (hV 0 0).1; linarith) rfl
  obtain ⟨δ', hδ', hp⟩ := C168_persists hext hu rfl (exSoft_injective A) (le_refl 3) (by decide) hr 0 0
    (show (0 : ℝ) ≤ 300 by norm_num)
  set d : ℝ := min δ δ' / 60 with hd
  have hd0 : 0 < d := by have := lt_min hδ hδ'; positivity
  have h60 : d * 60 = min δ δ' := by rw [hd]; ring
  have kel : ∀ y : ℝ, exUnits.t.kelvin y = y := fun y => by simp [exUnits, TemperatureUnit.kelvin]
  have hrange : ∀ a : Fin 60, (0 : ℝ) ≤ d * a.val ∧ d * a.val < min δ δ' := fun a => by
    have : (a.val : ℝ) < 60 := by exact_mod_cast a.2
    refine ⟨by positivity, ?_⟩
    nlinarith
  obtain ⟨r, hr'⟩ := hp (T := fun a : Fin 60 => 300 + d * a.val) (p := fun _ : Fin 1 => 0) (fun _ => rfl) fun a => by
    have := hrange a
    refine ⟨by rw [kel]; linarith, ?_⟩
    show |exUnits.t.kelvin (300 + d * a.val) - exUnits.t.kelvin 300| < δ'
    rw [kel, kel, add_sub_cancel_left, abs_of_nonneg this.1]
    exact this.2.trans_le (min_le_right _ _)
  refine ⟨ext, A, r₀, V, G, S₁, H, _, d, r, hext, hd0, hr, hr', fun a => ?_, dG, dS, dH⟩
  have := hl hr' a 0 rfl (by
    rw [kel, add_sub_cancel_left, abs_of_nonneg (hrange a).1]
    exact (hrange a).2.trans_le (min_le_left _ _))
  simpa only [kel] using this

end Verif.QHA
