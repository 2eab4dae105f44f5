/-
A case of C171: the crystal that expands, at 300 K and pressures around zero.
-/
import Verif.QHA.PressureCurves

namespace Verif.QHA
open Verif.Py Verif.Units Verif.HA Verif.QHA.Spec Verif.StatMech Verif.Poly.Spec

/-- There are runs at several pressures around zero that report the values of the curves, and the derivatives of these at
zero are those of thermodynamics. -/
example (k : Consts) : ∃ (ext : Ext) (A : ℝ) (r₀ : Results 1 1) (V G S₁ H : ℝ → ℝ) (q α d : ℝ) (r : Results 1 9), Numerics ext ∧
    0 < d ∧ 0 < q ∧ run k ext (exAt .td fun _ : Fin 1 => 300) (exSoft A) = .ok r₀ ∧ 3 / 2 ≤ r₀.VT 0 0 ∧
    run k ext (onGrid (exAt .td fun _ : Fin 1 => 300) (fun _ : Fin 1 => 300) fun c : Fin 9 => d * c.val) (exSoft A) = .ok r ∧
    (∀ c : Fin 9, r.VT 0 c = V (d * c.val) ∧ r.G 0 c = G (d * c.val) ∧ r.S 0 c = S₁ (d * c.val) ∧ r.H 0 c = H (d * c.val)) ∧
    HasDerivAt V (-(r₀.VT 0 0 / r₀.KT 0 0)) 0 ∧ HasDerivAt G (r₀.VT 0 0 * q) 0 ∧
    HasDerivAt S₁ (-(r₀.VT 0 0 * α) * q * 1000) 0 ∧ HasDerivAt H (r₀.VT 0 0 * (1 - 300 * α) * q) 0 := by
  obtain ⟨ext, hext⟩ := numerics_exists
  obtain ⟨A, r₀, hr, hV⟩ := exSoft_run (nt := 1) k hext .td fun _ => 300
  have hu := exAt_of (nt := 1) .td fun _ => 300
  have hj := joule_pos k exUnits.e
  have hv := m3_pos k exUnits.v
  have hp := pascal_pos exUnits.p
  choose h hh using at_exists (k := k) hu (exSoft A)
  obtain ⟨V, G, S₁, H, δ, hδ, he, hl, dV, dG, dS, dH⟩ := C171_curves hext hu rfl rfl (exSoft_injective A) (le_refl 3) (by decide) hr hh
    (F := fun t => value (ext.polyfit (exSoft A).volume ((h t).F 0) 2))
    (S := fun t => value (ext.polyfit (exSoft A).volume ((h t).S 0) 2)) (fun _ => rfl) (fun _ => rfl) 0 0
    (T₀ := 300) rfl (by have := (hV 0 0).1; linarith) (q := exUnits.p.pascal * exUnits.v.m3 k / exUnits.e.joule k)
    (div_mul_cancel₀ _ hj.ne') rfl
  have hd : ∀ c : Fin 9, |δ / 9 * c.val - 0| < δ := fun c => by
    have : (c.val : ℝ) < 9 := by exact_mod_cast c.2
    rw [sub_zero, abs_of_nonneg (by positivity)]
    nlinarith
  have p0 : ((exAt (nt := 1) .td fun _ => 300).pressure 0) = 0 := rfl
  rw [p0] at dV dG dS dH
  obtain ⟨r, hr'⟩ := he (T := fun _ : Fin 1 => 300) (p := fun c : Fin 9 => δ / 9 * c.val) (fun _ => rfl) hd
  exact ⟨ext, A, r₀, V, G, S₁, H, _, _, δ / 9, r, hext, by positivity, by positivity, hr, (hV 0 0).1, hr',
    fun c => hl hr' 0 c rfl (hd c), dV, dG, dS, dH⟩

end Verif.QHA
