/-
Cases of C172: the rigid crystal at two pressures, and the crystal that expands, at 0 K.
-/
import Verif.QHA.FreqGibbs

namespace Verif.QHA
open Verif.Py Verif.Units Verif.HA Verif.QHA.Spec Verif.StatMech Verif.Poly.Spec

variable {ext : Ext}

/-- The hypotheses of `C172_bracket_partial` are met by the rigid crystal at two pressures. -/
example (k : Consts) : ∃ (ext : Ext) (ha : HA.Results 5 3) (r : Results 5 2) (M : Fin 2 → ℝ),
    r.VT 0 1 * exUnits.v.m3 k * (((exPressures 5).pressure 1 - (exPressures 5).pressure 0) * exUnits.p.pascal) <
      ((r.G 0 1 - M 1) - (r.G 0 0 - M 0)) * exUnits.e.joule k ∧
    run k ext (exPressures 5) exInput = .ok r ∧
    HA.run k (harmonicSettings (exPressures 5)) exInput.toInput = .ok ha := by
  obtain ⟨ext, ha, r, hext, hu, hha, hr, hp, hd⟩ := exPressures_witness k 5
  exact ⟨ext, ha, r, fun j => r.F 0 j - value (ext.polyfit exInput.volume (ha.F 0) 2) (r.VT 0 j),
    (C172_bracket_partial hext hu rfl hr hha 0 0 1 hp rfl (.inl hd) (fun j => (add_sub_cancel _ _).symm)).1, hr, hha⟩

/-- The hypotheses of `C172_absolute_zero_partial` are met by the crystal that expands on heating, at 0 K. -/
example (k : Consts) (hext : Numerics ext) : ∃ A r, ∃ ha : HA.Results 1 3,
    run k ext (exAt .freq fun _ : Fin 1 => 0) (exSoft A) = .ok r ∧
    r.F 0 0 = value (ext.polyfit (exSoft A).volume (ha.F 0) 2) (r.VT 0 0) := by
  obtain ⟨A, r, hr, hV⟩ := exSoft_run k hext .freq (fun _ : Fin 1 => 0)
  obtain ⟨ha, hha, -⟩ := harmonic_run (exAt_of .freq fun _ : Fin 1 => 0) (exSoft A) (k := k)
  refine ⟨A, r, ha, hr, C172_absolute_zero_partial hext (exAt_of .freq _) rfl (exSoft_injective A) (by decide) rfl hr hha 0 0
    ?_ ?_ ?_⟩
  · show exUnits.t.kelvin 0 = 0
    simp [exUnits, TemperatureUnit.kelvin]
  · intro q b n
    fin_cases n <;> norm_num [exSoft]
  · intro q b
    have hz := hertz_pos k exUnits.f
    have hval : ∀ V, value ![400 * exUnits.f.hertz k, -100 * exUnits.f.hertz k, 0] V = (400 - 100 * V) * exUnits.f.hertz k := by
      intro V
      simp [value, Fin.sum_univ_three]
      ring
    have hd : ∀ n, (exSoft A).freq q b n * exUnits.f.hertz k =
        value ![400 * exUnits.f.hertz k, -100 * exUnits.f.hertz k, 0] ((exSoft A).volume n) := by
      intro n
      rw [hval]
      simp only [exSoft]
      ring
    have : ext.polyfit (exSoft A).volume (fun n => (exSoft A).freq q b n * exUnits.f.hertz k) 2 =
        ![400 * exUnits.f.hertz k, -100 * exUnits.f.hertz k, 0] :=
      Poly.value_injective (exSoft_injective A) (le_refl 3) fun n => by
        rw [Poly.leastSquares_exact (hext.fit _ _ _) hd n, hd n]
    show 0 < value (ext.polyfit (exSoft A).volume (fun n => (exSoft A).freq q b n * exUnits.f.hertz k) 2) _
    rw [this, hval]
    have := (hV 0 0).2
    exact mul_pos (by linarith) hz

/-- A routine that fits and solves exists, so the witness of `C172_gibbs_violated` is one of a program. -/
example (k : Consts) : ∃ (ext : Ext) (A p : ℝ) (r : Results 1 2), run k ext (exLine ![0, p]) (exBent A) = .ok r := by
  obtain ⟨ext, hext⟩ := numerics_exists
  obtain ⟨A, p, r, -, hr, -⟩ := C172_gibbs_violated k hext
  exact ⟨ext, A, p, r, hr⟩

end Verif.QHA
