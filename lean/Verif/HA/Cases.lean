/- Concrete cases for the theorems about harmonic runs. -/
import Verif.HA.Props
import Verif.Units.Cases

namespace Verif.HA.Cases
open Verif.Py Verif.Units Verif.Units.Spec Verif.HA Verif.StatMech

/-- Two q-points with weights 1 and 3, three modes, one volume: energies in eV, frequencies in THz. -/
noncomputable def input : Input 2 3 1 := ⟨fun _ => -3, fun j m _ => 2 + j + m, ![1, 3]⟩

/-- 25 degrees Celsius. -/
noncomputable def settings : Settings 1 := ⟨c!"eV", c!"THz", c!"C", fun _ => 25⟩

/-- The same crystal, in hartree and hertz, at the same temperature in kelvin. -/
noncomputable def input' : Input 2 3 1 :=
  ⟨fun _ => -3 * codata.eV / codata.Ha, fun j m _ => 10 ^ 12 * (2 + j + m), ![1, 3]⟩

noncomputable def settings' : Settings 1 := ⟨c!"Ha", c!"Hz", c!"K", fun _ => 298.15⟩

theorem runs : ∃ r, run codata settings input = .ok r :=
  C14_selectable_units codata input _ (by simp) (by simp) (by simp)

theorem runs' : ∃ r, run codata settings' input' = .ok r :=
  C14_selectable_units codata input' _ (by simp) (by simp) (by simp)

theorem eV : Means (energiesShort codata) c!"eV" ⟨[c!"electron volt", c!"ev"], codata.eV, 0⟩ := ⟨by simp [energiesShort], by decide⟩
theorem ha : Means (energiesShort codata) c!"Ha" ⟨[c!"ha"], codata.Ha, 0⟩ := ⟨by simp [energiesShort], by decide⟩
theorem thz : Means (frequencies codata) c!"THz" ⟨[c!"thz"], 10 ^ 12, 0⟩ := ⟨by simp [frequencies], by decide⟩
theorem hz : Means (frequencies codata) c!"Hz" ⟨[c!"hz"], 1, 0⟩ := ⟨by simp [frequencies], by decide⟩
theorem celsius : Means temperatures c!"C" ⟨[c!"celsius", c!"°c", c!"c"], 1, 273.15⟩ := ⟨by simp [temperatures], by decide⟩
theorem kelvin : Means temperatures c!"K" ⟨[c!"kelvin", c!"k"], 1, 0⟩ := ⟨by simp [temperatures], by decide⟩

theorem room : convertTemperature [settings.temperature 0] settings.tunit c!"K" = .ok [298.15] := by
  refine (C01_faithful.ok_iff _ _ _ _).2 ⟨_, _, celsius, kelvin, ?_⟩
  simp [Scale.toRef, settings]; norm_num

/-- A run: total energy, free energy, and `F = U - TS` at 298.15 K. -/
example : ∃ r, run codata settings input = .ok r ∧ r.F 0 0 = r.Utot 0 0 - 298.15 * r.S 0 0 / 1000 := by
  obtain ⟨r, hr⟩ := runs
  exact ⟨r, hr, (C14_consistent hr 0 0 room).2.2⟩

example : ∑ j, usedWeights ![1, 3] j = 1 := C14_weights ![1, 3] (by simp [totalQPoints, Fin.sum_univ_two]; norm_num)

example : ∃ r, run codata settings input = .ok r ∧ codata.eV * r.S 0 0 + 0 = 1000 / codata.N * entropy codata
    (fun i : Fin 1 => (⟨[c!"celsius", c!"°c", c!"c"], 1, 273.15⟩ : Scale).toRef (settings.temperature i))
    (fun j m n => (⟨[c!"thz"], 10 ^ 12, 0⟩ : Scale).toRef (input.freq j m n)) (usedWeights input.weights) 0 0 := by
  obtain ⟨r, hr⟩ := runs
  exact ⟨r, hr, (C14_in_users_units hr eV thz celsius 0 0).2.2.2.1⟩

/-- Both runs give the same free energy. -/
example : ∃ r r', run codata settings input = .ok r ∧ run codata settings' input' = .ok r' ∧
    codata.eV * r.F 0 0 + 0 = codata.Ha * r'.F 0 0 + 0 := by
  obtain ⟨r, hr⟩ := runs
  obtain ⟨r', hr'⟩ := runs'
  refine ⟨r, r', hr, hr', (C14_unit_independent hr hr' eV ha thz hz celsius kelvin (fun n => ?_) (fun j m n => ?_) (fun i => ?_) rfl 0 0).2.1⟩
  · have := codata.Ha_pos.ne'
    simp only [Scale.toRef, input, input']; field_simp
  · simp only [Scale.toRef, input, input']; ring
  · simp only [Scale.toRef, settings, settings']; norm_num

end Verif.HA.Cases
