/- Proof work for the quasi-harmonic calculator. -/
import Verif.QHA.Spec
import Verif.HA.Props
import Verif.Poly.Props
import Verif.Grid.Props

namespace Verif.QHA
open Verif.Py Verif.Units Verif.HA Verif.QHA.Spec

variable {nt np nb nf nv : ℕ}

theorem joule_pos (k : Consts) (e : EnergyUnit) : 0 < e.joule k := by
  cases e <;> simp [EnergyUnit.joule, k.Ha_pos, k.eV_pos, k.Ry_pos]
theorem m3_pos (k : Consts) (v : LengthUnit) : 0 < v.m3 k := by
  have := k.Angstrom_pos
  have := k.Bohr_pos
  cases v <;> simp only [LengthUnit.m3] <;> positivity
theorem pascal_pos (p : PressureUnit) : 0 < p.pascal := by
  cases p <;> simp [PressureUnit.pascal]

theorem energyMap_from (k : Consts) (e : EnergyUnit) :
    energyMap k c!"kjmol" e.name = .ok fun x => x * (1000 / k.N) / e.joule k := by
  have h1 := k.Ha_pos.ne'
  have h2 := k.N_pos.ne'
  have h3 := k.eV_pos.ne'
  have h4 := k.Ry_pos.ne'
  cases e <;>
    simp [energyMap, energyToHartree, energyFromHartree, lower, bind, Except.bind, pure,
      Except.pure, EnergyUnit.name, EnergyUnit.joule] <;>
    funext x <;> field_simp

theorem energyMap_to (k : Consts) (e : EnergyUnit) :
    energyMap k e.name c!"kjmol" = .ok fun x => x * e.joule k / (1000 / k.N) := by
  have h1 := k.Ha_pos.ne'
  have h2 := k.N_pos.ne'
  have h3 := k.eV_pos.ne'
  have h4 := k.Ry_pos.ne'
  cases e <;>
    simp [energyMap, energyToHartree, energyFromHartree, lower, bind, Except.bind, pure,
      Except.pure, EnergyUnit.name, EnergyUnit.joule] <;>
    funext x <;> field_simp

theorem volumeMap_to (k : Consts) (v : LengthUnit) :
    volumeMap k v.name c!"m" = .ok fun x => x * v.m3 k := by
  cases v <;>
    simp [volumeMap, volumeToM3, volumeFromM3, lower, bind, Except.bind, pure,
      Except.pure, LengthUnit.name, LengthUnit.m3]

theorem pressureMap_to (p : PressureUnit) :
    pressureMap p.name c!"Pa" = .ok fun x => x * p.pascal := by
  cases p <;>
    simp [pressureMap, pressureToPa, pressureFromPa, lower, bind, Except.bind, pure,
      Except.pure, PressureUnit.name, PressureUnit.pascal]

theorem pressureMap_from (p : PressureUnit) :
    pressureMap c!"Pa" p.name = .ok fun x => x / p.pascal := by
  cases p <;>
    simp [pressureMap, pressureToPa, pressureFromPa, lower, bind, Except.bind, pure,
      Except.pure, PressureUnit.name, PressureUnit.pascal]

theorem temperatureMap_to (t : TemperatureUnit) :
    temperatureMap t.name c!"K" = .ok t.kelvin := by
  cases t <;>
    simp [temperatureMap, tempToKelvin, tempFromKelvin, lower, bind, Except.bind, pure,
      Except.pure, TemperatureUnit.name, zeroCelsius] <;>
    funext x <;> simp [TemperatureUnit.kelvin]

theorem frequencyMap_to (k : Consts) (f : FrequencyUnit) :
    frequencyMap k f.name c!"Hz" = .ok fun x => x * f.hertz k := by
  have h1 := k.c_pos.ne'
  cases f <;>
    simp [frequencyMap, freqToCm, freqFromCm, lower, bind, Except.bind, pure,
      Except.pure, FrequencyUnit.name, FrequencyUnit.hertz] <;>
    funext x <;> field_simp

theorem p2eMap_eq (k : Consts) (e : EnergyUnit) (v : LengthUnit) (p : PressureUnit) :
    p2eMap k e.name v.name p.name = .ok fun x => x * p.pascal * v.m3 k / e.joule k := by
  cases e <;> cases v <;> cases p <;>
    simp [p2eMap, chain3, chain, p2ePressure, p2eVolume, p2eEnergy, lower, EnergyUnit.name,
      LengthUnit.name, PressureUnit.name, EnergyUnit.joule, LengthUnit.m3, PressureUnit.pascal]

theorem e2pMap_eq (k : Consts) (e : EnergyUnit) (v : LengthUnit) (p : PressureUnit) :
    e2pMap k e.name v.name p.name = .ok fun x => x * e.joule k / v.m3 k / p.pascal := by
  cases e <;> cases v <;> cases p <;>
    simp [e2pMap, chain3, chain, e2pPressure, e2pVolume, e2pEnergy, lower, EnergyUnit.name,
      LengthUnit.name, PressureUnit.name, EnergyUnit.joule, LengthUnit.m3, PressureUnit.pascal]

/-- The elementwise maps are what the array functions return. -/
theorem p2eMap_is_pressureToEnergy (k : Consts) (es vs ps : Str) (x : ℝ) {f : ℝ → ℝ}
    (h : p2eMap k es vs ps = .ok f) :
    (pressureToEnergy k (.seqFloat [x]) es vs ps).2 = .ok [f x] := by
  unfold p2eMap chain3 at h
  split at h
  · rename_i a b c h1 h2 h3
    obtain rfl := Except.ok.inj h
    simp [pressureToEnergy, PyVal.floats, run3, step, h1, h2, h3, inplace, finish]
  · exact absurd h (by simp)

theorem e2pMap_is_energyToPressure (k : Consts) (es vs ps : Str) (x : ℝ) {f : ℝ → ℝ}
    (h : e2pMap k es vs ps = .ok f) :
    (energyToPressure k (.seqFloat [x]) es vs ps).2 = .ok [f x] := by
  unfold e2pMap chain3 at h
  split at h
  · rename_i a b c h1 h2 h3
    obtain rfl := Except.ok.inj h
    simp [energyToPressure, PyVal.floats, run3, step, h1, h2, h3, inplace, finish]
  · exact absurd h (by simp)

theorem seqFin_ok {α : Type*} {n : ℕ} (f : Fin n → Except PyErr α) (g : Fin n → α) :
    seqFin f = .ok g ↔ ∀ i, f i = .ok (g i) := by
  induction n with
  | zero =>
    simp only [seqFin, Except.ok.injEq, IsEmpty.forall_iff, iff_true]
    exact Subsingleton.elim _ _
  | succ n ih =>
    cases h0 : f 0 with
    | error e =>
      simp only [seqFin, h0, bind, Except.bind, reduceCtorEq, false_iff, not_forall]
      exact ⟨0, by simp [h0]⟩
    | ok a =>
      cases h1 : seqFin (fun i => f i.succ) with
      | error e =>
        simp only [seqFin, h0, h1, bind, Except.bind, reduceCtorEq, false_iff]
        intro hall
        have := (ih (fun i => f i.succ) (fun i => g i.succ)).2 fun i => hall i.succ
        rw [h1] at this
        exact absurd this (by simp)
      | ok as =>
        have := (ih (fun i => f i.succ) as).1 h1
        simp only [seqFin, h0, h1, bind, Except.bind, pure, Except.pure, Except.ok.injEq]
        constructor
        · rintro rfl i
          refine Fin.cases ?_ (fun i => ?_) i
          · simpa using h0
          · simpa using this i
        · intro hall
          funext i
          refine Fin.cases ?_ (fun i => ?_) i
          · have := hall 0
            rw [h0] at this
            simpa using this
          · have h2 := hall i.succ
            rw [this i] at h2
            simpa using h2

theorem tmat_eq (T : Fin nt → ℝ) (i : Fin nt) (j : Fin np) : tmat T i j = T i := by
  unfold tmat
  congr 1
  apply Fin.ext
  simp only
  have hj := j.isLt
  rw [mul_comm, Nat.mul_add_div (by omega), Nat.div_eq_of_lt hj, add_zero]

theorem grid5_idx : grid5 idx5 = 0 := by
  simp [grid5, idx5, Grid.fineGrid_eq, List.range_succ]

theorem grid5_injective : Function.Injective grid5 := by
  have h : ∀ m : Fin 5, grid5 m = ((m.val : ℝ) - 2) * (0.05 / 100) := by
    intro m
    fin_cases m <;> simp [grid5, Grid.fineGrid_eq, List.range_succ]
  intro a b hab
  rw [h, h] at hab
  have := mul_right_cancel₀ (by norm_num) hab
  apply Fin.ext
  have h2 : (a.val : ℝ) = b.val := by linarith
  exact_mod_cast h2

end Verif.QHA
