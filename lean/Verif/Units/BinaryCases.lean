/- C152 on the computer, for concrete units. -/
import Verif.Units.BinaryOrder

noncomputable section

namespace Verif.Units.Rounded
open Verif.Py Verif.Units Verif.Units.Spec
open Spec (u Accurate Within)

/-- Two pressures in gigapascal, read in kilobar. -/
example : ∃ y z, convertPressure computer [1 / 10, 25] c!"GPa" c!"kbar" = .ok [y, z] ∧
    |10 ^ 8 * y - 10 ^ 8| ≤ 9 * u * 10 ^ 8 ∧ |10 ^ 8 * z - 25 * 10 ^ 9| ≤ 9 * u * (25 * 10 ^ 9) := by
  have hA : Means pressures c!"GPa" ⟨[c!"gpa"], 10 ^ 9, 0⟩ := ⟨by simp [pressures], by decide⟩
  have hB : Means pressures c!"kbar" ⟨[c!"kbar"], 10 ^ 3 * 10 ^ 5, 0⟩ := ⟨by simp [pressures], by decide⟩
  have hW := C152_pressure C152_computer
  obtain ⟨w, hw⟩ := (hW.accepts [1 / 10, 25] c!"GPa" c!"kbar").2 ⟨⟨_, hA⟩, _, hB⟩
  have := hW.close _ _ _ _ _ _ hw hA hB
  cases this with
  | @cons _ y _ _ h1 t =>
    cases t with
    | @cons _ z _ _ h2 t =>
      cases t
      refine ⟨y, z, hw, ?_, ?_⟩
      · norm_num [Scale.toRef] at h1
        norm_num
        exact h1
      · norm_num [Scale.toRef] at h2
        norm_num
        exact h2

/-- Room temperature in degrees Fahrenheit: within 10^-12 kelvin. -/
example : ∃ y, convertTemperature computer [77] c!"Fahrenheit" c!"celsius" = .ok [y] ∧ |y - 25| ≤ 1 / 10 ^ 12 := by
  have hA : Means temperatures c!"Fahrenheit" ⟨[c!"fahrenheit", c!"f"], 5 / 9, 273.15 - 32 * (5 / 9)⟩ :=
    ⟨by simp [temperatures], by decide⟩
  have hB : Means temperatures c!"celsius" ⟨[c!"celsius", c!"°c", c!"c"], 1, 273.15⟩ := ⟨by simp [temperatures], by decide⟩
  have hW := C152_temperature C152_computer
  obtain ⟨w, hw⟩ := (hW.accepts [77] c!"Fahrenheit" c!"celsius").2 ⟨⟨_, hA⟩, _, hB⟩
  have := hW.close _ _ _ _ _ _ hw hA hB
  cases this with
  | @cons _ y _ _ h1 t =>
    cases t
    refine ⟨y, hw, ?_⟩
    simp only [Scale.toRef] at h1
    rw [show (1 : ℝ) * y + 273.15 - (5 / 9 * 77 + (273.15 - 32 * (5 / 9))) = y - 25 by ring,
      show (5 / 9 * 77 + (273.15 - 32 * (5 / 9)) : ℝ) = 298.15 by norm_num,
      abs_of_pos (show (0 : ℝ) < 298.15 by norm_num)] at h1
    refine h1.trans ?_
    norm_num [u]

/-- An unknown name. -/
example (v : List ℝ) : convertTemperature computer v c!"reaumur" c!"k" = .error .notImplemented :=
  (C152_temperature C152_computer).reject _ _ _ (.inl (by rw [not_means_iff]; simp [temperatures]; decide))

/-- A slope of an energy curve: 1 Ha/Å³ in GPa and back. -/
example (k : Consts) : ∃ y, (energyToPressure computer k (.ndFloat [1]) c!"Ha" c!"A" c!"GPa").2 = .ok [y] ∧
    |10 ^ 9 * y - k.Ha / k.Angstrom ^ 3| ≤ 10 * u * (k.Ha / k.Angstrom ^ 3) := by
  have hE : Means (densityEnergies k) c!"Ha" ⟨[c!"hartree", c!"ha"], k.Ha, 0⟩ := ⟨by simp [densityEnergies], by simp [lower]⟩
  have hV : Means (densityVolumes k) c!"A" ⟨[c!"angstrom", c!"a", c!"a^3"], k.Angstrom ^ 3, 0⟩ :=
    ⟨by simp [densityVolumes], by simp [lower]⟩
  have hP : Means pressures c!"GPa" ⟨[c!"gpa"], 10 ^ 9, 0⟩ := ⟨by simp [pressures], by decide⟩
  obtain ⟨w, hw, h⟩ := C152_energy_to_pressure C152_computer k (.ndFloat [1]) rfl hE hV hP
  cases h with
  | @cons _ y _ _ h1 t =>
    cases t
    refine ⟨y, hw, ?_⟩
    simp only [one_mul] at h1
    rwa [abs_of_pos (div_pos k.Ha_pos (pow_pos k.Angstrom_pos 3))] at h1

example (k : Consts) := C152_pressure_to_energy C152_computer k (.seqFloat [3, -2]) rfl (es := c!"eV") (vs := c!"bohr^3")
  (ps := c!"kbar") (E := ⟨[c!"electron volt", c!"ev"], k.eV, 0⟩) (V := ⟨[c!"bohr", c!"bohr^3"], k.Bohr ^ 3, 0⟩)
  (P := ⟨[c!"kbar"], 10 ^ 3 * 10 ^ 5, 0⟩) ⟨by simp [densityEnergies], by simp [lower]⟩ ⟨by simp [densityVolumes], by simp [lower]⟩
  ⟨by simp [pressures], by decide⟩

/-- Integers are rejected, as in the exact model. -/
example (k : Consts) : (energyToPressure computer k (.ndInt [3]) c!"Ha" c!"A" c!"GPa").2 = .error .typeError :=
  (C152_energy_density_reject C152_computer k (.ndInt [3]) c!"Ha" c!"A" c!"GPa" .typeError).1
    (by simp [Units.energyToPressure, run3, step, chain, Units.e2pEnergy, lower, PyVal.floats, inplace, finish])

/-- Frequencies of a phonon calculation, from THz to wavenumbers and back. -/
example (k : Consts) (v : List ℝ) : ∃ w z, convertFrequency computer k v c!"THz" c!"cm^-1" = .ok w ∧
    convertFrequency computer k w c!"cm^-1" c!"THz" = .ok z ∧ List.Forall₂ (fun x x' => |x' - x| ≤ 27 * u * |x|) v z := by
  have hA : Means (frequencies k) c!"THz" ⟨[c!"thz"], 10 ^ 12, 0⟩ := ⟨by simp [frequencies], by simp [lower]⟩
  have hB : Means (frequencies k) c!"cm^-1" ⟨[c!"cm^-1"], 100 * k.c, 0⟩ := ⟨by simp [frequencies], by simp [lower]⟩
  obtain ⟨w, hw⟩ := ((C152_frequency C152_computer k).accepts v c!"THz" c!"cm^-1").2 ⟨⟨_, hA⟩, _, hB⟩
  obtain ⟨z, hz, h⟩ := (C152_round_trip C152_computer k).2.2.1 hw
  exact ⟨w, z, hw, hz, h⟩

/-- Three volumes in increasing order stay so in cubic bohr. -/
example : ∃ w, convertVolume computer codata [60, 70, 80] c!"A" c!"bohr" = .ok w ∧ w.length = 3 ∧ w.Pairwise (· ≤ ·) := by
  have hA : Means (volumes codata) c!"A" ⟨[c!"angstrom", c!"a"], codata.Angstrom ^ 3, 0⟩ := ⟨by simp [volumes], by decide⟩
  have hB : Means (volumes codata) c!"bohr" ⟨[c!"bohr"], codata.Bohr ^ 3, 0⟩ := ⟨by simp [volumes], by decide⟩
  obtain ⟨w, hw⟩ := ((C152_volume C152_computer codata).accepts [60, 70, 80] c!"A" c!"bohr").2 ⟨⟨_, hA⟩, _, hB⟩
  have h := C152_order C152_computer C152_computer_order codata (by simp) hw
  exact ⟨w, hw, h.1, h.2.2 (by norm_num)⟩

end Verif.Units.Rounded
