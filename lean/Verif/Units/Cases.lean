/- Concrete cases for the theorems about units: every hypothesis is met by numbers a user would type. -/
import Verif.Units.SI

namespace Verif.Units.Cases
open Verif.Py Verif.Units Verif.Units.Spec

/-! ### Temperatures: the boiling and the freezing point of water -/

theorem boiling : convertTemperature [100, 0] c!"Celsius" c!"F" = .ok [212, 32] := by
  refine (C01_faithful.ok_iff _ _ _ _).2 ⟨⟨[c!"celsius", c!"°c", c!"c"], 1, 273.15⟩,
    ⟨[c!"fahrenheit", c!"f"], 5 / 9, 273.15 - 32 * (5 / 9)⟩, ⟨by simp [temperatures], by dsimp only; decide⟩, ⟨by simp [temperatures], by dsimp only; decide⟩, ?_⟩
  simp [Scale.toRef]; norm_num

theorem kelvins : convertTemperature [212, 32] c!"F" c!"K" = .ok [373.15, 273.15] := by
  refine (C01_faithful.ok_iff _ _ _ _).2 ⟨⟨[c!"fahrenheit", c!"f"], 5 / 9, 273.15 - 32 * (5 / 9)⟩, ⟨[c!"kelvin", c!"k"], 1, 0⟩,
    ⟨by simp [temperatures], by dsimp only; decide⟩, ⟨by simp [temperatures], by dsimp only; decide⟩, ?_⟩
  simp [Scale.toRef]; norm_num

theorem celsius (x : ℝ) : convertTemperature [x] c!"Celsius" c!"K" = .ok [x + 273.15] := by
  refine (C01_faithful.ok_iff _ _ _ _).2 ⟨⟨[c!"celsius", c!"°c", c!"c"], 1, 273.15⟩, ⟨[c!"kelvin", c!"k"], 1, 0⟩,
    ⟨by simp [temperatures], by dsimp only; decide⟩, ⟨by simp [temperatures], by dsimp only; decide⟩, ?_⟩
  simp [Scale.toRef]

example : convertTemperature [212, 32] c!"F" c!"Celsius" = .ok [100, 0] := C01_round_trip boiling
example : convertTemperature [100, 0] c!"Celsius" c!"K" = .ok [373.15, 273.15] := C01_compose boiling kelvins
example : convertTemperature [212, 32] c!"Fahrenheit" c!"Fahrenheit" = .ok [212, 32] :=
  C01_identity (A := ⟨[c!"fahrenheit", c!"f"], 5 / 9, 273.15 - 32 * (5 / 9)⟩) ⟨by simp [temperatures], by dsimp only; decide⟩ _
example : (20 : ℝ) + 273.15 < 25 + 273.15 := C01_strictMono (celsius 20) (celsius 25) (by norm_num)

/-! ### Energies: 2 hartree -/

theorem two_hartree (k : Consts) : convertEnergy k [2] c!"Ha" c!"eV" = .ok [2 * (k.Ha / k.eV)] := by
  refine ((C02_faithful_partial k).ok_iff _ _ _ _).2 ⟨⟨[c!"ha"], k.Ha, 0⟩, ⟨[c!"electron volt", c!"ev"], k.eV, 0⟩,
    ⟨by simp [energiesShort], by dsimp only; decide⟩, ⟨by simp [energiesShort], by dsimp only; decide⟩, ?_⟩
  have := k.eV_pos.ne'
  simp [Scale.toRef]; field_simp

theorem electron_volts (k : Consts) : convertEnergy k [2 * (k.Ha / k.eV)] c!"eV" c!"kJ/mol" = .ok [2 * (k.Ha * k.N / 1000)] := by
  refine ((C02_faithful_partial k).ok_iff _ _ _ _).2 ⟨⟨[c!"electron volt", c!"ev"], k.eV, 0⟩, ⟨[c!"kj/mol", c!"kjmol"], 1000 / k.N, 0⟩,
    ⟨by simp [energiesShort], by dsimp only; decide⟩, ⟨by simp [energiesShort], by dsimp only; decide⟩, ?_⟩
  have := k.eV_pos.ne'
  have := k.N_pos.ne'
  simp [Scale.toRef]; field_simp

example := C02_documented_names_violated codata c!"Hartree" (by decide)
example : convertEnergy codata [2 * (codata.Ha / codata.eV)] c!"eV" c!"Ha" = .ok [2] := C02_round_trip codata (two_hartree codata)
example : convertEnergy codata [2] c!"Ha" c!"kJ/mol" = .ok [2 * (codata.Ha * codata.N / 1000)] :=
  C02_compose codata (two_hartree codata) (electron_volts codata)
example := C02_linear codata (-3) (two_hartree codata)

/-! ### Pressures: the example of the documentation -/

theorem megabars : convertPressure [20, 25] c!"GPa" c!"Mbar" = .ok [0.2, 0.25] := by
  refine (C03_faithful.ok_iff _ _ _ _).2 ⟨⟨[c!"gpa"], 10 ^ 9, 0⟩, ⟨[c!"mbar"], 10 ^ 6 * 10 ^ 5, 0⟩,
    ⟨by simp [pressures], by dsimp only; decide⟩, ⟨by simp [pressures], by dsimp only; decide⟩, ?_⟩
  simp [Scale.toRef]; norm_num

theorem kilobars : convertPressure [0.2, 0.25] c!"Mbar" c!"kbar" = .ok [200, 250] := by
  refine (C03_faithful.ok_iff _ _ _ _).2 ⟨⟨[c!"mbar"], 10 ^ 6 * 10 ^ 5, 0⟩, ⟨[c!"kbar"], 10 ^ 3 * 10 ^ 5, 0⟩,
    ⟨by simp [pressures], by dsimp only; decide⟩, ⟨by simp [pressures], by dsimp only; decide⟩, ?_⟩
  simp [Scale.toRef]; norm_num

theorem gigapascals (x : ℝ) : convertPressure [x] c!"GPa" c!"kbar" = .ok [10 * x] := by
  refine (C03_faithful.ok_iff _ _ _ _).2 ⟨⟨[c!"gpa"], 10 ^ 9, 0⟩, ⟨[c!"kbar"], 10 ^ 3 * 10 ^ 5, 0⟩,
    ⟨by simp [pressures], by dsimp only; decide⟩, ⟨by simp [pressures], by dsimp only; decide⟩, ?_⟩
  simp [Scale.toRef]; ring

example : convertPressure [0.2, 0.25] c!"Mbar" c!"GPa" = .ok [20, 25] := C03_round_trip megabars
example : convertPressure [20, 25] c!"GPa" c!"kbar" = .ok [200, 250] := C03_compose megabars kilobars
example := C03_linear (-1) megabars
example : (10 * 3 : ℝ) < 10 * 4 := C03_strictMono (gigapascals 3) (gigapascals 4) (by norm_num)

/-! ### Frequencies, lengths, volumes -/

theorem wavenumbers (k : Consts) : convertFrequency k [1500] c!"cm^-1" c!"Hz" = .ok [1500 * (100 * k.c)] := by
  refine ((C04_frequency_faithful k).ok_iff _ _ _ _).2 ⟨⟨[c!"cm^-1"], 100 * k.c, 0⟩, ⟨[c!"hz"], 1, 0⟩,
    ⟨by simp [frequencies], by dsimp only; decide⟩, ⟨by simp [frequencies], by dsimp only; decide⟩, ?_⟩
  simp [Scale.toRef]; ring

theorem terahertz (k : Consts) : convertFrequency k [1500 * (100 * k.c)] c!"Hz" c!"THz" = .ok [1500 * (100 * k.c) / 10 ^ 12] := by
  refine ((C04_frequency_faithful k).ok_iff _ _ _ _).2 ⟨⟨[c!"hz"], 1, 0⟩, ⟨[c!"thz"], 10 ^ 12, 0⟩,
    ⟨by simp [frequencies], by dsimp only; decide⟩, ⟨by simp [frequencies], by dsimp only; decide⟩, ?_⟩
  simp [Scale.toRef]; field_simp

theorem bohrs (k : Consts) : convertLength k [2] c!"Bohr" c!"m" = .ok [2 * k.Bohr] := by
  refine ((C04_length_faithful k).ok_iff _ _ _ _).2 ⟨⟨[c!"bohr"], k.Bohr, 0⟩, ⟨[c!"metre", c!"m"], 1, 0⟩,
    ⟨by simp [lengths], by dsimp only; decide⟩, ⟨by simp [lengths], by dsimp only; decide⟩, ?_⟩
  simp [Scale.toRef]; ring

theorem angstroms (k : Consts) : convertLength k [2 * k.Bohr] c!"m" c!"angstrom" = .ok [2 * k.Bohr / k.Angstrom] := by
  refine ((C04_length_faithful k).ok_iff _ _ _ _).2 ⟨⟨[c!"metre", c!"m"], 1, 0⟩, ⟨[c!"angstrom", c!"a"], k.Angstrom, 0⟩,
    ⟨by simp [lengths], by dsimp only; decide⟩, ⟨by simp [lengths], by dsimp only; decide⟩, ?_⟩
  have := k.Angstrom_pos.ne'
  simp [Scale.toRef]; field_simp

theorem cells (k : Consts) : convertVolume k [74] c!"A" c!"m" = .ok [74 * k.Angstrom ^ 3] := by
  refine ((C04_volume_faithful k).ok_iff _ _ _ _).2 ⟨⟨[c!"angstrom", c!"a"], k.Angstrom ^ 3, 0⟩, ⟨[c!"metre", c!"m"], 1, 0⟩,
    ⟨by simp [volumes], by dsimp only; decide⟩, ⟨by simp [volumes], by dsimp only; decide⟩, ?_⟩
  simp [Scale.toRef]; ring

theorem cubic_bohrs (k : Consts) : convertVolume k [74 * k.Angstrom ^ 3] c!"m" c!"bohr" = .ok [74 * k.Angstrom ^ 3 / k.Bohr ^ 3] := by
  refine ((C04_volume_faithful k).ok_iff _ _ _ _).2 ⟨⟨[c!"metre", c!"m"], 1, 0⟩, ⟨[c!"bohr"], k.Bohr ^ 3, 0⟩,
    ⟨by simp [volumes], by dsimp only; decide⟩, ⟨by simp [volumes], by dsimp only; decide⟩, ?_⟩
  have := k.Bohr_pos.ne'
  simp [Scale.toRef]; field_simp

example := C04_frequency_round_trip codata (wavenumbers codata)
example := C04_length_round_trip codata (bohrs codata)
example := C04_volume_round_trip codata (cells codata)
example := C04_frequency_compose codata (wavenumbers codata) (terahertz codata)
example := C04_length_compose codata (bohrs codata) (angstroms codata)
example := C04_volume_compose codata (cells codata) (cubic_bohrs codata)
/-- Cubes of edge 2 bohr. -/
example := C04_volume_is_length_cubed codata (bohrs codata)

/-! ### Energy densities: eV per cubic angstrom and hartree per cubic bohr, in GPa and kbar -/

theorem eV : Means (densityEnergies codata) c!"eV" ⟨[c!"electron volt", c!"ev"], codata.eV, 0⟩ :=
  ⟨by simp [densityEnergies], by dsimp only; decide⟩

theorem ha : Means (densityEnergies codata) c!"Ha" ⟨[c!"hartree", c!"ha"], codata.Ha, 0⟩ :=
  ⟨by simp [densityEnergies], by dsimp only; decide⟩

theorem A3 : Means (densityVolumes codata) c!"A" ⟨[c!"angstrom", c!"a", c!"a^3"], codata.Angstrom ^ 3, 0⟩ :=
  ⟨by simp [densityVolumes], by dsimp only; decide⟩

theorem bohr3 : Means (densityVolumes codata) c!"bohr" ⟨[c!"bohr", c!"bohr^3"], codata.Bohr ^ 3, 0⟩ :=
  ⟨by simp [densityVolumes], by dsimp only; decide⟩

theorem GPa : Means pressures c!"GPa" ⟨[c!"gpa"], 10 ^ 9, 0⟩ := ⟨by simp [pressures], by dsimp only; decide⟩

theorem kbar : Means pressures c!"kbar" ⟨[c!"kbar"], 10 ^ 3 * 10 ^ 5, 0⟩ := ⟨by simp [pressures], by dsimp only; decide⟩

example := C05_energy_to_pressure codata (.ndFloat [0.001, 0.2]) rfl eV A3 GPa
example := C05_pressure_to_energy codata (.seqFloat [1, 2]) rfl ha A3 GPa
example := C05_inverse codata (.ndFloat [0.001, 0.2]) rfl eV A3 GPa

/-- The same density, given in eV per cubic angstrom and in hartree per cubic bohr. -/
example : ∃ w w', (energyToPressure codata (.ndFloat [3]) c!"eV" c!"A" c!"GPa").2 = .ok w ∧
    (energyToPressure codata (.ndFloat [3 * codata.eV / codata.Angstrom ^ 3 * codata.Bohr ^ 3 / codata.Ha]) c!"Ha" c!"bohr" c!"kbar").2 = .ok w' ∧
    convertPressure w c!"GPa" c!"kbar" = .ok w' := by
  obtain ⟨w, hw, -⟩ := C05_energy_to_pressure codata (.ndFloat [3]) rfl eV A3 GPa
  obtain ⟨w', hw', -⟩ := C05_energy_to_pressure codata
    (.ndFloat [3 * codata.eV / codata.Angstrom ^ 3 * codata.Bohr ^ 3 / codata.Ha]) rfl ha bohr3 kbar
  refine ⟨w, w', hw, hw', C05_units_independent codata eV ha A3 bohr3 GPa kbar ?_ hw hw'⟩
  have := codata.Ha_pos.ne'
  have := codata.Bohr_pos.ne'
  have := codata.Angstrom_pos.ne'
  simp only [List.forall₂_cons, List.Forall₂.nil, and_true]
  field_simp

/-- Furlongs are not known. -/
example := C05_reject codata (.ndFloat [1]) c!"eV" c!"furlong" c!"GPa" (.inr (.inl (by
  rw [not_means_iff]
  simp [densityVolumes]
  decide)))

example := C06_integers_raise_violated codata [1, 2] (vs := c!"A") (ps := c!"GPa") eV

/-! ### Sizes -/

example := C137_angstrom_violated c!"A" c!"m" [1, 74] (by decide) (by decide)
example := C137_pressure_violated eV (vs := c!"A") (by decide) GPa 0.2 (by norm_num)

end Verif.Units.Cases
