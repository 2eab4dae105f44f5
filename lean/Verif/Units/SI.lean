/-
Property C137: the units have the size that their names stand for (values of /repo/quantas/utils/physics/units.py:19-47).
-/
import Verif.Units.Props

namespace Verif.Units
open Verif.Py Verif.Units.Spec

/-! ### Specification: sizes of the units in SI, from the 2018 CODATA tables -/

namespace SI

/-- Energies in joule; one mole has 6.02214076e23 entities. -/
noncomputable def energies : List Scale :=
  [⟨[c!"ha"], 4.3597447222071e-18, 0⟩, ⟨[c!"electron volt", c!"ev"], 1.602176634e-19, 0⟩,
   ⟨[c!"ry"], 2.1798723611035e-18, 0⟩, ⟨[c!"kj/mol", c!"kjmol"], 1000 / 6.02214076e23, 0⟩]

/-- Frequencies in hertz; light travels 299792458 m in a second. -/
noncomputable def frequencies : List Scale :=
  [⟨[c!"cm^-1"], 29979245800, 0⟩, ⟨[c!"hz"], 1, 0⟩, ⟨[c!"thz"], 1000000000000, 0⟩]

/-- The angstrom, in metres. -/
noncomputable def angstrom : ℝ := 1e-10

/-- The bohr radius, in metres. -/
noncomputable def bohr : ℝ := 5.29177210903e-11

end SI

/-- **C137, the part that holds.** Energies, frequencies, temperatures and pressures, and lengths and volumes in metres and bohr,
are converted with the sizes the units have. -/
theorem C137_sizes_partial :
    Faithful SI.energies (convertEnergy codata) ∧ Faithful SI.frequencies (convertFrequency codata) ∧
    Faithful temperatures convertTemperature ∧ Faithful pressures convertPressure ∧
    (∀ s t v, lower s = c!"bohr" → lower t ∈ [c!"metre", c!"m"] →
      (∃ w, convertLength codata v s t = .ok w ∧ List.Forall₂ (fun x y => x * SI.bohr = y) v w) ∧
      (∃ w, convertVolume codata v s t = .ok w ∧ List.Forall₂ (fun x y => x * SI.bohr ^ 3 = y) v w)) := by
  refine ⟨?_, ?_, C01_faithful, C03_faithful, ?_⟩
  · have : SI.energies = energiesShort codata := rfl
    rw [this]
    exact C02_faithful_partial codata
  · have : SI.frequencies = frequencies codata := by
      simp only [SI.frequencies, frequencies, codata]
      norm_num
    rw [this]
    exact C04_frequency_faithful codata
  · intro s t v hs ht
    have m1 : Means (lengths codata) s ⟨[c!"bohr"], codata.Bohr, 0⟩ := ⟨by simp [lengths], by simp [hs]⟩
    have m2 : Means (lengths codata) t ⟨[c!"metre", c!"m"], 1, 0⟩ := ⟨by simp [lengths], ht⟩
    have m3 : Means (volumes codata) s ⟨[c!"bohr"], codata.Bohr ^ 3, 0⟩ := ⟨by simp [volumes], by simp [hs]⟩
    have m4 : Means (volumes codata) t ⟨[c!"metre", c!"m"], 1, 0⟩ := ⟨by simp [volumes], ht⟩
    refine ⟨⟨v.map (· * SI.bohr), ?_, ?_⟩, ⟨v.map (· * SI.bohr ^ 3), ?_, ?_⟩⟩
    · refine ((C04_length_faithful codata).ok_iff _ _ _ _).2 ⟨_, _, m1, m2, ?_⟩
      rw [List.forall₂_map_right_iff, List.forall₂_same]
      intro x _
      simp [Scale.toRef, SI.bohr, codata, mul_comm]
    · rw [List.forall₂_map_right_iff, List.forall₂_same]
      exact fun _ _ => rfl
    · refine ((C04_volume_faithful codata).ok_iff _ _ _ _).2 ⟨_, _, m3, m4, ?_⟩
      rw [List.forall₂_map_right_iff, List.forall₂_same]
      intro x _
      simp [Scale.toRef, SI.bohr, codata, mul_comm]
    · rw [List.forall₂_map_right_iff, List.forall₂_same]
      exact fun _ _ => rfl

/-- **C137, violated.** The code takes for the angstrom the constant `Angstrom star` of the CODATA tables, a unit of X-ray
crystallography.  Every length given in angstrom is too long by 1.5 parts in 10^5, and every volume too large by more than 4.4 parts. -/
theorem C137_angstrom_violated (s t : Str) (v : List ℝ) (hs : lower s ∈ [c!"angstrom", c!"a"])
    (ht : lower t ∈ [c!"metre", c!"m"]) :
    (∃ w, convertLength codata v s t = .ok w ∧ List.Forall₂ (fun x y => y = 1.00001495 * (x * SI.angstrom)) v w) ∧
    (∃ w, convertVolume codata v s t = .ok w ∧
      List.Forall₂ (fun x y => y = 1.00001495 ^ 3 * (x * SI.angstrom ^ 3) ∧ (0 < x → 1.000044 * (x * SI.angstrom ^ 3) < y)) v w) := by
  have m1 : Means (lengths codata) s ⟨[c!"angstrom", c!"a"], codata.Angstrom, 0⟩ := ⟨by simp [lengths], hs⟩
  have m2 : Means (lengths codata) t ⟨[c!"metre", c!"m"], 1, 0⟩ := ⟨by simp [lengths], ht⟩
  have m3 : Means (volumes codata) s ⟨[c!"angstrom", c!"a"], codata.Angstrom ^ 3, 0⟩ := ⟨by simp [volumes], hs⟩
  have m4 : Means (volumes codata) t ⟨[c!"metre", c!"m"], 1, 0⟩ := ⟨by simp [volumes], ht⟩
  refine ⟨⟨v.map fun x => 1.00001495 * (x * SI.angstrom), ?_, ?_⟩, ⟨v.map fun x => 1.00001495 ^ 3 * (x * SI.angstrom ^ 3), ?_, ?_⟩⟩
  · refine ((C04_length_faithful codata).ok_iff _ _ _ _).2 ⟨_, _, m1, m2, ?_⟩
    rw [List.forall₂_map_right_iff, List.forall₂_same]
    intro x _
    simp only [Scale.toRef, SI.angstrom, codata]
    ring
  · rw [List.forall₂_map_right_iff, List.forall₂_same]
    exact fun _ _ => rfl
  · refine ((C04_volume_faithful codata).ok_iff _ _ _ _).2 ⟨_, _, m3, m4, ?_⟩
    rw [List.forall₂_map_right_iff, List.forall₂_same]
    intro x _
    simp only [Scale.toRef, SI.angstrom, codata]
    ring
  · rw [List.forall₂_map_right_iff, List.forall₂_same]
    refine fun x _ => ⟨rfl, fun hx => ?_⟩
    have : 0 < x * SI.angstrom ^ 3 := mul_pos hx (by norm_num [SI.angstrom])
    norm_num
    linarith

/-- **C137, violated (pressures).** Every pressure obtained from an energy per cubic angstrom is too small by more than 4.4 parts
in 10^5, and every energy obtained from a pressure too large. -/
theorem C137_pressure_violated {es vs ps : Str} {E P : Scale} (hE : Means (densityEnergies codata) es E)
    (hv : lower vs ∈ [c!"angstrom", c!"a", c!"a^3"]) (hP : Means pressures ps P) (x : ℝ) (hx : 0 < x) :
    (∃ y, (energyToPressure codata (.ndFloat [x]) es vs ps).2 = .ok [y] ∧
      y * P.slope < (1 - 0.000044) * (x * E.slope / SI.angstrom ^ 3)) ∧
    (∃ y, (pressureToEnergy codata (.ndFloat [x]) es vs ps).2 = .ok [y] ∧
      1.000044 * (x * P.slope) < y * E.slope / SI.angstrom ^ 3) := by
  have hV : Means (densityVolumes codata) vs ⟨[c!"angstrom", c!"a", c!"a^3"], codata.Angstrom ^ 3, 0⟩ :=
    ⟨by simp [densityVolumes], hv⟩
  have hE0 := densityEnergies_slopes codata E hE.1
  have hP0 := pressures_slopes P hP.1
  obtain ⟨w, h1, h2⟩ := C05_energy_to_pressure codata (.ndFloat [x]) (l := [x]) rfl hE hV hP
  obtain ⟨w', h1', h2'⟩ := C05_pressure_to_energy codata (.ndFloat [x]) (l := [x]) rfl hE hV hP
  rw [List.forall₂_cons_left_iff] at h2 h2'
  obtain ⟨y, _, e, h3, rfl⟩ := h2
  obtain ⟨y', _, e', h3', rfl⟩ := h2'
  rw [List.forall₂_nil_left_iff] at h3 h3'
  subst h3 h3'
  have ha : (codata.Angstrom : ℝ) ^ 3 = 1.00001495 ^ 3 * SI.angstrom ^ 3 := by
    simp only [codata, SI.angstrom]
    norm_num
  have hs : 0 < SI.angstrom ^ 3 := by norm_num [SI.angstrom]
  refine ⟨⟨y, h1, ?_⟩, ⟨y', h1', ?_⟩⟩
  · simp only [ha] at e
    have t : 0 < x * E.slope / SI.angstrom ^ 3 := by positivity
    have e2 : y * P.slope = x * E.slope / SI.angstrom ^ 3 / 1.00001495 ^ 3 := by
      rw [mul_comm, e, div_div, mul_comm (SI.angstrom ^ 3)]
    rw [e2, div_lt_iff₀ (by norm_num)]
    norm_num
    linarith
  · simp only [ha] at e'
    have t : 0 < x * P.slope := by positivity
    have e2 : y' * E.slope / SI.angstrom ^ 3 = 1.00001495 ^ 3 * (x * P.slope) := by
      rw [mul_comm x, e']
      field_simp
    rw [e2]
    norm_num
    linarith

/-- Witness: the energies, volumes and pressures of the docstring (units.py:303-311), eV, angstrom and GPa. -/
example : Means (densityEnergies codata) c!"eV" ⟨[c!"electron volt", c!"ev"], codata.eV, 0⟩ ∧
    lower c!"A" ∈ [c!"angstrom", c!"a", c!"a^3"] ∧ Means pressures c!"GPa" ⟨[c!"gpa"], 10 ^ 9, 0⟩ :=
  ⟨⟨by simp [densityEnergies], by decide⟩, by decide, ⟨by simp [pressures], by decide⟩⟩

end Verif.Units
