/-
Property theorems C01-C06 (unit conversions).
-/
import Verif.Units.Lemmas
import Verif.Units.Alias

namespace Verif.Units
open Verif.Py Verif.Units.Spec

/-! ### C01 temperature -/

theorem C01_faithful : Faithful temperatures convertTemperature := by
  refine faithful_of (r := 1) one_ne_zero ?_ tempToKelvin_ok tempToKelvin_err tempFromKelvin_ok
    tempFromKelvin_err fun v a b => rfl
  simp [temperatures]

/-- Converting there and back returns the original array. -/
theorem C01_round_trip {v w : List ℝ} {a b : Str} (h : convertTemperature v a b = .ok w) :
    convertTemperature w b a = .ok v :=
  C01_faithful.roundTrip h

/-- Converting through an intermediate scale changes nothing. -/
theorem C01_compose {v w u : List ℝ} {a b c : Str} (h : convertTemperature v a b = .ok w)
    (h' : convertTemperature w b c = .ok u) : convertTemperature v a c = .ok u :=
  C01_faithful.compose temperatures_unambiguous h h'

/-- Converting to the same scale is the identity. -/
theorem C01_identity {a : Str} {A : Scale} (ha : Means temperatures a A) (v : List ℝ) :
    convertTemperature v a a = .ok v :=
  C01_faithful.identity ha v

/-- Warmer stays warmer. -/
theorem C01_strictMono {a b : Str} {x y x' y' : ℝ} (hx : convertTemperature [x] a b = .ok [x'])
    (hy : convertTemperature [y] a b = .ok [y']) (h : x < y) : x' < y' :=
  C01_faithful.strictMono temperatures_unambiguous (by simp [temperatures]) hx hy h

/-- Witness: 100 degrees Celsius are 212 degrees Fahrenheit; an unknown name is rejected. -/
example : convertTemperature [100, 0] c!"Celsius" c!"F" = .ok [212, 32] := by
  refine (C01_faithful.ok_iff _ _ _ _).2 ⟨_, _, ⟨List.mem_cons_self .., ?_⟩,
    ⟨List.mem_cons_of_mem _ (List.mem_cons_of_mem _ (List.mem_cons_self ..)), ?_⟩, ?_⟩
  · decide
  · decide
  · simp [Scale.toRef]; norm_num

example : convertTemperature [1] c!"reaumur" c!"k" = .error .notImplemented := by
  refine C01_faithful.reject _ _ _ (.inl ?_)
  rw [not_means_iff]
  simp [temperatures]
  decide

/-! ### C02 energy -/

/-- The documentation lists `hartree` and `rydberg`; the code rejects both, in any letter case,
as old and as new scale. -/
theorem C02_documented_names_violated :
    ∀ k : Consts, ∀ s : Str, (lower s = c!"hartree" ∨ lower s = c!"rydberg") →
      (∃ A, Means (energiesDocumented k) s A) ∧
      (∀ v t, convertEnergy k v s t = .error .notImplemented) ∧
      (∀ v, convertEnergy k v c!"eV" s = .error .notImplemented) := by
  intro k s hs
  have hn : ∀ A, ¬ Means (energiesShort k) s A := by
    rw [not_means_iff]
    rcases hs with hs | hs <;> simp [energiesShort, hs]
  refine ⟨?_, ?_, ?_⟩
  · rcases hs with hs | hs
    · exact ⟨_, List.mem_cons_self .., by simp [hs]⟩
    · exact ⟨_, List.mem_cons_of_mem _ (List.mem_cons_of_mem _ (List.mem_cons_self ..)),
        by simp [hs]⟩
  · intro v t
    rw [convertEnergy, energyToHartree_err k s hn]; rfl
  · intro v
    have he : energyToHartree k c!"eV" = .ok fun v => v * (k.eV / k.Ha) := by
      rw [energyToHartree, if_neg (by decide), if_pos (by decide)]
    rw [convertEnergy, energyFromHartree_err k s hn, he]; rfl

theorem energiesShort_slopes (k : Consts) : ∀ A ∈ energiesShort k, 0 < A.slope := by
  have := k.N_pos
  simp [energiesShort, k.Ha_pos, k.eV_pos, k.Ry_pos]
  positivity

/-- For the names the code does recognise the conversion is faithful.  Missing for the full
property: the documented names `hartree` and `rydberg`. -/
theorem C02_faithful_partial (k : Consts) : Faithful (energiesShort k) (convertEnergy k) :=
  faithful_of k.Ha_pos.ne' (fun A hA => (energiesShort_slopes k A hA).ne')
    (energyToHartree_ok k) (energyToHartree_err k) (energyFromHartree_ok k)
    (energyFromHartree_err k) fun _ _ _ => rfl

theorem C02_round_trip (k : Consts) {v w : List ℝ} {a b : Str}
    (h : convertEnergy k v a b = .ok w) : convertEnergy k w b a = .ok v :=
  (C02_faithful_partial k).roundTrip h

theorem C02_compose (k : Consts) {v w u : List ℝ} {a b c : Str}
    (h : convertEnergy k v a b = .ok w) (h' : convertEnergy k w b c = .ok u) :
    convertEnergy k v a c = .ok u :=
  (C02_faithful_partial k).compose (energiesShort_unambiguous k) h h'

theorem C02_linear (k : Consts) {a b : Str} {v w : List ℝ} (x : ℝ)
    (h : convertEnergy k v a b = .ok w) :
    convertEnergy k (v.map (x * ·)) a b = .ok (w.map (x * ·)) :=
  (C02_faithful_partial k).linear (by simp [energiesShort]) x h

/-- Witness: a conversion that succeeds (2 Ha in eV). -/
example (k : Consts) : convertEnergy k [2] c!"Ha" c!"eV" = .ok [2 * (k.Ha / k.eV)] := by
  refine ((C02_faithful_partial k).ok_iff _ _ _ _).2 ⟨_, _, ⟨List.mem_cons_self .., ?_⟩,
    ⟨List.mem_cons_of_mem _ (List.mem_cons_self ..), ?_⟩, ?_⟩
  · simp [lower]
  · simp [lower]
  · have := k.eV_pos.ne'
    simp [Scale.toRef]; field_simp

/-! ### C03 pressure -/

theorem pressures_slopes : ∀ A ∈ pressures, 0 < A.slope := by
  simp [pressures]

theorem C03_faithful : Faithful pressures convertPressure :=
  faithful_of (r := 1) one_ne_zero (fun A hA => (pressures_slopes A hA).ne')
    pressureToPa_ok pressureToPa_err pressureFromPa_ok pressureFromPa_err fun _ _ _ => rfl

theorem C03_round_trip {v w : List ℝ} {a b : Str} (h : convertPressure v a b = .ok w) :
    convertPressure w b a = .ok v :=
  C03_faithful.roundTrip h

theorem C03_compose {v w u : List ℝ} {a b c : Str} (h : convertPressure v a b = .ok w)
    (h' : convertPressure w b c = .ok u) : convertPressure v a c = .ok u :=
  C03_faithful.compose pressures_unambiguous h h'

theorem C03_linear {a b : Str} {v w : List ℝ} (x : ℝ) (h : convertPressure v a b = .ok w) :
    convertPressure (v.map (x * ·)) a b = .ok (w.map (x * ·)) :=
  C03_faithful.linear (by simp [pressures]) x h

theorem C03_strictMono {a b : Str} {x y x' y' : ℝ} (hx : convertPressure [x] a b = .ok [x'])
    (hy : convertPressure [y] a b = .ok [y']) (h : x < y) : x' < y' :=
  C03_faithful.strictMono pressures_unambiguous pressures_slopes hx hy h

/-- Witness (the docstring's example): 20 and 25 GPa are 0.2 and 0.25 Mbar. -/
example : convertPressure [20, 25] c!"GPa" c!"Mbar" = .ok [0.2, 0.25] := by
  refine (C03_faithful.ok_iff _ _ _ _).2 ⟨⟨[c!"gpa"], 10 ^ 9, 0⟩, ⟨[c!"mbar"], 10 ^ 6 * 10 ^ 5, 0⟩,
    ⟨by simp [pressures], by decide⟩, ⟨by simp [pressures], by decide⟩, ?_⟩
  simp [Scale.toRef]; norm_num

/-! ### C04 frequency, length, volume -/

theorem frequencies_slopes (k : Consts) : ∀ A ∈ frequencies k, 0 < A.slope := by
  simp [frequencies, k.c_pos]

theorem lengths_slopes (k : Consts) : ∀ A ∈ lengths k, 0 < A.slope := by
  simp [lengths, k.Angstrom_pos, k.Bohr_pos]

theorem volumes_slopes (k : Consts) : ∀ A ∈ volumes k, 0 < A.slope := by
  have h1 := k.Angstrom_pos
  have h2 := k.Bohr_pos
  simp [volumes]
  constructor <;> positivity

theorem C04_frequency_faithful (k : Consts) : Faithful (frequencies k) (convertFrequency k) :=
  faithful_of (r := 100 * k.c) (by have := k.c_pos; positivity)
    (fun A hA => (frequencies_slopes k A hA).ne')
    (freqToCm_ok k) (freqToCm_err k) (freqFromCm_ok k) (freqFromCm_err k) fun _ _ _ => rfl

theorem C04_length_faithful (k : Consts) : Faithful (lengths k) (convertLength k) :=
  faithful_of (r := 1) one_ne_zero (fun A hA => (lengths_slopes k A hA).ne')
    (lengthToM_ok k) (lengthToM_err k) (lengthFromM_ok k) (lengthFromM_err k) fun _ _ _ => rfl

theorem C04_volume_faithful (k : Consts) : Faithful (volumes k) (convertVolume k) :=
  faithful_of (r := 1) one_ne_zero (fun A hA => (volumes_slopes k A hA).ne')
    (volumeToM3_ok k) (volumeToM3_err k) (volumeFromM3_ok k) (volumeFromM3_err k) fun _ _ _ => rfl

theorem C04_frequency_round_trip (k : Consts) {v w : List ℝ} {a b : Str}
    (h : convertFrequency k v a b = .ok w) : convertFrequency k w b a = .ok v :=
  (C04_frequency_faithful k).roundTrip h

theorem C04_length_round_trip (k : Consts) {v w : List ℝ} {a b : Str}
    (h : convertLength k v a b = .ok w) : convertLength k w b a = .ok v :=
  (C04_length_faithful k).roundTrip h

theorem C04_volume_round_trip (k : Consts) {v w : List ℝ} {a b : Str}
    (h : convertVolume k v a b = .ok w) : convertVolume k w b a = .ok v :=
  (C04_volume_faithful k).roundTrip h

theorem C04_frequency_compose (k : Consts) {v w u : List ℝ} {a b c : Str}
    (h : convertFrequency k v a b = .ok w) (h' : convertFrequency k w b c = .ok u) :
    convertFrequency k v a c = .ok u :=
  (C04_frequency_faithful k).compose (frequencies_unambiguous k) h h'

theorem C04_length_compose (k : Consts) {v w u : List ℝ} {a b c : Str}
    (h : convertLength k v a b = .ok w) (h' : convertLength k w b c = .ok u) :
    convertLength k v a c = .ok u :=
  (C04_length_faithful k).compose (lengths_unambiguous k) h h'

theorem C04_volume_compose (k : Consts) {v w u : List ℝ} {a b c : Str}
    (h : convertVolume k v a b = .ok w) (h' : convertVolume k w b c = .ok u) :
    convertVolume k v a c = .ok u :=
  (C04_volume_faithful k).compose (volumes_unambiguous k) h h'

/-- The volume of cubes with the given edges: converting the edges then cubing is cubing then
converting. -/
theorem C04_volume_is_length_cubed (k : Consts) {edges edges' : List ℝ} {a b : Str}
    (h : convertLength k edges a b = .ok edges') :
    convertVolume k (edges.map (· ^ 3)) a b = .ok (edges'.map (· ^ 3)) := by
  obtain ⟨A, B, hA, hB, hf⟩ := ((C04_length_faithful k).ok_iff _ _ _ _).1 h
  have key : ∀ s A, Means (lengths k) s A → Means (volumes k) s ⟨A.names, A.slope ^ 3, 0⟩ ∧
      A.offset = 0 := by
    intro s A hA
    simp only [lengths, means_cons, means_nil, or_false] at hA
    simp only [volumes, means_cons, means_nil, or_false]
    rcases hA with ⟨rfl, h⟩ | ⟨rfl, h⟩ | ⟨rfl, h⟩ <;> simp [h]
  refine ((C04_volume_faithful k).ok_iff _ _ _ _).2 ⟨_, _, (key a A hA).1, (key b B hB).1, ?_⟩
  rw [List.forall₂_map_left_iff, List.forall₂_map_right_iff]
  refine hf.imp fun x y e => ?_
  simp only [Scale.toRef, (key a A hA).2, (key b B hB).2, add_zero] at e ⊢
  rw [← mul_pow, ← mul_pow, e]

example (k : Consts) : convertLength k [2] c!"Bohr" c!"m" = .ok [2 * k.Bohr] := by
  refine ((C04_length_faithful k).ok_iff _ _ _ _).2 ⟨⟨[c!"bohr"], k.Bohr, 0⟩,
    ⟨[c!"metre", c!"m"], 1, 0⟩,
    ⟨by simp [lengths], by simp [lower]⟩, ⟨by simp [lengths], by decide⟩, ?_⟩
  simp [Scale.toRef]; ring

/-! ### C05 energy densities -/

theorem densityEnergies_slopes (k : Consts) : ∀ A ∈ densityEnergies k, 0 < A.slope := by
  simp [densityEnergies, k.Ha_pos, k.eV_pos, k.Ry_pos]

theorem densityVolumes_slopes (k : Consts) : ∀ A ∈ densityVolumes k, 0 < A.slope := by
  have h1 := k.Angstrom_pos
  have h2 := k.Bohr_pos
  simp [densityVolumes]
  constructor <;> positivity

/-- Known names: the result is the pressure, in the requested unit, of the given number of energy
units per volume unit (1 Pa = 1 J/m^3). -/
theorem C05_energy_to_pressure (k : Consts) (v : PyVal) {l : List ℝ} (hv : v.floats = some l)
    {es vs ps : Str} {E V P : Scale} (hE : Means (densityEnergies k) es E)
    (hV : Means (densityVolumes k) vs V) (hP : Means pressures ps P) :
    ∃ w, (energyToPressure k v es vs ps).2 = .ok w ∧
      List.Forall₂ (fun x y => P.slope * y = x * E.slope / V.slope) l w := by
  refine ⟨l.map fun x => x * E.slope / V.slope / P.slope, ?_, ?_⟩
  · simp [energyToPressure, hv, run3, step, chain_e2pEnergy hE, chain_e2pVolume hV,
      chain_e2pPressure hP, inplace, finish, Function.comp_def]
  · rw [List.forall₂_map_right_iff, List.forall₂_same]
    intro x _
    have := (pressures_slopes P hP.1).ne'
    field_simp

/-- The reverse conversion. -/
theorem C05_pressure_to_energy (k : Consts) (v : PyVal) {l : List ℝ} (hv : v.floats = some l)
    {es vs ps : Str} {E V P : Scale} (hE : Means (densityEnergies k) es E)
    (hV : Means (densityVolumes k) vs V) (hP : Means pressures ps P) :
    ∃ w, (pressureToEnergy k v es vs ps).2 = .ok w ∧
      List.Forall₂ (fun y x => P.slope * y = x * E.slope / V.slope) l w := by
  refine ⟨l.map fun y => y * P.slope * V.slope / E.slope, ?_, ?_⟩
  · simp [pressureToEnergy, hv, run3, step, chain_p2eEnergy hE, chain_p2eVolume hV,
      chain_p2ePressure hP, inplace, finish, Function.comp_def]
  · rw [List.forall₂_map_right_iff, List.forall₂_same]
    intro x _
    have h1 := (densityEnergies_slopes k E hE.1).ne'
    have h2 := (densityVolumes_slopes k V hV.1).ne'
    field_simp

/-- `pressure_to_energy` undoes `energy_to_pressure` and conversely. -/
theorem C05_inverse (k : Consts) (v : PyVal) {l : List ℝ} (hv : v.floats = some l)
    {es vs ps : Str} {E V P : Scale} (hE : Means (densityEnergies k) es E)
    (hV : Means (densityVolumes k) vs V) (hP : Means pressures ps P) :
    (∃ w, (energyToPressure k v es vs ps).2 = .ok w ∧
      (pressureToEnergy k (.ndFloat w) es vs ps).2 = .ok l) ∧
    (∃ w, (pressureToEnergy k v es vs ps).2 = .ok w ∧
      (energyToPressure k (.ndFloat w) es vs ps).2 = .ok l) := by
  have h1 := (densityEnergies_slopes k E hE.1).ne'
  have h2 := (densityVolumes_slopes k V hV.1).ne'
  have h3 := (pressures_slopes P hP.1).ne'
  have uniq : ∀ (l w : List ℝ) (c d : ℝ), d ≠ 0 →
      List.Forall₂ (fun y x => c * y = x * d) l w → ∀ u,
      List.Forall₂ (fun y x => c * y = x * d) l u → w = u := by
    intro l w c d hd h
    induction h with
    | nil => intro u hu; cases hu; rfl
    | cons e _ ih =>
      intro u hu
      cases hu with
      | cons e' t' => rw [ih _ t', mul_right_cancel₀ hd (e.symm.trans e')]
  have uniq' : ∀ (l w : List ℝ) (c d : ℝ), d ≠ 0 →
      List.Forall₂ (fun y x => c * x = y * d) l w → ∀ u, c ≠ 0 →
      List.Forall₂ (fun y x => c * x = y * d) l u → w = u := by
    intro l w c d hd h
    induction h with
    | nil => intro u _ hu; cases hu; rfl
    | cons e _ ih =>
      intro u hc hu
      cases hu with
      | cons e' t' => rw [ih _ hc t', mul_left_cancel₀ hc (e.trans e'.symm)]
  constructor
  · obtain ⟨w, hw, hf⟩ := C05_energy_to_pressure k v hv hE hV hP
    obtain ⟨u, hu, hg⟩ := C05_pressure_to_energy k (.ndFloat w) rfl hE hV hP
    refine ⟨w, hw, ?_⟩
    rw [hu]
    congr 1
    refine uniq w u P.slope (E.slope / V.slope) (div_ne_zero h1 h2)
      (hg.imp fun a b h => by rw [h]; ring) l (hf.flip.imp fun a b h => by rw [h]; ring)
  · obtain ⟨w, hw, hf⟩ := C05_pressure_to_energy k v hv hE hV hP
    obtain ⟨u, hu, hg⟩ := C05_energy_to_pressure k (.ndFloat w) rfl hE hV hP
    refine ⟨w, hw, ?_⟩
    rw [hu]
    congr 1
    refine uniq' w u P.slope (E.slope / V.slope) (div_ne_zero h1 h2)
      (hg.imp fun a b h => by rw [h]; ring) l h3 (hf.flip.imp fun a b h => by rw [h]; ring)

/-- Unit independence: expressing the same energies in another energy unit, the same volume in
another volume unit, or asking for another pressure unit and converting afterwards, all give the
same pressures. -/
theorem C05_units_independent (k : Consts) {l l' : List ℝ} {es es' vs vs' ps ps' : Str}
    {E E' V V' P P' : Scale} {w w' : List ℝ}
    (hE : Means (densityEnergies k) es E) (hE' : Means (densityEnergies k) es' E')
    (hV : Means (densityVolumes k) vs V) (hV' : Means (densityVolumes k) vs' V')
    (hP : Means pressures ps P) (hP' : Means pressures ps' P')
    (same : List.Forall₂ (fun x x' => x * E.slope / V.slope = x' * E'.slope / V'.slope) l l')
    (hw : (energyToPressure k (.ndFloat l) es vs ps).2 = .ok w)
    (hw' : (energyToPressure k (.ndFloat l') es' vs' ps').2 = .ok w') :
    convertPressure w ps ps' = .ok w' := by
  obtain ⟨u, hu, hf⟩ := C05_energy_to_pressure k (.ndFloat l) rfl hE hV hP
  obtain ⟨u', hu', hf'⟩ := C05_energy_to_pressure k (.ndFloat l') rfl hE' hV' hP'
  obtain rfl : u = w := Except.ok.inj (hu.symm.trans hw)
  obtain rfl : u' = w' := Except.ok.inj (hu'.symm.trans hw')
  refine (C03_faithful.ok_iff _ _ _ _).2 ⟨P, P', hP, hP', ?_⟩
  have o : ∀ A ∈ pressures, A.offset = 0 := by simp [pressures]
  have h1 : List.Forall₂ (fun y x => P.toRef y = x * E.slope / V.slope) u l :=
    hf.flip.imp fun a b h => by simpa [Scale.toRef, o P hP.1] using h
  have h2 : List.Forall₂ (fun x y => x * E'.slope / V'.slope = P'.toRef y) l' u' :=
    hf'.imp fun a b h => by simpa [Scale.toRef, o P' hP'.1] using h.symm
  exact forall₂_trans_eq (forall₂_trans_eq h1 same) h2

/-- An unknown name makes both functions fail. -/
theorem C05_reject (k : Consts) (v : PyVal) (es vs ps : Str)
    (h : (∀ E, ¬ Means (densityEnergies k) es E) ∨ (∀ V, ¬ Means (densityVolumes k) vs V) ∨
      (∀ P, ¬ Means pressures ps P)) :
    (∃ e, (energyToPressure k v es vs ps).2 = .error e) ∧
    (∃ e, (pressureToEnergy k v es vs ps).2 = .error e) := by
  have nE : (∀ E, ¬ Means (densityEnergies k) es E) →
      chain (e2pEnergy k) es = none ∧ chain (p2eEnergy k) es = none := by
    intro h
    rw [not_means_iff] at h
    simp only [densityEnergies, List.forall_mem_cons] at h
    constructor <;> apply chain_none_of <;>
      simp only [e2pEnergy, p2eEnergy, List.forall_mem_cons] <;> tauto
  have nV : (∀ E, ¬ Means (densityVolumes k) vs E) →
      chain (e2pVolume k) vs = none ∧ chain (p2eVolume k) vs = none := by
    intro h
    rw [not_means_iff] at h
    simp only [densityVolumes, List.forall_mem_cons] at h
    constructor <;> apply chain_none_of <;>
      simp only [e2pVolume, p2eVolume, List.forall_mem_cons] <;> tauto
  have nP : (∀ E, ¬ Means pressures ps E) →
      chain e2pPressure ps = none ∧ chain p2ePressure ps = none := by
    intro h
    rw [not_means_iff] at h
    simp only [pressures, List.forall_mem_cons] at h
    constructor <;> apply chain_none_of <;>
      simp only [e2pPressure, p2ePressure, List.forall_mem_cons] <;> tauto
  have fails : ∀ (s1 s2 s3 : Buf → Buf × Except PyErr Unit),
      ((∀ b, ∃ e, (s1 b).2 = .error e) ∨ (∀ b, ∃ e, (s2 b).2 = .error e) ∨
        (∀ b, ∃ e, (s3 b).2 = .error e)) →
      ∃ e, (finish v (run3 s1 s2 s3 v.floats)).2 = .error e := by
    intro s1 s2 s3 h
    have : ∃ e, (run3 s1 s2 s3 v.floats).2 = .error e := by
      unfold run3
      rcases e1 : s1 v.floats with ⟨b1, e | u⟩
      · exact ⟨e, rfl⟩
      · rcases e2 : s2 b1 with ⟨b2, e | u2⟩
        · exact ⟨e, by simp [e2]⟩
        · simp only [e2]
          rcases h with h | h | h
          · obtain ⟨e, he⟩ := h v.floats; rw [e1] at he; cases he
          · obtain ⟨e, he⟩ := h b1; rw [e2] at he; cases he
          · exact h b2
    obtain ⟨e, he⟩ := this
    refine ⟨e, ?_⟩
    rcases hr : run3 s1 s2 s3 v.floats with ⟨b, r⟩
    rw [hr] at he
    subst he
    cases b <;> rfl
  have stepFail : ∀ t s, chain t s = none → ∀ b, ∃ e, (step t s b).2 = .error e := by
    intro t s h b
    exact ⟨.notImplemented, by simp [step, h]⟩
  constructor
  · apply fails
    rcases h with h | h | h
    · exact .inl (stepFail _ _ (nE h).1)
    · exact .inr (.inl (stepFail _ _ (nV h).1))
    · exact .inr (.inr (stepFail _ _ (nP h).1))
  · apply fails
    rcases h with h | h | h
    · exact .inr (.inr (stepFail _ _ (nE h).2))
    · exact .inr (.inl (stepFail _ _ (nV h).2))
    · exact .inl (stepFail _ _ (nP h).2)

/-- Witness: all three names known. -/
example : Means (densityEnergies codata) c!"eV" ⟨[c!"electron volt", c!"ev"], codata.eV, 0⟩ ∧
    Means (densityVolumes codata) c!"A" ⟨[c!"angstrom", c!"a", c!"a^3"], codata.Angstrom ^ 3, 0⟩ ∧
    Means pressures c!"GPa" ⟨[c!"gpa"], 10 ^ 9, 0⟩ := by
  refine ⟨⟨by simp [densityEnergies], by decide⟩, ⟨by simp [densityVolumes], by decide⟩,
    ⟨by simp [pressures], by decide⟩⟩

/-! ### C06 aliasing -/

/-- The caller's float array is overwritten by `energy_to_pressure`, on success and even when the
call raises. -/
theorem C06_argument_unchanged_violated :
    (∃ w, (energyToPressure codata (.ndFloat [1]) c!"ev" c!"a" c!"gpa") = (.ndFloat w, .ok w) ∧
      w ≠ [1]) ∧
    (∃ w, (energyToPressure codata (.ndFloat [1]) c!"ev" c!"furlong" c!"gpa") =
        (.ndFloat w, .error .notImplemented) ∧ w ≠ [1]) ∧
    (∃ w, (pressureToEnergy codata (.ndFloat [1]) c!"ev" c!"a" c!"gpa") = (.ndFloat w, .ok w) ∧
      w ≠ [1]) := by
  refine ⟨⟨[1 * codata.eV / codata.Angstrom ^ 3 / 10 ^ 9], ?_, ?_⟩, ⟨[1 * codata.eV], ?_, ?_⟩,
    ⟨[1 * 10 ^ 9 * codata.Angstrom ^ 3 / codata.eV], ?_, ?_⟩⟩
  · simp [energyToPressure, PyVal.floats, run3, step, chain, e2pEnergy, e2pVolume, e2pPressure,
      lower, inplace, finish, PyVal.after]
  · simp only [codata]; norm_num
  · simp [energyToPressure, PyVal.floats, run3, step, chain, e2pEnergy, e2pVolume,
      lower, inplace, finish, PyVal.after]
  · simp only [codata]; norm_num
  · simp [pressureToEnergy, PyVal.floats, run3, step, chain, p2eEnergy, p2eVolume, p2ePressure,
      lower, inplace, finish, PyVal.after]
  · simp only [codata]; norm_num

/-- Integer input never converts: the in-place product raises a `TypeError`. -/
theorem C06_integers_raise_violated (k : Consts) (l : List ℤ) {es vs ps : Str} {E : Scale}
    (hE : Means (densityEnergies k) es E) :
    energyToPressure k (.ndInt l) es vs ps = (.ndInt l, .error .typeError) := by
  simp [energyToPressure, PyVal.floats, run3, step, chain_e2pEnergy hE, inplace, finish,
    PyVal.after]

/-- What holds: every object that existed before a `convert_*` call keeps its contents, whether
the call succeeds or raises, and a successful call returns an object holding the converted values
(the value semantics of `Verif.Units`).  `energy_to_pressure`/`pressure_to_energy` leave scalars,
lists and integer arrays alone.  Missing: float arrays in the last two functions. -/
theorem C06_argument_unchanged_partial (k : Consts) :
    (∀ (c : Alias.Converter) (h : Alias.Heap) (a : ℕ) (old new : Str) (i : ℕ), i < h.length →
      (c.call k h a old new).1[i]? = h[i]?) ∧
    (∀ (c : Alias.Converter) (h : Alias.Heap) (a : ℕ) (l : List ℝ) (old new : Str),
      h[a]? = some l →
      match (c.call k h a old new).2 with
      | .ok r => ∃ w, (c.call k h a old new).1[r]? = some w ∧ c.value k l old new = .ok w
      | .error e => c.value k l old new = .error e) ∧
    (∀ (v : PyVal) (es vs ps : Str), (∀ l, v ≠ .ndFloat l) →
      (energyToPressure k v es vs ps).1 = v ∧ (pressureToEnergy k v es vs ps).1 = v) := by
  refine ⟨?_, ?_, ?_⟩
  · intro c h a old new i hi
    refine Alias.run_frame ?_ h a i hi
    have := Alias.chains_pure k c
    simp [this.1, this.2]
  · intro c h a l old new hl
    have hp := Alias.chains_pure k c
    rw [Alias.value_eq]
    simp only [Alias.Converter.call, Alias.run]
    rcases h1 : (c.chains k).1.find old with _ | f
    · simp
    · rcases h2 : (c.chains k).2.find new with _ | g
      · simp
      · have v1 := Alias.exec_value (Alias.find_pure hp.1 h1) h a l hl
        have v2 := Alias.exec_value (Alias.find_pure hp.2 h2) _ _ _ v1
        simp only [v2, Option.some.injEq, exists_eq_left']
  · intro v es vs ps hv
    cases v with
    | ndFloat l => exact absurd rfl (hv l)
    | ndInt l => simp [energyToPressure, pressureToEnergy, finish, PyVal.after]
    | seqFloat l => simp [energyToPressure, pressureToEnergy, finish, PyVal.after]
    | seqInt l => simp [energyToPressure, pressureToEnergy, finish, PyVal.after]

/-- The result of a `convert_*` call between two names of the reference scale *is* the caller's
object, so a later in-place operation on the result changes the argument. -/
theorem C06_result_aliases_violated (k : Consts) (h : Alias.Heap) (a : ℕ) :
    Alias.Converter.call k .temperature h a c!"K" c!"kelvin" = (h, .ok a) := by
  simp [Alias.Converter.call, Alias.Converter.chains, Alias.run, Alias.Table.find, Alias.tTo,
    Alias.tFrom, lower, Alias.Op.exec]

/-- A chain of in-place operations updates the object it is given, and no other. -/
theorem exec_chain (table : List (List Str × (ℝ → ℝ))) (s : Str) :
    Alias.Table.find (table.map fun p => (p.1, Alias.Op.inplace p.2)) s =
      (chain table s).map Alias.Op.inplace := by
  induction table with
  | nil => rfl
  | cons p rest ih =>
    simp only [List.map_cons, Alias.Table.find, chain, ih]
    split_ifs <;> rfl

/-- Three chains of in-place operations on an array object, against the value semantics. -/
theorem run_inplace (t₁ t₂ t₃ : List (List Str × (ℝ → ℝ))) (s₁ s₂ s₃ : Str) (h : Alias.Heap)
    (a : ℕ) (l : List ℝ) (hl : h[a]? = some l) :
    ∃ w r, finish (.ndFloat l) (run3 (step t₁ s₁) (step t₂ s₂) (step t₃ s₃) (some l)) =
        (.ndFloat w, r) ∧
      Alias.run [(t₁.map fun p => (p.1, .inplace p.2), s₁),
          (t₂.map fun p => (p.1, .inplace p.2), s₂), (t₃.map fun p => (p.1, .inplace p.2), s₃)] h a =
        (h.set a w, match r with | .ok _ => .ok a | .error e => .error e) := by
  have ha : a < h.length := by
    by_contra hc
    rw [List.getElem?_eq_none (by omega)] at hl
    cases hl
  have hl' : h[a] = l := by rw [List.getElem?_eq_getElem ha] at hl; exact Option.some.inj hl
  have key : ∀ f : ℝ → ℝ, ∀ m, (h.set a m).modify a (List.map f) = h.set a (m.map f) := by
    intro f m
    apply List.ext_getElem?
    intro i
    rw [List.getElem?_modify]
    by_cases hi : a = i
    · subst hi; simp [ha]
    · simp [hi]
  have h0 : h = h.set a l := by rw [← hl', List.set_getElem_self]
  simp only [Alias.run, exec_chain, run3, step]
  rcases chain t₁ s₁ with _ | f₁
  · refine ⟨l, _, rfl, ?_⟩
    simpa using h0
  · rcases chain t₂ s₂ with _ | f₂
    · refine ⟨l.map f₁, _, rfl, ?_⟩
      conv_lhs => rw [h0]
      simp [Alias.Op.exec, key, inplace]
    · rcases chain t₃ s₃ with _ | f₃
      · refine ⟨(l.map f₁).map f₂, _, rfl, ?_⟩
        conv_lhs => rw [h0]
        simp [Alias.Op.exec, key, inplace]
      · refine ⟨((l.map f₁).map f₂).map f₃, _, rfl, ?_⟩
        conv_lhs => rw [h0]
        simp [Alias.Op.exec, key, inplace]

/-- Which objects the two functions touch: on an array of floats the result *is* the caller's
array, every other array keeps its contents, and the caller's array holds what the value semantics
says, whether the call succeeds or raises. -/
theorem C06_in_place_violated (k : Consts) (h : Alias.Heap) (a : ℕ) (l : List ℝ)
    (hl : h[a]? = some l) (es vs ps : Str) :
    (∃ w r, energyToPressure k (.ndFloat l) es vs ps = (.ndFloat w, r) ∧
      Alias.run (Alias.e2p k es vs ps) h a =
        (h.set a w, match r with | .ok _ => .ok a | .error e => .error e)) ∧
    ∃ w r, pressureToEnergy k (.ndFloat l) es vs ps = (.ndFloat w, r) ∧
      Alias.run (Alias.p2e k es vs ps) h a =
        (h.set a w, match r with | .ok _ => .ok a | .error e => .error e) :=
  ⟨run_inplace _ _ _ _ _ _ h a l hl, run_inplace _ _ _ _ _ _ h a l hl⟩

/-- Witness: the second of three arrays is handed over. -/
example := C06_in_place_violated codata [[1], [2, 3], [4]] 1 [2, 3] rfl c!"eV" c!"A" c!"GPa"

end Verif.Units
