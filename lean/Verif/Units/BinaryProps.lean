/-
Property theorems C152: the unit converters in the arithmetic of the computer.
-/
import Verif.Units.BinaryLemmas
import Verif.StatMech.BinaryProps

noncomputable section

namespace Verif.Units.Rounded
open Verif.Py Verif.Units Verif.Units.Spec
open Spec (u Accurate Within)

variable {m : Machine} (hm : Accurate m)
include hm

/-- A temperature in any of the four scales, converted to any other: off by at most 12 units of relative rounding of the
temperature plus 300 K. -/
theorem C152_temperature : Within (fun T => 12 * u * (|T| + 300)) temperatures (convertTemperature m) := by
  have ok : ∀ v a b A B, Means temperatures a A → Means temperatures b B → ∃ w, convertTemperature m v a b = .ok w ∧
      List.Forall₂ (fun x y => |B.toRef y - A.toRef x| ≤ 12 * u * (|A.toRef x| + 300)) v w := by
    intro v a b A B hA hB
    rcases tempTo_follows hm a with ⟨e, h1, -⟩ | ⟨f, f', h1, h2, h3⟩
    · rw [tempToKelvin_ok a A hA] at h1; cases h1
    rcases tempFrom_follows hm b with ⟨e, h4, -⟩ | ⟨g, g', c, h4, h5, h6, h7, h8⟩
    · rw [tempFromKelvin_ok b B hB] at h4; cases h4
    rw [tempToKelvin_ok a A hA] at h1
    rw [tempFromKelvin_ok b B hB] at h4
    cases h1
    cases h4
    have hB0 : B.slope ≠ 0 := by
      have : ∀ A ∈ temperatures, A.slope ≠ 0 := by simp [temperatures]
      exact this B hB.1
    have hc : c = B.slope := by
      have := h7 1 0
      field_simp at this
      linarith
    subst hc
    refine ⟨(v.map f').map g', by simp [convertTemperature, convert, h2, h5, bind, Except.bind, pure, Except.pure], ?_⟩
    rw [List.map_map, List.forall₂_map_right_iff, List.forall₂_same]
    intro x _
    have h9 := h3 x
    simp only [div_one] at h9
    have := h8 _ _ h9
    rw [← abs_of_pos h6, ← abs_mul, abs_of_pos h6] at this
    have e1 : B.slope * (g' (f' x) - (1 * A.toRef x - B.offset) / B.slope) = B.toRef (g' (f' x)) - A.toRef x := by
      rw [mul_sub, mul_div_cancel₀ _ hB0, show B.toRef (g' (f' x)) = B.slope * g' (f' x) + B.offset from rfl]
      ring
    show |B.toRef (g' (f' x)) - A.toRef x| ≤ _
    rw [← e1]
    exact this
  have rejF : ∀ s, (∀ A, ¬ Means temperatures s A) → tempToKelvin m s = .error .notImplemented := by
    intro s h
    rcases tempTo_follows hm s with ⟨e, h1, h2⟩ | ⟨f, f', h1, -⟩
    · rw [h2, ← h1, tempToKelvin_err s h]
    · rw [tempToKelvin_err s h] at h1; cases h1
  have rejG : ∀ s, (∀ A, ¬ Means temperatures s A) → tempFromKelvin m s = .error .notImplemented := by
    intro s h
    rcases tempFrom_follows hm s with ⟨e, h1, h2⟩ | ⟨f, f', c, h1, -⟩
    · rw [h2, ← h1, tempFromKelvin_err s h]
    · rw [tempFromKelvin_err s h] at h1; cases h1
  have rej : ∀ v a b, ((∀ A, ¬ Means temperatures a A) ∨ (∀ B, ¬ Means temperatures b B)) →
      convertTemperature m v a b = .error .notImplemented := by
    intro v a b hc
    by_cases ha : ∃ A, Means temperatures a A
    · obtain ⟨A, hA⟩ := ha
      rcases hc with hc | hc
      · exact absurd hA (hc A)
      · rcases tempTo_follows hm a with ⟨e, h1, h2⟩ | ⟨f, f', h1, h2, -⟩
        · rw [tempToKelvin_ok a A hA] at h1; cases h1
        · simp [convertTemperature, convert, h2, rejG b hc, bind, Except.bind]
    · rw [not_exists] at ha
      simp [convertTemperature, convert, rejF a ha, bind, Except.bind]
  constructor
  · intro v a b
    constructor
    · rintro ⟨w, hw⟩
      by_contra hc
      rw [not_and_or, not_exists, not_exists] at hc
      rw [rej v a b hc] at hw
      cases hw
    · rintro ⟨⟨A, hA⟩, B, hB⟩
      obtain ⟨w, h, -⟩ := ok v a b A B hA hB
      exact ⟨w, h⟩
  · exact rej
  · intro v a b w A B hw hA hB
    obtain ⟨w', h, h'⟩ := ok v a b A B hA hB
    rw [h] at hw
    cases hw
    exact h'

theorem C152_energy (k : Consts) : Within (fun E => 7 * u * |E|) (energiesShort k) (convertEnergy m k) := by
  have := within_of (n := 3) (p := 3) k.Ha_pos.ne' (fun A hA => (energiesShort_slopes k A hA).ne') (by simp [energiesShort])
    (energyToHartree_ok k) (energyToHartree_err k) (energyFromHartree_ok k) (energyFromHartree_err k)
    (energyToHartree_follows hm k) (energyFromHartree_follows hm k) (by norm_num [u])
  norm_num at this
  exact this

theorem C152_pressure : Within (fun P => 9 * u * |P|) pressures (convertPressure m) := by
  have := within_of (n := 4) (p := 4) one_ne_zero (fun A hA => (pressures_slopes A hA).ne') (by simp [pressures])
    pressureToPa_ok pressureToPa_err pressureFromPa_ok pressureFromPa_err
    (pressureToPa_follows hm) (pressureFromPa_follows hm) (by norm_num [u])
  norm_num at this
  exact this

theorem C152_frequency (k : Consts) : Within (fun f => 13 * u * |f|) (frequencies k) (convertFrequency m k) := by
  have := within_of (n := 6) (p := 6) (mul_ne_zero (by norm_num) k.c_pos.ne') (fun A hA => (frequencies_slopes k A hA).ne')
    (by simp [frequencies]) (freqToCm_ok k) (freqToCm_err k) (freqFromCm_ok k) (freqFromCm_err k)
    (freqToCm_follows hm k) (freqFromCm_follows hm k) (by norm_num [u])
  norm_num at this
  exact this

theorem C152_length (k : Consts) : Within (fun l => 3 * u * |l|) (lengths k) (convertLength m k) := by
  have := within_of (n := 1) (p := 1) one_ne_zero (fun A hA => (lengths_slopes k A hA).ne') (by simp [lengths])
    (lengthToM_ok k) (lengthToM_err k) (lengthFromM_ok k) (lengthFromM_err k)
    (lengthToM_follows hm k) (lengthFromM_follows hm k) (by norm_num [u])
  norm_num at this
  exact this

theorem C152_volume (k : Consts) : Within (fun V => 9 * u * |V|) (volumes k) (convertVolume m k) := by
  have := within_of (n := 4) (p := 4) one_ne_zero (fun A hA => (volumes_slopes k A hA).ne') (by simp [volumes])
    (volumeToM3_ok k) (volumeToM3_err k) (volumeFromM3_ok k) (volumeFromM3_err k)
    (volumeToM3_follows hm k) (volumeFromM3_follows hm k) (by norm_num [u])
  norm_num at this
  exact this

/-- The pressure of an energy density: off by at most ten units of relative rounding. -/
theorem C152_energy_to_pressure (k : Consts) (v : PyVal) {l : List ℝ} (hv : v.floats = some l) {es vs ps : Str}
    {E V P : Scale} (hE : Means (densityEnergies k) es E) (hV : Means (densityVolumes k) vs V) (hP : Means pressures ps P) :
    ∃ w, (energyToPressure m k v es vs ps).2 = .ok w ∧
      List.Forall₂ (fun x y => |P.slope * y - x * E.slope / V.slope| ≤ 10 * u * |x * E.slope / V.slope|) l w := by
  obtain ⟨w, hw, h⟩ := C05_energy_to_pressure k v hv hE hV hP
  obtain ⟨w', hw', h'⟩ := (finish_follows v (e2pEnergy_follows hm k es) (e2pVolume_follows hm k vs)
    (e2pPressure_follows hm ps)).2 w hw
  refine ⟨w', hw', ?_⟩
  have h3 := pressures_slopes P hP.1
  have : List.Forall₂ (fun y x => |P.slope * y - x * E.slope / V.slope| ≤ 10 * u * |x * E.slope / V.slope|) w' l := by
    clear hv hw hw'
    induction h generalizing w' with
    | nil => cases h'; exact .nil
    | cons e _ ih =>
      cases h' with
      | cons n t =>
        refine .cons ?_ (ih _ t)
        have := n.error (by norm_num [u])
        rw [← e, ← mul_sub, abs_mul, abs_mul]
        push_cast at this
        nlinarith [abs_nonneg P.slope, mul_le_mul_of_nonneg_left this (abs_nonneg P.slope)]
  exact this.flip

/-- The reverse conversion. -/
theorem C152_pressure_to_energy (k : Consts) (v : PyVal) {l : List ℝ} (hv : v.floats = some l) {es vs ps : Str}
    {E V P : Scale} (hE : Means (densityEnergies k) es E) (hV : Means (densityVolumes k) vs V) (hP : Means pressures ps P) :
    ∃ w, (pressureToEnergy m k v es vs ps).2 = .ok w ∧
      List.Forall₂ (fun y x => |x * E.slope / V.slope - P.slope * y| ≤ 10 * u * |P.slope * y|) l w := by
  obtain ⟨w, hw, h⟩ := C05_pressure_to_energy k v hv hE hV hP
  obtain ⟨w', hw', h'⟩ := (finish_follows v (p2ePressure_follows hm ps) (p2eVolume_follows hm k vs)
    (p2eEnergy_follows hm k es)).2 w hw
  refine ⟨w', hw', ?_⟩
  have : List.Forall₂ (fun x y => |x * E.slope / V.slope - P.slope * y| ≤ 10 * u * |P.slope * y|) w' l := by
    clear hv hw hw'
    induction h generalizing w' with
    | nil => cases h'; exact .nil
    | @cons y x _ _ e _ ih =>
      cases h' with
      | @cons _ x' _ _ n t =>
        refine .cons ?_ (ih _ t)
        have := n.error (by norm_num [u])
        rw [e, mul_div_assoc, mul_div_assoc, ← sub_mul, abs_mul, abs_mul]
        push_cast at this
        nlinarith [mul_le_mul_of_nonneg_right this (abs_nonneg (E.slope / V.slope))]
  exact this.flip

/-- Both functions reject what the exact ones reject, with the same exception. -/
theorem C152_energy_density_reject (k : Consts) (v : PyVal) (es vs ps : Str) (e : PyErr) :
    ((Units.energyToPressure k v es vs ps).2 = .error e → (energyToPressure m k v es vs ps).2 = .error e) ∧
    ((Units.pressureToEnergy k v es vs ps).2 = .error e → (pressureToEnergy m k v es vs ps).2 = .error e) :=
  ⟨(finish_follows v (e2pEnergy_follows hm k es) (e2pVolume_follows hm k vs) (e2pPressure_follows hm ps)).1 e,
    (finish_follows v (p2ePressure_follows hm ps) (p2eVolume_follows hm k vs) (p2eEnergy_follows hm k es)).1 e⟩

/-! ### There and back -/

omit hm in
theorem round_trip_of {scales : List Scale} {conv : List ℝ → Str → Str → Except PyErr (List ℝ)} {c : ℝ}
    (hW : Within (fun x => c * u * |x|) scales conv) (hc : 0 ≤ c) (hc1 : c * c * u ≤ 1) (hs : ∀ A ∈ scales, 0 < A.slope)
    (ho : ∀ A ∈ scales, A.offset = 0) {v w : List ℝ} {a b : Str} (h : conv v a b = .ok w) :
    ∃ z, conv w b a = .ok z ∧ List.Forall₂ (fun x x' => |x' - x| ≤ (2 * c + 1) * u * |x|) v z := by
  obtain ⟨⟨A, hA⟩, B, hB⟩ := (hW.accepts v a b).1 ⟨w, h⟩
  obtain ⟨z, hz⟩ := (hW.accepts w b a).2 ⟨⟨B, hB⟩, A, hA⟩
  refine ⟨z, hz, ?_⟩
  have h1 := hW.close v a b w A B h hA hB
  have h2 := hW.close w b a z B A hz hB hA
  clear h hz
  induction h1 generalizing z with
  | nil => cases h2; exact .nil
  | @cons x y _ _ e _ ih =>
    cases h2 with
    | @cons _ x' _ _ e' t =>
      refine .cons ?_ (ih _ t)
      have hs' := hs A hA.1
      have hu := u_pos
      have e1 : A.toRef x' - A.toRef x = A.slope * (x' - x) := by simp only [Scale.toRef]; ring
      have e2 : A.toRef x = A.slope * x := by rw [Scale.toRef, ho A hA.1, add_zero]
      have h3 : |A.toRef x' - A.toRef x| ≤ (2 * c + 1) * u * |A.toRef x| := by
        have h4 : |A.toRef x' - A.toRef x| ≤ |A.toRef x' - B.toRef y| + |B.toRef y - A.toRef x| := abs_sub_le _ _ _
        have h5 : |B.toRef y| ≤ |A.toRef x| + c * u * |A.toRef x| := by
          have := abs_sub_abs_le_abs_sub (B.toRef y) (A.toRef x)
          linarith
        have h6 := mul_le_mul_of_nonneg_left h5 (mul_nonneg hc hu.le)
        have h7 := mul_le_mul_of_nonneg_right hc1 (mul_nonneg hu.le (abs_nonneg (A.toRef x)))
        nlinarith
      rw [e1, e2, abs_mul, abs_mul, abs_of_pos hs', ← mul_assoc, mul_comm _ A.slope, mul_assoc] at h3
      exact le_of_mul_le_mul_left h3 hs'

/-- Converting there and back: the same numbers up to the rounding. -/
theorem C152_round_trip (k : Consts) {v w : List ℝ} {a b : Str} :
    (convertEnergy m k v a b = .ok w →
      ∃ z, convertEnergy m k w b a = .ok z ∧ List.Forall₂ (fun x x' => |x' - x| ≤ 15 * u * |x|) v z) ∧
    (convertPressure m v a b = .ok w →
      ∃ z, convertPressure m w b a = .ok z ∧ List.Forall₂ (fun x x' => |x' - x| ≤ 19 * u * |x|) v z) ∧
    (convertFrequency m k v a b = .ok w →
      ∃ z, convertFrequency m k w b a = .ok z ∧ List.Forall₂ (fun x x' => |x' - x| ≤ 27 * u * |x|) v z) ∧
    (convertLength m k v a b = .ok w →
      ∃ z, convertLength m k w b a = .ok z ∧ List.Forall₂ (fun x x' => |x' - x| ≤ 7 * u * |x|) v z) ∧
    (convertVolume m k v a b = .ok w →
      ∃ z, convertVolume m k w b a = .ok z ∧ List.Forall₂ (fun x x' => |x' - x| ≤ 19 * u * |x|) v z) := by
  refine ⟨fun h => ?_, fun h => ?_, fun h => ?_, fun h => ?_, fun h => ?_⟩
  · have := round_trip_of (C152_energy hm k) (by norm_num) (by norm_num [u]) (energiesShort_slopes k) (by simp [energiesShort]) h
    norm_num at this
    exact this
  · have := round_trip_of (C152_pressure hm) (by norm_num) (by norm_num [u]) pressures_slopes (by simp [pressures]) h
    norm_num at this
    exact this
  · have := round_trip_of (C152_frequency hm k) (by norm_num) (by norm_num [u]) (frequencies_slopes k) (by simp [frequencies]) h
    norm_num at this
    exact this
  · have := round_trip_of (C152_length hm k) (by norm_num) (by norm_num [u]) (lengths_slopes k) (by simp [lengths]) h
    norm_num at this
    exact this
  · have := round_trip_of (C152_volume hm k) (by norm_num) (by norm_num [u]) (volumes_slopes k) (by simp [volumes]) h
    norm_num at this
    exact this

/-- The same for temperatures, in kelvin. -/
theorem C152_temperature_round_trip {v w : List ℝ} {a b : Str} {A : Scale} (hA : Means temperatures a A)
    (h : convertTemperature m v a b = .ok w) :
    ∃ z, convertTemperature m w b a = .ok z ∧
      List.Forall₂ (fun x x' => |A.toRef x' - A.toRef x| ≤ 25 * u * (|A.toRef x| + 300)) v z := by
  have hW := C152_temperature hm
  obtain ⟨-, B, hB⟩ := (hW.accepts v a b).1 ⟨w, h⟩
  obtain ⟨z, hz⟩ := (hW.accepts w b a).2 ⟨⟨B, hB⟩, A, hA⟩
  refine ⟨z, hz, ?_⟩
  have h1 := hW.close v a b w A B h hA hB
  have h2 := hW.close w b a z B A hz hB hA
  clear h hz
  induction h1 generalizing z with
  | nil => cases h2; exact .nil
  | @cons x y _ _ e _ ih =>
    cases h2 with
    | @cons _ x' _ _ e' t =>
      refine .cons ?_ (ih _ t)
      have hu := u_pos
      have hu1 : u < 1 / 10 ^ 6 := by unfold u; norm_num
      have h4 : |A.toRef x' - A.toRef x| ≤ |A.toRef x' - B.toRef y| + |B.toRef y - A.toRef x| := abs_sub_le _ _ _
      have h5 : |B.toRef y| ≤ |A.toRef x| + 12 * u * (|A.toRef x| + 300) := by
        have := abs_sub_abs_le_abs_sub (B.toRef y) (A.toRef x)
        linarith
      have h0 := abs_nonneg (A.toRef x)
      have h6 := mul_le_mul_of_nonneg_left h5 hu.le
      have h8 : u * (u * (|A.toRef x| + 300)) ≤ 1 / 10 ^ 6 * (u * (|A.toRef x| + 300)) :=
        mul_le_mul_of_nonneg_right hu1.le (mul_nonneg hu.le (by linarith))
      nlinarith

/-! ### The computer -/

omit hm in
theorem log_eq {x : ℝ} {e : ℤ} (h1 : (2:ℝ) ^ e ≤ x) (h2 : x < (2:ℝ) ^ (e + 1)) : Int.log 2 x = e := by
  have hx : 0 < x := (zpow_pos two_pos e).trans_le h1
  refine le_antisymm ?_ ?_
  · have := (Int.lt_zpow_iff_log_lt (b := 2) (by norm_num) hx).1 (by exact_mod_cast h2)
    omega
  · exact (Int.zpow_le_iff_le_log (b := 2) (by norm_num) hx).1 (by exact_mod_cast h1)

omit hm in
/-- Rounding of a positive number: the binade and the nearest multiple of the unit in the last place. -/
theorem round_eq {x : ℝ} {e : ℤ} {n : ℤ} (h1 : (2:ℝ) ^ (e + 52) ≤ x) (h2 : x < (2:ℝ) ^ (e + 53))
    (h3 : |x / 2 ^ e - n| < 1 / 2) : StatMech.roundBinary x = n * 2 ^ e := by
  have hx : 0 < x := (zpow_pos two_pos _).trans_le h1
  have hl : Int.log 2 |x| - 52 = e := by
    rw [abs_of_pos hx, log_eq h1 (by rw [show e + 52 + 1 = e + 53 by ring]; exact h2)]
    ring
  rw [StatMech.roundBinary]
  simp only [hl]
  congr 2
  rw [StatMech.nearestEven]
  set y := x / 2 ^ e
  obtain ⟨h4, h5⟩ := abs_lt.1 h3
  have h6 := Int.floor_le y
  have h7 := Int.lt_floor_add_one y
  by_cases hc : (n : ℝ) ≤ y
  · have : ⌊y⌋ = n := Int.floor_eq_iff.2 ⟨hc, by linarith⟩
    rw [this, if_pos (by linarith)]
  · push Not at hc
    have : ⌊y⌋ = n - 1 := Int.floor_eq_iff.2 ⟨by push_cast; linarith, by push_cast; linarith⟩
    rw [this, if_neg (by push_cast; linarith), if_pos (by push_cast; linarith)]
    ring

omit hm in
/-- Binary64 with correctly rounded powers. -/
def computer : Machine := ⟨StatMech.roundBinary, fun x n => StatMech.roundBinary (x ^ n)⟩

omit hm in
theorem C152_computer : Accurate computer where
  rnd x := by
    have := StatMech.roundBinary_err x
    show |StatMech.roundBinary x - x| ≤ _
    simpa [u, StatMech.Spec.u] using this
  pow x n := by
    have := StatMech.roundBinary_err (x ^ n)
    have h0 : 0 ≤ u * |x ^ n| := mul_nonneg u_pos.le (abs_nonneg _)
    have h1 : |StatMech.roundBinary (x ^ n) - x ^ n| ≤ u * |x ^ n| := by simpa [u, StatMech.Spec.u] using this
    show |StatMech.roundBinary (x ^ n) - x ^ n| ≤ _
    linarith

omit hm in
/-- A conversion from a unit to itself changes the numbers: 0.1 degrees Celsius become 0.10000000000002274. -/
theorem C152_identity_violated :
    StatMech.roundBinary (1 / 10) = 3602879701896397 / 2 ^ 55 ∧
    convertTemperature computer [3602879701896397 / 2 ^ 55] c!"C" c!"C" = .ok [1759218604442 / 2 ^ 44] ∧
    (1759218604442 / 2 ^ 44 : ℝ) - 3602879701896397 / 2 ^ 55 > 2 / 10 ^ 14 := by
  have hz : zeroCelsius computer = 4805305618032230 / 2 ^ 44 := by
    have := round_eq (x := 273.15) (e := -44) (n := 4805305618032230) (by norm_num) (by norm_num)
      (by rw [abs_lt]; constructor <;> norm_num)
    rw [zeroCelsius]
    show StatMech.roundBinary 273.15 = _
    rw [this]
    norm_num
  have h1 : StatMech.roundBinary (3602879701896397 / 2 ^ 55 + 4805305618032230 / 2 ^ 44) = 4807064836636672 / 2 ^ 44 := by
    rw [round_eq (e := -44) (n := 4807064836636672) (by norm_num) (by norm_num)
      (by rw [abs_lt]; constructor <;> norm_num)]
    norm_num
  have h2 : StatMech.roundBinary (4807064836636672 / 2 ^ 44 - 4805305618032230 / 2 ^ 44) = 1759218604442 / 2 ^ 44 := by
    rw [round_eq (e := -56) (n := 1759218604442 * 2 ^ 12) (by norm_num) (by norm_num)
      (by rw [abs_lt]; constructor <;> norm_num)]
    norm_num
  refine ⟨?_, ?_, by norm_num⟩
  · rw [round_eq (e := -56) (n := 2 * 3602879701896397) (by norm_num) (by norm_num)
      (by rw [abs_lt]; constructor <;> norm_num)]
    norm_num
  · have e1 : tempToKelvin computer c!"C" = .ok fun v => computer.rnd (v + zeroCelsius computer) := by
      rw [tempToKelvin, if_pos (by decide)]
    have e2 : tempFromKelvin computer c!"C" = .ok fun v => computer.rnd (v - zeroCelsius computer) := by
      rw [tempFromKelvin, if_pos (by decide)]
    simp only [convertTemperature, convert, e1, e2, bind, Except.bind, pure, Except.pure, List.map_cons, List.map_nil, hz]
    show Except.ok [StatMech.roundBinary (StatMech.roundBinary _ - _)] = _
    rw [h1, h2]

end Verif.Units.Rounded
