/-
Cases of the theorems on the reports (C102, C103, C107, C111, C112, C113, C114).
-/
import Verif.Report.ConciseProps
import Verif.Report.ElasticWidth
import Verif.Report.EosFitProps
import Verif.Report.HarmonicProps
import Verif.Report.SeismicInputProps
import Verif.Report.SettingsProps
import Verif.Report.StaticProps

namespace Verif.Report
open Verif.Py Verif.IO Verif.IO.Spec Verif.Phonon Verif.Export Verif.Report.Spec

/-- `Kp = 4.237(20)` is printed with two figures. -/
example := C103_small_partial c!"Kp" 4.237 (e := 0.02) (c!"4.237", c!"0.02") (d := 2) (by norm_num) (by norm_num) (.inr (by
  have : ⌊(423.7 : ℚ)⌋ = 423 := by norm_num [Int.floor_eq_iff]
  have h : (|4.237| * 10 ^ 2 : ℚ) = 423.7 := by norm_num [abs_of_pos]
  rw [h, roundHalfEven]
  simp only [this]
  norm_num))

/-- A large error: 160.3 with 12. -/
example := C103_large_partial c!"K0" 160.3 (e := 12) (c!"160.3", c!"12.0") (k := 0) (by norm_num) (by norm_num) (.inl (by norm_num))

/-- A bulk modulus derivative of exactly 4. -/
example := C103_zeros_violated c!"Kp" 4 (e := 0.02) (c!"4.0", c!"0.02") (d := 2) le_rfl (.inl (by norm_num)) (by
  have : ⌊(400 : ℚ)⌋ = 400 := by norm_num [Int.floor_eq_iff]
  have h : (|4| * 10 ^ 2 : ℚ) = 400 := by norm_num
  rw [h, roundHalfEven]
  simp only [this]
  norm_num)

example := C103_ten_violated c!"K0" 160.3 (e := 9.7) (c!"160.3", c!"9.7") (by norm_num) (by norm_num)

example := C103_unusable c!"K0" 160.3 (c!"160.3", c!"inf") (err := .inf) (.inl rfl)

example := C103_block ![160, 4, -0.02, 74] ![.finite 1, .finite 0, .finite 0, .inf] (fun _ => (c!"x", c!"y"))
  (fun i => by fin_cases i <;> simp)

/-- An elastic run of a solid with the density of quartz, and one without density. -/
example (avg : Fin 3 → Fin 4 → ℚ) (iso : Fin 3 → ℚ) (E LC G Nu Vp Vs1 Vs2 : Extremes) :=
  C111_run_partial 2650 avg (fun i => i.1 + 30) iso E LC G Nu Vp Vs1 Vs2 ⟨0, by norm_num⟩

example (avg : Fin 3 → Fin 4 → ℚ) (iso : Fin 3 → ℚ) (E LC G Nu Vp Vs1 Vs2 : Extremes) :=
  C111_velocities_violated (density := 0) (by norm_num) avg (fun i => i.1 + 30) iso E LC G Nu Vp Vs1 Vs2

/-- Extremes within the columns, with a ratio that is not finite. -/
def exExtremes : Extremes := ⟨0, 8.5, .inf, fun _ => 0.5773, fun _ => -0.7071, fun _ => 0, fun _ => 1⟩

theorem exExtremes_within {b : ℚ} (hb : 9999 ≤ b) : Within b exExtremes := by
  have : (0 : ℚ) ≤ b := by linarith
  constructor <;> intros <;> simp_all [exExtremes, abs_le] <;> first | linarith | (constructor <;> linarith)

example := C111_aligned exExtremes exExtremes exExtremes exExtremes exExtremes exExtremes exExtremes
  (exExtremes_within (by norm_num)) (exExtremes_within (by norm_num)) (exExtremes_within (by norm_num))
  (exExtremes_within (by norm_num)) (exExtremes_within le_rfl) (exExtremes_within le_rfl) (exExtremes_within le_rfl)

/-- A fit with a residual of 0.02 GPa: the column of the observed pressures shows another number. -/
example {l : Str} := C107_observed_violated (values := [74, 73]) (pressure := [0, 2.5])
  (r := ⟨[160, 4, -0.02, 74], [1, 0, 0, 0], List.replicate 4 [1, 0, 0, 0], 1 / 2, [c!"Sum of squares convergence"],
      [0, 0], [0.01, 2.52], [0.01, 0.02]⟩)
  ⟨rfl, rfl, rfl, by simp, rfl, rfl, rfl, rfl, fun i hi => by
    simp only [List.length_cons, List.length_nil] at hi
    interval_cases i <;> norm_num⟩ (i := 1) rfl rfl (by norm_num [abs_of_pos]) (l := l)

example := C107_implied (f := .birchMurnaghan) (order := 2) (.inl rfl) true 1

example := C112_accept exInput_complete

example := C114_start_partial (y := .upper) (by decide) exampleC_symmetric (det_ne_zero_of exampleC_inv)
  (t := c!"  MgO periclase") (density := some 3580)
  ⟨_, exampleRows, _, rfl, ⟨example_title, rfl⟩, exampleRows_upper, c!" 3580 1", [1],
    Verif.IO.numbers_of (by decide) (by decide +kernel), rfl⟩ ⟨by decide, .inl rfl⟩

example := C114_negative_violated (y := .upper) (by decide) exampleC_symmetric (det_ne_zero_of exampleC_inv)
  (t := c!"  MgO periclase") (q := -3580) (by norm_num)
  ⟨_, exampleRows, _, rfl, ⟨example_title, rfl⟩, exampleRows_upper, c!"-3580", [],
    Verif.IO.numbers_of (by decide) (by decide +kernel), rfl⟩ ⟨by decide, .inl rfl⟩

example := C114_singular_violated (y := .full) (C := fun _ _ => 1) (by decide) (fun _ _ => rfl)
  (Matrix.det_zero_of_row_eq (i := 0) (j := 1) (by decide) rfl) (t := c!"  MgO periclase") (q := 3580) (by norm_num)
  ⟨_, fun _ => c!"1 1 1 1 1 1", _, rfl, ⟨example_title, rfl⟩,
      fun i => Verif.IO.numbers_of (by revert i; decide) (by revert i; decide +kernel), c!" 3580 1", [1],
      Verif.IO.numbers_of (by decide) (by decide +kernel), rfl⟩ ⟨by decide, .inl rfl⟩

example (repr : ℚ → Str) := C114_report repr c!"MgO periclase" 3580 (det_ne_zero_of exampleC_inv)

example := C113_quasi_harmonic exSettings ⟨by decide, by decide, by decide, by decide⟩ (by decide) (by decide) (by decide)
  (form := .vinet) (name := c!"3rd-order Vinet") (by simp [exSettings, Command.Spec.eosChoices])

section Static
open Verif.QHA Verif.QHA.Spec Verif.Units

theorem exVolumes : Increasing 3 (fun i => 100 + (i : ℝ) ^ 2) := by
  intro i _
  push_cast
  nlinarith [Nat.cast_nonneg (α := ℝ) i]

variable (k : Consts) (u : QHA.Spec.Choice) (eosFit : EoS.EForm → Fin 4 → ℝ)

example := C102_slope k u eosFit (by norm_num) exVolumes (E := fun v => (v - 102) ^ 2) (fun v _ _ => by fun_prop)

example {p : ℕ → ℝ} := C102_decreasing k u eosFit le_rfl exVolumes (E := fun v => v ^ 2) (s := Set.univ)
  (even_two.strictConvexOn_pow two_ne_zero) (fun _ _ => trivial) (p := p) (i := 1)

example := C102_inner_partial k u eosFit exVolumes (-270) 1 102 (i := 1) (by norm_num) (by norm_num)

example := C102_ends_violated k u eosFit (by norm_num) exVolumes (-270) 102 one_ne_zero

example (x f : ℕ → ℝ) := C102_few k c!"Ha" c!"A" c!"GPa" eosFit (n := 1) (by norm_num) x f

example (e : ℕ → ℝ) := C102_eos_partial k u .murnaghan (.inl rfl) (fun _ => ![0, 0.1, 4, 10]) 3 (x := fun _ => 9) e rfl
  (by norm_num) (by norm_num) (by norm_num [EoS.Spec.ERegular]) (i := 0) (by norm_num)

example (e : ℕ → ℝ) := C102_eos_violated k u .birchMurnaghan (.inl rfl) (fun _ => ![0, 0.1, 4, 10]) 3 (x := fun _ => 9) e rfl
  (by norm_num) (by norm_num) (i := 0) (by norm_num) (by norm_num)

end Static

end Verif.Report
