/-
C114: the start of a seismic run.
-/
import Verif.IO.SoecProps
import Verif.Report.SeismicInput
import Verif.Report.ElasticProps

noncomputable section

namespace Verif.Report
open Verif.Py Verif.IO Verif.IO.Spec Verif.Phonon Verif.Export Verif.Report.Spec

theorem load_density {y : Layout} (hy : y ≠ .lower) {C : Mat} (hC : Symmetric C) {t : Str} {density : Option ℚ}
    {ls : List Str} {text : Str} (h : SoecLines y C (some t) density ls) (hf : IsFile ls text) :
    ∃ d' g, loadSoec text .initial = (d', .ok ⟨true, none⟩) ∧ d'.stiffness = some C ∧
      d'.density = density.getD 0 ∧ (∀ c ∈ g, c ∈ [' ', '\t', '\n', '\r', '\x0b', '\x0c']) ∧ t = d'.job ++ g := by
  obtain ⟨d', h1, h2, h3, h4⟩ := C47_matrix_partial hy hC h hf .initial
  obtain ⟨g, hg, ht⟩ := h4 t rfl
  refine ⟨d', g, h1, h2, ?_, hg, ht⟩
  cases density with
  | some q => exact h3 q rfl
  | none =>
    have := (C48_soec_density_violated hy hC h hf .initial 0).1
    rw [show ({ SoecData.initial with density := 0 } : SoecData) = .initial from rfl, h1] at this
    exact this

/-- C114, in part: of the inputs with a title and a symmetric matrix that is not singular, the seismic command takes
those with a positive density, with the title, matrix and density of the file, and refuses those without.  Missing:
negative densities and singular matrices, see the next theorems. -/
theorem C114_start_partial {y : Layout} (hy : y ≠ .lower) {C : Mat} (hC : Symmetric C)
    (hdet : Matrix.det (Matrix.of C) ≠ 0) {t : Str} {density : Option ℚ} {ls : List Str} {text : Str}
    (h : SoecLines y C (some t) density ls) (hf : IsFile ls text) :
    (∀ q, density = some q → 0 < q → ∃ job g, startSeismic text .initial = .ok (.ready job C q) ∧ t = job ++ g ∧
      ∀ c ∈ g, c ∈ [' ', '\t', '\n', '\r', '\x0b', '\x0c']) ∧
    (density = none ∨ density = some 0 → startSeismic text .initial = .ok .noDensity) := by
  obtain ⟨d', g, h1, h2, h3, hg, ht⟩ := load_density hy hC h hf
  constructor
  · rintro q rfl hq
    refine ⟨d'.job, g, ?_, ht, hg⟩
    rw [Option.getD_some] at h3
    simp [startSeismic, h1, h3, hq.ne', construct, h2, hdet]
  · intro hd
    have : d'.density = 0 := by rcases hd with rfl | rfl <;> exact h3
    simp [startSeismic, h1, this]

/-- C114: files that the reader refuses are refused. -/
theorem C114_refused {text : Str} {d d' : SoecData} {e : Option SoecError}
    (h : loadSoec text d = (d', .ok ⟨false, e⟩)) : startSeismic text d = .ok (.refused e) := by
  simp [startSeismic, h]

/-- C114, violated: a negative density is taken, although no wave has a real velocity then: the density times the square
of a real velocity is never positive. -/
theorem C114_negative_violated {y : Layout} (hy : y ≠ .lower) {C : Mat} (hC : Symmetric C)
    (hdet : Matrix.det (Matrix.of C) ≠ 0) {t : Str} {q : ℚ} (hq : q < 0) {ls : List Str} {text : Str}
    (h : SoecLines y C (some t) (some q) ls) (hf : IsFile ls text) :
    (∃ job, startSeismic text .initial = .ok (.ready job C q)) ∧ ∀ v : ℝ, ¬ 0 < q * v ^ 2 := by
  obtain ⟨d', g, h1, h2, h3, hg, ht⟩ := load_density hy hC h hf
  rw [Option.getD_some] at h3
  refine ⟨⟨d'.job, by simp [startSeismic, h1, h3, hq.ne, construct, h2, hdet]⟩, fun v => not_lt.2 ?_⟩
  exact mul_nonpos_of_nonpos_of_nonneg (by exact_mod_cast hq.le) (sq_nonneg v)

/-- C114, violated: a singular matrix ends the command in an exception instead of a message. -/
theorem C114_singular_violated {y : Layout} (hy : y ≠ .lower) {C : Mat} (hC : Symmetric C)
    (hdet : Matrix.det (Matrix.of C) = 0) {t : Str} {q : ℚ} (hq : q ≠ 0) {ls : List Str} {text : Str}
    (h : SoecLines y C (some t) (some q) ls) (hf : IsFile ls text) :
    startSeismic text .initial = .error .valueError := by
  obtain ⟨d', g, h1, h2, h3, hg, ht⟩ := load_density hy hC h hf
  rw [Option.getD_some] at h3
  simp [startSeismic, h1, h3, hq, construct, h2, hdet]

/-- C114: the report of the input shows the title, the density, the stiffness with four decimals and a thousand times its
inverse with six decimals. -/
theorem C114_report (repr : ℚ → Str) (job : Str) {C : Mat} (density : ℚ) (hdet : Matrix.det (Matrix.of C) ≠ 0) :
    ∃ S : Mat, (∀ i j, ∑ k, C i k * S k j = if i = j then 1 else 0) ∧ ∃ stiffness compliance,
      seismicInputLog repr (.ready job C density) = some ([c!"Analysis of the sound velocities in " ++ job, [],
        c!"Density: " ++ repr density ++ c!" kg m^-3", [], c!"Stiffness matrix (values in GPa)"] ++ stiffness ++
        [[], c!"Compliance tensor (values in TPa^-1)"] ++ compliance ++ [[]]) ∧
      stiffness.length = 6 ∧ compliance.length = 6 ∧
      (∀ (i : Fin 6) l, stiffness[i.1]? = some l → IsRow 4 (List.ofFn (C i)) l) ∧
      ∀ (i : Fin 6) l, compliance[i.1]? = some l → IsRow 6 (List.ofFn fun j => S i j * 1000) l := by
  refine ⟨(@Inv.inv (Matrix (Fin 6) (Fin 6) ℚ) _ (Matrix.of C)), fun i j => ?_, _, _, rfl, by simp, by simp, ?_, ?_⟩
  · have := Matrix.mul_nonsing_inv (Matrix.of C) (isUnit_iff_ne_zero.2 hdet)
    have := congrFun (congrFun this i) j
    rw [Matrix.mul_apply, Matrix.one_apply] at this
    exact this
  · intro i l hl
    rw [List.getElem?_ofFn, dif_pos i.2, Option.some.injEq] at hl
    exact hl ▸ stiffnessLine_spec _
  · intro i l hl
    rw [List.getElem?_ofFn, dif_pos i.2, Option.some.injEq] at hl
    exact hl ▸ complianceLine_spec _

/-- The inverse of the matrix of the example. -/
def exampleInv : Mat :=
  ![![97340/24480837, -23560/24480837, -23560/24480837, 0, 0, 314/8160279],
    ![-23560/24480837, 4380062/1101637665, -1060124/1101637665, 0, 0, -76/8160279],
    ![-23560/24480837, -1060124/1101637665, 4380062/1101637665, 0, 0, -76/8160279],
    ![0, 0, 0, 1/155, 0, 0], ![0, 0, 0, 0, 1/155, 0],
    ![314/8160279, -76/8160279, -76/8160279, 0, 0, 17550/2720093]]

theorem exampleC_inv : ∀ i j, ∑ k, exampleC i k * exampleInv k j = if i = j then 1 else 0 := by decide +kernel

theorem det_ne_zero_of {C S : Mat} (h : ∀ i j, ∑ k, C i k * S k j = if i = j then 1 else 0) :
    Matrix.det (Matrix.of C) ≠ 0 := by
  have : Matrix.of C * Matrix.of S = 1 := by
    ext i j
    rw [Matrix.mul_apply, Matrix.one_apply]
    exact h i j
  intro h0
  have := congrArg Matrix.det this
  rw [Matrix.det_mul, h0, zero_mul, Matrix.det_one] at this
  exact zero_ne_one this

/-- A file with title, upper triangle and density, as C114_start_partial takes it, and one with a negative density. -/
example : Symmetric exampleC ∧ Matrix.det (Matrix.of exampleC) ≠ 0 ∧
    SoecLines .upper exampleC (some c!"  MgO periclase") (some 3580)
      ([c!"  MgO periclase"] ++ List.ofFn exampleRows ++ [c!" 3580 1"]) ∧
    SoecLines .upper exampleC (some c!"  MgO periclase") (some (-3580))
      ([c!"  MgO periclase"] ++ List.ofFn exampleRows ++ [c!"-3580"]) := by
  refine ⟨exampleC_symmetric, ?_, ⟨_, exampleRows, _, rfl, ⟨example_title, rfl⟩, exampleRows_upper, c!" 3580 1", [1],
    Verif.IO.numbers_of (by decide) (by decide +kernel), rfl⟩, ⟨_, exampleRows, _, rfl, ⟨example_title, rfl⟩, exampleRows_upper,
      c!"-3580", [], Verif.IO.numbers_of (by decide) (by decide +kernel), rfl⟩⟩
  exact det_ne_zero_of exampleC_inv

/-- A file with a singular matrix, as C114_singular_violated takes it. -/
example : Symmetric (fun _ _ => 1) ∧ Matrix.det (Matrix.of (fun _ _ => 1 : Mat)) = 0 ∧
    SoecLines .full (fun _ _ => 1) (some c!"  MgO periclase") (some 3580)
      ([c!"  MgO periclase"] ++ List.ofFn (fun _ : Fin 6 => c!"1 1 1 1 1 1") ++ [c!" 3580 1"]) :=
  ⟨fun _ _ => rfl, Matrix.det_zero_of_row_eq (i := 0) (j := 1) (by decide) rfl,
    ⟨_, fun _ => c!"1 1 1 1 1 1", _, rfl, ⟨example_title, rfl⟩,
      fun i => Verif.IO.numbers_of (by revert i; decide) (by revert i; decide +kernel), c!" 3580 1", [1],
      Verif.IO.numbers_of (by decide) (by decide +kernel), rfl⟩⟩

end Verif.Report
