/-
The theorems about the readers of elastic constants and of equation-of-state data, applied to concrete files.
-/
import Verif.IO.EoSHang
import Verif.IO.SoecProps
import Verif.IO.EoSProps

namespace Verif.IO.Cases
open Verif.Py Verif.IO Spec

/-! ### Elastic constants -/

def title : Str := c!"  MgO periclase"

/-- Title, upper triangle and density. -/
def full : List Str := [title] ++ List.ofFn exampleRows ++ [c!" 3580 1"]
/-- The same without the density. -/
def noDensity : List Str := [title] ++ List.ofFn exampleRows ++ []
/-- The upper triangle alone. -/
def alone : List Str := [] ++ List.ofFn exampleRows ++ []
/-- Title and lower triangle. -/
def lowerHalf : List Str := [title] ++ List.ofFn exampleLower ++ []

/-- The text of a file. -/
def text (ls : List Str) : Str := List.intercalate ['\n'] ls ++ ['\n']

theorem full_lines : SoecLines .upper exampleC (some title) (some 3580) full :=
  ⟨_, exampleRows, _, rfl, ⟨example_title, rfl⟩, exampleRows_upper, c!" 3580 1", [1],
    numbers_of (by decide) (by decide +kernel), rfl⟩
theorem noDensity_lines : SoecLines .upper exampleC (some title) none noDensity :=
  ⟨_, exampleRows, _, rfl, ⟨example_title, rfl⟩, exampleRows_upper, rfl⟩
theorem alone_lines : SoecLines .upper exampleC none none alone :=
  ⟨[], exampleRows, [], by simp [alone], ⟨rfl, [], '2', c!"97.5 95 9.5e1 0 0 -1.5 ",
    by intro c hc; simp at hc, by decide, rfl⟩, exampleRows_upper, rfl⟩
theorem lower_lines : SoecLines .lower exampleC (some title) none lowerHalf :=
  ⟨_, exampleLower, _, rfl, ⟨example_title, rfl⟩,
    fun i => numbers_of (by revert i; decide) (by revert i; decide +kernel), rfl⟩

theorem full_file : IsFile full (text full) := ⟨by decide, .inr rfl⟩
theorem noDensity_file : IsFile noDensity (text noDensity) := ⟨by decide, .inr rfl⟩
theorem alone_file : IsFile alone (text alone) := ⟨by decide, .inr rfl⟩
theorem lower_file : IsFile lowerHalf (text lowerHalf) := ⟨by decide, .inr rfl⟩

variable (d d' : SoecData)

example := C47_matrix_partial (by decide) exampleC_symmetric full_lines full_file d
example := C47_matrix_partial (by decide) exampleC_symmetric alone_lines alone_file d
example := C47_lower_violated (by decide +kernel) lower_lines lower_file d
example := C48_soec_partial (by decide) exampleC_symmetric full_lines full_file d d'
example := C48_soec_density_violated (by decide) exampleC_symmetric noDensity_lines noDensity_file d 3580
example := C48_soec_title_violated alone_lines alone_file d

/-- A matrix whose first number carries a sign. -/
def signed : Fin 6 → Str := ![c!"+297.5 95 95 0 0 -1.5", c!"297.5 95 0 0 0", c!"297.5 0 0 0", c!"155 0 0", c!"155 0", c!"155"]

example := C47_sign_violated (C := exampleC) (y := .upper) (rows := signed)
  (fun i => numbers_of (by revert i; decide) (by revert i; decide +kernel)) (g := []) (c := '+')
  (t := c!"297.5 95 95 0 0 -1.5") (by intro c hc; simp at hc) (by decide) rfl (by decide)
  (text := text (List.ofFn signed)) ⟨by decide, .inr rfl⟩ d

/-- A full matrix with a seventh number in front of the first row. -/
def seven : Fin 6 → Str := ![c!"7 297.5 95 95 0 0 -1.5", c!"95 297.5 95 0 0 0", c!"95 95 297.5 0 0 0", c!"0 0 0 155 0 0",
  c!"0 0 0 0 155 0", c!"-1.5 0 0 0 0 155"]

example := C47_shape_violated exampleC_symmetric 7 example_title (rows := seven)
  (numbers_of (by decide) (by decide +kernel))
  (fun i _ => numbers_of (by revert i; decide) (by revert i; decide +kernel))
  (text := text (c!"  MgO periclase" :: List.ofFn seven)) ⟨by decide, .inr rfl⟩ d

example : ∃ d' : SoecData, (∃ M : Mat, d'.stiffness = some M ∧ ∀ i j, |M i j - M j i| ≤ 1 / 1000) := by
  obtain ⟨d', h, -⟩ := C47_matrix_partial (by decide) exampleC_symmetric full_lines full_file ⟨[], none, 0⟩
  exact ⟨d', (C47_completed_partial h).1⟩

example := C47_short (ls := [c!"MgO", c!"1 2 3"]) (text := text [c!"MgO", c!"1 2 3"]) ⟨by decide, .inr rfl⟩ (by decide)
  (by decide) (by decide) d

example := C49_roundtrip_partial exampleC_symmetric 3580 example_title (by decide) (by decide) d

example := C49_title_violated exampleC 3580 (c := '2') (t := c!"H-MoS2") (by decide) (by decide) (by
  rintro ⟨q, hq⟩
  have h := parseFloat_numeral hq
  have : parseFloat c!"2H-MoS2" = none := by decide +kernel
  rw [this] at h
  cases h) d

/-! ### Equation-of-state data -/

/-- The lines, each with its newline. -/
def etext (ls : List Str) : Str := ls.flatMap (· ++ ['\n'])

def job : List Str := [c!"# a comment", c!"JOB", c!"", c!"MgO, data of 1999"]

theorem data_text : IsText (exampleLines c!"SigP") (etext (exampleLines c!"SigP")) := ⟨by decide, .inl rfl⟩
theorem job_text : IsText (job ++ exampleLines c!"SigP") (etext (job ++ exampleLines c!"SigP")) := ⟨by decide, .inl rfl⟩

example := C50_columns_partial (title := some c!"MgO, data of 1999") example_job example_formatData job_text (by decide)
  (by decide) (d := .initial) rfl rfl (by decide)
example := C51_spelling_violated example_formatData data_text (by decide) (by decide) (q := .sigmaP) (n := 3) (by decide)
  (by decide) (by decide)
example := C51_long_partial example_formatData data_text (by decide) (by decide) (q := .volume) (n := 2) (by decide)
  (by decide) (by decide)
example := C75_terminates_partial job_text (by decide)

/-- A file read after another one: the first title stays. -/
example : ∃ d1 d2 : EoSData, loadEoS (etext (job ++ exampleLines c!"SigP")) .initial = .ok (d1, true, none) ∧
    (∀ b e, loadEoS (etext (exampleLines c!"SigP")) d1 = .ok (d2, b, e) → d2.job = c!"MgO, data of 1999") := by
  obtain ⟨d1, h1, -, -, hj⟩ := C50_columns_partial (title := some c!"MgO, data of 1999") example_job example_formatData
    job_text (by decide) (by decide) (d := .initial) rfl rfl (by decide)
  refine ⟨d1, d1, h1, fun b e h => ?_⟩
  rw [C48_eos_title_violated (by rw [hj]; decide) h, hj]
  rfl

/-- Two columns after a file with four. -/
def narrow : List Str := [c!"FORMAT", c!"P V", c!"DATA", c!"0 75", c!"1.5 74"]

theorem narrow_data : FormatData 2 [c!"P", c!"V"] [[0, 75], [1.5, 74]] narrow :=
  ⟨[], c!"FORMAT", [], c!"P V", [], c!"DATA", _, rfl, by simp,
    ⟨c!"FORMAT", [], words_witness (by decide) (by decide), by decide⟩, by simp,
    words_witness (by decide) (by decide), ⟨_, _, rfl, by decide, by decide⟩, by simp,
    ⟨c!"DATA", [], words_witness (by decide) (by decide), by decide⟩,
    .row (numbers_of (by decide) (by decide +kernel)) (by simp) (by simp)
      (.row (numbers_of (by decide) (by decide +kernel)) (by simp) (by simp) .nil)⟩

example := C48_eos_format_violated narrow_data (text := etext narrow) ⟨by decide, .inl rfl⟩ (k := c!"sigp") (n := 3)
  (d := { EoSData.initial with format := [(c!"p", 0), (c!"t", 1), (c!"v", 2), (c!"sigp", 3)] }) (by decide) (by decide)
  (by decide) ⟨_, _, rfl, by decide⟩

example : ∃ d' : EoSData, loadEoS (etext narrow) .initial = .ok (d', true, none) ∧
    ∃ k ∈ ([c!"FORMAT", c!"P V"] : List Str), ∃ w more, words k = w :: more ∧ lower w = c!"format" := by
  have ht : IsText narrow (etext narrow) := ⟨by decide, .inl rfl⟩
  obtain ⟨d', h, -⟩ := C50_columns_partial (title := none) rfl narrow_data ht (by decide) (by decide) (d := .initial) rfl rfl
    (by decide)
  exact ⟨d', h, C50_format_first ht rfl h (pre := [c!"FORMAT", c!"P V"]) (l := c!"DATA") (post := [c!"0 75", c!"1.5 74"]) rfl
    ⟨c!"DATA", [], words_witness (by decide) (by decide), by decide⟩⟩

/-- A title that begins with the word data. -/
example := C50_title_violated (kj := c!"JOB") (t := c!"Data of MgO") (ls := narrow)
  ⟨c!"JOB", [], words_witness (by decide) (by decide), by decide⟩
  ⟨c!"Data", [c!"of", c!"MgO"], words_witness (by decide) (by decide), by decide⟩
  (text := etext (c!"JOB" :: c!"Data of MgO" :: narrow)) ⟨by decide, .inl rfl⟩ (d := .initial) rfl

/-- No column of pressures. -/
def noP : List Str := [c!"FORMAT", c!"T V", c!"DATA", c!"300 75"]

theorem noP_data : FormatData 2 [c!"T", c!"V"] [[300, 75]] noP :=
  ⟨[], c!"FORMAT", [], c!"T V", [], c!"DATA", _, rfl, by simp,
    ⟨c!"FORMAT", [], words_witness (by decide) (by decide), by decide⟩, by simp,
    words_witness (by decide) (by decide), ⟨_, _, rfl, by decide, by decide⟩, by simp,
    ⟨c!"DATA", [], words_witness (by decide) (by decide), by decide⟩,
    .row (numbers_of (by decide) (by decide +kernel)) (by simp) (by simp) .nil⟩

example := C50_pressure_violated noP_data (text := etext noP) ⟨by decide, .inl rfl⟩ (by decide) (by decide)
  ⟨.volume, by decide⟩ (d := .initial) rfl

/-- Blanks between JOB and the title. -/
example := C50_blank_violated (kj := c!"JOB") (b := c!"  ") (ls := c!"MgO" :: narrow)
  ⟨c!"JOB", [], words_witness (by decide) (by decide), by decide⟩ (by intro c hc; simp at hc; exact .inl hc) (by decide)
  (text := etext (c!"JOB" :: c!"  " :: c!"MgO" :: narrow)) ⟨by decide, .inl rfl⟩ (d := .initial) rfl

/-- The title Unknown. -/
example := C75_unknown_violated (kj := c!"JOB") (cj := [[]]) (ls := narrow)
  ⟨c!"JOB", [], words_witness (by decide) (by decide), by decide⟩ (by simp)
  (text := etext (c!"JOB" :: ([[]] ++ c!"Unknown" :: narrow))) ⟨by decide, .inl rfl⟩ (d := .initial) rfl

/-- It has the only form that makes the reader hang. -/
example := C75_only_partial (ls := c!"JOB" :: ([[]] ++ c!"Unknown" :: narrow))
  (text := etext (c!"JOB" :: ([[]] ++ c!"Unknown" :: narrow))) ⟨by decide, .inl rfl⟩ .initial
  (C75_unknown_violated (kj := c!"JOB") (cj := [[]]) (ls := narrow)
    ⟨c!"JOB", [], words_witness (by decide) (by decide), by decide⟩ (by simp) ⟨by decide, .inl rfl⟩ rfl).1

end Verif.IO.Cases
