/-
The theorems about the readers of CRYSTAL and VASP outputs applied to the outputs of the witness files.
-/
import Verif.Interfaces.CrystalWitness
import Verif.Interfaces.CrystalQHAWitness
import Verif.Interfaces.SoecWitness

namespace Verif.Interfaces.Cases
open Verif.Py Verif.IO Verif.IO.Spec Verif.Interfaces Verif.Interfaces.Spec

/-- The text of some lines. -/
abbrev join (ls : List Str) : Str := (ls.map (· ++ ['\n'])).flatten

/-! ### Phonons -/

example := C59_never_returns_partial (isText_join (mgoHead ++ shortTable) (by decide +kernel)) (plain_of (by decide +kernel))
  (mgo_cell shortTable (by decide +kernel))
example := C77_not_output (isText_join [c!"not an output"] (by decide)) (not_contains_of (by decide))
example : ∃ r, loadPhonon 40 (join (mgoHead ++ mgoTable)) = some (.ok r) ∧ r.completed = true ∧ r.phonons ≠ [] := by
  have hM : mgoLattice ≠ 0 := fun h => by
    have := congrFun (congrFun h 0) 1
    norm_num [mgoLattice] at this
  obtain ⟨r, h1, h2, -⟩ :=
    C77_gamma mgo_text (mgo_cell mgoTable (by decide +kernel)) (by norm_num) hM (mgo_title _) mgo_modes rfl
  have h := h1 40 (by decide)
  rcases C77_completed h with h3 | h3
  · exact ⟨r, h, h2, h3.2.2.2.2⟩
  · rw [h2] at h3
    exact absurd h3.1 (by decide)

/-! ### Quasi-harmonic outputs -/

theorem fileB_text : IsText fileB (join fileB) := isText_join _ (by decide +kernel)

example := C80_same_partial fileB_text .initial (qhaLoad (join fileA) .initial).1 (.inl (contains_of (by decide +kernel)))
example := C81_not_output (isText_join mgoHead (by decide +kernel)) (not_contains_of (by decide +kernel)) .initial
example := C81_no_table_violated (isText_join [c!" QUASI-HARMONIC APPROXIMATION"] (by decide +kernel))
  (contains_of (by decide +kernel)) (not_contains_of (by decide +kernel)) .initial
example (d' : QhaData) (h : qhaLoad (join fileA) .initial = (d', .ok none)) := C81_completed (isText_join fileA (by decide +kernel)) h

/-! ### Elastic constants -/

theorem outcar_text : IsText exampleOutcar (join exampleOutcar) := isText_join _ (by decide +kernel)
theorem crystal_text : IsText exampleCrystal (join exampleCrystal) := isText_join _ (by decide +kernel)

example (S : Mat) := C56_components_partial outcar_text (.inl exampleOutcar_total) S (p := .xx) (q := .xy) (by decide) (by decide)
example (S : Mat) := C57_rows_partial outcar_text (.inl exampleOutcar_total) S
example (S : Mat) := C57_rows_partial (isText_join exampleClamped (by decide +kernel)) (.inr exampleClamped_clamped) S
example (S : Mat) := C57_refused (isText_join [c!" vasp", c!""] (by decide)) (by simp only [clamped_iff]; decide) S
example := C58_symmetric_partial crystal_text exampleCrystal_output exampleCrystal_density
example := C58_history_violated (files := [(join exampleCrystal, exampleCrystal, exampleCubic, 3513)])
  (by simpa using ⟨crystal_text, exampleCrystal_output, exampleCrystal_density⟩) crystal_text exampleCrystal_output
  exampleCrystal_density (i := 0) (j := 1) (by decide)
example (d : CrystalData) := C76_density crystal_text exampleCrystal_output exampleCrystal_density d
example (d : CrystalData) := C76_refused (isText_join [c!" FINAL RESULTS START"] (by decide)) d
  (.inl (by simp only [← hasSub_iff]; decide))

end Verif.Interfaces.Cases
