/-
Property C138: the name of the job in the result files.  Model of the choice of the name
(/repo/quantas/harmonic/harmonic.py:311, /repo/quantas/qha/qha.py:1247) and theorems.
-/
import Verif.Export.Generic
import Verif.Report.HarmonicProps

namespace Verif.Report
open Verif.Py Verif.IO Verif.Phonon Verif.Phonon.Spec Verif.Export.Generic

/-! ### Model -/

/-- The attributes of an input reader, besides those of every Python object (core/reader.py:54-122, qha_reader.py:39-164). -/
def readerAttributes : List Str := [
  c!"completed", c!"error", c!"_data", c!"load", c!"_check", c!"data", c!"_get_float", c!"_get_int", c!"_get_string", c!"jobname",
  c!"natoms", c!"kpoints", c!"qpoints", c!"nvol", c!"volume", c!"energy", c!"frequencies", c!"weights", c!"total_q_points"]

/-- The name in a harmonic result file, `self.input.jobname` (harmonic.py:311). -/
def harmonicJob (r : Reader) : Except PyErr Str := r.jobname

/-- The name in a quasi-harmonic result file (qha.py:1247), `self.input.job if hasattr(self.input, 'job') else 'Unknown'`; the
attribute would be the name of the job. -/
def quasiHarmonicJob (r : Reader) : Except PyErr Str :=
  if c!"job" ∈ readerAttributes then r.jobname else .ok c!"Unknown"

/-! ### Theorems -/

theorem info_lines (job rest : Str) (hj : '\n' ∉ job) :
    (readlines (c!"\nThis file was created with Quantas.\n\nJob: " ++ job ++ '\n' :: rest))[3]? = some (c!"Job: " ++ job ++ ['\n']) := by
  have e : c!"\nThis file was created with Quantas.\n\nJob: " ++ job ++ '\n' :: rest =
      [] ++ '\n' :: (c!"This file was created with Quantas." ++ '\n' :: ([] ++ '\n' :: ((c!"Job: " ++ job) ++ '\n' :: rest))) := by
    simp
  have hn : '\n' ∉ c!"Job: " ++ job := by
    rw [List.mem_append, not_or]
    exact ⟨by decide, hj⟩
  rw [e, readlines_line (by simp), readlines_line (by decide), readlines_line (by simp), readlines_line hn]
  rfl

theorem info_prefix {job info : Str} (hj : '\n' ∉ job)
    (h : c!"\nThis file was created with Quantas.\n\nJob: " ++ job ++ ['\n'] <+: info) :
    (readlines info)[3]? = some (c!"Job: " ++ job ++ ['\n']) := by
  obtain ⟨rest, rfl⟩ := h
  rw [← info_lines job rest hj]
  congr 2
  rw [List.append_assoc _ ['\n'] rest]
  rfl

theorem prefix_start (a b c : Str) : a ++ b ++ ['\n'] <+: a ++ b ++ '\n' :: c :=
  (List.prefix_append_right_inj _).2 ⟨c, rfl⟩

/-- **C138.** The fourth line of the text kept in a harmonic result file names the job of the input. -/
theorem C138_harmonic_partial {r : Reader} {job : Str} (hr : r.jobname = .ok job) (hj : '\n' ∉ job)
    (energy volume frequency temperature : Str) :
    ∃ name, harmonicJob r = .ok name ∧
      (readlines (haInfo name energy volume frequency temperature))[3]? = some (c!"Job: " ++ job ++ ['\n']) := by
  refine ⟨job, hr, info_prefix hj ?_⟩
  unfold haInfo
  iterate 8 refine List.IsPrefix.trans ?_ (List.prefix_append _ _)
  exact prefix_start _ job _

/-- **C138, violated.** A quasi-harmonic result file names every job `Unknown`, whatever the input says: the reader has no attribute
called `job`. -/
theorem C138_quasi_harmonic_violated (r : Reader) (energy volume frequency temperature pressure : Str) (freqs poly : Bool) :
    ∃ name, quasiHarmonicJob r = .ok name ∧
      (readlines (qhaInfo name energy volume frequency temperature pressure freqs poly))[3]? = some c!"Job: Unknown\n" := by
  refine ⟨c!"Unknown", by rw [quasiHarmonicJob, if_neg (by decide)], ?_⟩
  refine (info_prefix (job := c!"Unknown") (by decide) ?_).trans rfl
  unfold qhaInfo
  iterate 14 refine List.IsPrefix.trans ?_ (List.prefix_append _ _)
  exact prefix_start _ c!"Unknown" _

/-- **C138, violated (elastic and seismic).** Elastic and seismic result files do not name the job: no line of their texts starts with
`Job`. -/
theorem C138_elastic_violated :
    (∀ l ∈ readlines (elasticInfo c!"GPa"), ¬ c!"Job" <+: l) ∧ ∀ l ∈ readlines (seismicInfo c!"GPa"), ¬ c!"Job" <+: l := by
  decide +kernel

/-! ### Non-vacuity -/

/-- An input whose job is `pyrope`. -/
def pyropeReader : Reader := { completed := true, data := .map [(c!"job", .str c!"pyrope  ")] }

example : pyropeReader.jobname = .ok c!"pyrope" := by decide +kernel

/-- The harmonic file says `pyrope`, the quasi-harmonic one `Unknown`. -/
example : harmonicJob pyropeReader = .ok c!"pyrope" ∧ quasiHarmonicJob pyropeReader = .ok c!"Unknown" := by
  constructor
  · decide +kernel
  · rfl

example (e v f t : Str) : ∃ name, harmonicJob pyropeReader = .ok name ∧
    (readlines (haInfo name e v f t))[3]? = some c!"Job: pyrope\n" :=
  C138_harmonic_partial (job := c!"pyrope") (by decide +kernel) (by decide) e v f t

/-- The texts searched by the theorem about elastic and seismic files are not empty. -/
example : (readlines (elasticInfo c!"GPa")).length = 8 ∧ (readlines (seismicInfo c!"GPa")).length = 25 := by decide +kernel

end Verif.Report
