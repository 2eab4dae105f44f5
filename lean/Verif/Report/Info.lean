/-
Property C143: the description kept in the result files of harmonic and quasi-harmonic runs.
-/
import Verif.Report.Job

namespace Verif.Report
open Verif.Py Verif.IO Verif.Export.Generic

/-! ### Specification -/

namespace Spec

/-- The text has exactly one line that starts with the heading, and what follows the heading is the value. -/
def TheLine (text heading value : Str) : Prop :=
  heading ++ value ++ ['\n'] ∈ readlines text ∧ ∀ l ∈ readlines text, heading <+: l → l = heading ++ value ++ ['\n']

end Spec
open Spec

/-! ### Theorems -/

theorem no_newline {a b : Str} (ha : '\n' ∉ a) (hb : '\n' ∉ b) : '\n' ∉ a ++ b := by
  rw [List.mem_append, not_or]; exact ⟨ha, hb⟩

set_option maxRecDepth 20000 in
/-- The lines of a harmonic description. -/
theorem haInfo_lines {job energy volume frequency temperature : Str}
    (h1 : '\n' ∉ job) (h2 : '\n' ∉ energy) (h3 : '\n' ∉ volume) (h4 : '\n' ∉ frequency) (h5 : '\n' ∉ temperature) :
    readlines (haInfo job energy volume frequency temperature) =
      [c!"\n", c!"This file was created with Quantas.\n", c!"\n", c!"Job: " ++ job ++ ['\n'], c!"\n",
        c!"It contains the results of the harmonic approximation (HA) calculations\n",
        c!"performed with the following settings:\n", c!"  - energy scale: " ++ energy ++ ['\n'],
        c!"  - volume scale: " ++ volume ++ ['\n'], c!"  - frequency scale: " ++ frequency ++ ['\n'],
        c!"  - temperature scale: " ++ temperature ++ ['\n'], c!"\n",
        c!"Thermodynamics properties were calculated as a function of volume and\n", c!"temperature.\n"] := by
  have e : haInfo job energy volume frequency temperature =
      [] ++ '\n' :: (c!"This file was created with Quantas." ++ '\n' :: ([] ++ '\n' :: ((c!"Job: " ++ job) ++ '\n' :: ([] ++ '\n' ::
        (c!"It contains the results of the harmonic approximation (HA) calculations" ++ '\n' ::
        (c!"performed with the following settings:" ++ '\n' :: ((c!"  - energy scale: " ++ energy) ++ '\n' ::
        ((c!"  - volume scale: " ++ volume) ++ '\n' :: ((c!"  - frequency scale: " ++ frequency) ++ '\n' ::
        ((c!"  - temperature scale: " ++ temperature) ++ '\n' :: ([] ++ '\n' ::
        (c!"Thermodynamics properties were calculated as a function of volume and" ++ '\n' ::
        (c!"temperature." ++ '\n' :: []))))))))))))) := by
    simp only [haInfo, List.append_assoc]
    rfl
  rw [e, readlines_line (by simp), readlines_line (by decide), readlines_line (by simp),
    readlines_line (no_newline (by decide) h1), readlines_line (by simp), readlines_line (by decide), readlines_line (by decide),
    readlines_line (no_newline (by decide) h2), readlines_line (no_newline (by decide) h3),
    readlines_line (no_newline (by decide) h4), readlines_line (no_newline (by decide) h5), readlines_line (by simp),
    readlines_line (by decide), readlines_line (by decide)]
  rfl

/-- How the description names the two interpolation schemes. -/
def Spec.scheme (freqs : Bool) : Str := if freqs then c!"frequency interpolation" else c!"thermodynamic interpolation"

/-- How the description names the two ways to minimize. -/
def Spec.minimization (poly : Bool) : Str := if poly then c!"polynomial fitting" else c!"EoS fitting"

set_option maxRecDepth 20000 in
/-- The lines of a quasi-harmonic description. -/
theorem qhaInfo_lines {job energy volume frequency temperature pressure : Str}
    (h1 : '\n' ∉ job) (h2 : '\n' ∉ energy) (h3 : '\n' ∉ volume) (h4 : '\n' ∉ frequency) (h5 : '\n' ∉ temperature)
    (h6 : '\n' ∉ pressure) (freqs poly : Bool) :
    readlines (qhaInfo job energy volume frequency temperature pressure freqs poly) =
      [c!"\n", c!"This file was created with Quantas.\n", c!"\n", c!"Job: " ++ job ++ ['\n'], c!"\n",
        c!"It contains the results of the quasi-harmonic approximation (QHA)\n",
        c!"calculations performed with the following settings:\n", c!"  - energy scale:      " ++ energy ++ ['\n'],
        c!"  - volume scale:      " ++ volume ++ ['\n'], c!"  - frequency scale:   " ++ frequency ++ ['\n'],
        c!"  - temperature scale: " ++ temperature ++ ['\n'], c!"  - pressure scale:    " ++ pressure ++ ['\n'],
        c!"  - calculation of thermodynamics: " ++ scheme freqs ++ ['\n'],
        c!"  - volume minimizazion:           " ++ minimization poly ++ ['\n'], c!"\n",
        c!"Thermodynamics and mechanical properties were calculated as a function of\n", c!"pressure and temperature.\n"] := by
  have e : qhaInfo job energy volume frequency temperature pressure freqs poly =
      [] ++ '\n' :: (c!"This file was created with Quantas." ++ '\n' :: ([] ++ '\n' :: ((c!"Job: " ++ job) ++ '\n' :: ([] ++ '\n' ::
        (c!"It contains the results of the quasi-harmonic approximation (QHA)" ++ '\n' ::
        (c!"calculations performed with the following settings:" ++ '\n' :: ((c!"  - energy scale:      " ++ energy) ++ '\n' ::
        ((c!"  - volume scale:      " ++ volume) ++ '\n' :: ((c!"  - frequency scale:   " ++ frequency) ++ '\n' ::
        ((c!"  - temperature scale: " ++ temperature) ++ '\n' :: ((c!"  - pressure scale:    " ++ pressure) ++ '\n' ::
        ((c!"  - calculation of thermodynamics: " ++ scheme freqs) ++ '\n' ::
        ((c!"  - volume minimizazion:           " ++ minimization poly) ++ '\n' :: ([] ++ '\n' ::
        (c!"Thermodynamics and mechanical properties were calculated as a function of" ++ '\n' ::
        (c!"pressure and temperature." ++ '\n' :: [])))))))))))))))) := by
    cases freqs <;> cases poly <;> simp only [qhaInfo, List.append_assoc] <;> rfl
  have s1 : '\n' ∉ scheme freqs := by cases freqs <;> decide
  have s2 : '\n' ∉ minimization poly := by cases poly <;> decide
  rw [e, readlines_line (by simp), readlines_line (by decide), readlines_line (by simp),
    readlines_line (no_newline (by decide) h1), readlines_line (by simp), readlines_line (by decide), readlines_line (by decide),
    readlines_line (no_newline (by decide) h2), readlines_line (no_newline (by decide) h3),
    readlines_line (no_newline (by decide) h4), readlines_line (no_newline (by decide) h5),
    readlines_line (no_newline (by decide) h6), readlines_line (no_newline (by decide) s1),
    readlines_line (no_newline (by decide) s2), readlines_line (by simp), readlines_line (by decide), readlines_line (by decide)]
  rfl

theorem take_of_prefix {h l : Str} (hp : h <+: l) (hl : 12 ≤ h.length) : l.take 12 = h.take 12 := by
  obtain ⟨r, rfl⟩ := hp
  rw [List.take_append_of_le_length hl]

/-- **C143, harmonic files.** Every scale stands on a line of its own, after its heading. -/
theorem C143_harmonic {job energy volume frequency temperature : Str}
    (h1 : '\n' ∉ job) (h2 : '\n' ∉ energy) (h3 : '\n' ∉ volume) (h4 : '\n' ∉ frequency) (h5 : '\n' ∉ temperature) :
    let info := haInfo job energy volume frequency temperature
    TheLine info c!"  - energy scale: " energy ∧ TheLine info c!"  - volume scale: " volume ∧
    TheLine info c!"  - frequency scale: " frequency ∧ TheLine info c!"  - temperature scale: " temperature := by
  intro info
  have e := haInfo_lines h1 h2 h3 h4 h5
  unfold TheLine
  rw [e]
  refine ⟨⟨by simp, ?_⟩, ⟨by simp, ?_⟩, ⟨by simp, ?_⟩, ⟨by simp, ?_⟩⟩
  all_goals
    intro l hl hp
    have ht := take_of_prefix hp (by decide)
    simp only [List.mem_cons, List.not_mem_nil, or_false] at hl
    rcases hl with rfl | rfl | rfl | rfl | rfl | rfl | rfl | rfl | rfl | rfl | rfl | rfl | rfl | rfl
  all_goals first
    | rfl
    | (exfalso; revert ht; decide)
    | (exfalso; have := congrArg (fun l => l.take 5) ht; revert this; simp; done)

/-- **C143, quasi-harmonic files.** Every scale, the interpolation scheme and the way to minimize stand on lines of their own, after
their headings. -/
theorem C143_quasi_harmonic {job energy volume frequency temperature pressure : Str}
    (h1 : '\n' ∉ job) (h2 : '\n' ∉ energy) (h3 : '\n' ∉ volume) (h4 : '\n' ∉ frequency) (h5 : '\n' ∉ temperature)
    (h6 : '\n' ∉ pressure) (freqs poly : Bool) :
    let info := qhaInfo job energy volume frequency temperature pressure freqs poly
    (TheLine info c!"  - energy scale:      " energy ∧ TheLine info c!"  - volume scale:      " volume ∧
    TheLine info c!"  - frequency scale:   " frequency ∧ TheLine info c!"  - temperature scale: " temperature ∧
    TheLine info c!"  - pressure scale:    " pressure) ∧
    TheLine info c!"  - calculation of thermodynamics: "
      (if freqs then c!"frequency interpolation" else c!"thermodynamic interpolation") ∧
    TheLine info c!"  - volume minimizazion:           " (if poly then c!"polynomial fitting" else c!"EoS fitting") := by
  intro info
  have e := qhaInfo_lines h1 h2 h3 h4 h5 h6 freqs poly
  unfold TheLine
  rw [e]
  refine ⟨⟨⟨by simp, ?_⟩, ⟨by simp, ?_⟩, ⟨by simp, ?_⟩, ⟨by simp, ?_⟩, ⟨by simp, ?_⟩⟩, ⟨by simp [scheme], ?_⟩,
    ⟨by simp [minimization], ?_⟩⟩
  all_goals
    intro l hl hp
    have ht := take_of_prefix hp (by decide)
    simp only [List.mem_cons, List.not_mem_nil, or_false] at hl
    rcases hl with rfl | rfl | rfl | rfl | rfl | rfl | rfl | rfl | rfl | rfl | rfl | rfl | rfl | rfl | rfl | rfl | rfl
  all_goals first
    | rfl
    | (exfalso; revert ht; decide)
    | (exfalso; have := congrArg (fun l => l.take 5) ht; revert this; simp; done)
    | (exfalso; revert ht; simp; done)

/-- **C143, different settings.** Files of runs with different settings have different descriptions. -/
theorem C143_distinct {job energy volume frequency temperature pressure job' energy' volume' frequency' temperature' pressure' : Str}
    (h : '\n' ∉ job ∧ '\n' ∉ energy ∧ '\n' ∉ volume ∧ '\n' ∉ frequency ∧ '\n' ∉ temperature ∧ '\n' ∉ pressure)
    (h' : '\n' ∉ job' ∧ '\n' ∉ energy' ∧ '\n' ∉ volume' ∧ '\n' ∉ frequency' ∧ '\n' ∉ temperature' ∧ '\n' ∉ pressure')
    (freqs poly freqs' poly' : Bool) :
    (haInfo job energy volume frequency temperature = haInfo job' energy' volume' frequency' temperature' →
      (job, energy, volume, frequency, temperature) = (job', energy', volume', frequency', temperature')) ∧
    (qhaInfo job energy volume frequency temperature pressure freqs poly =
        qhaInfo job' energy' volume' frequency' temperature' pressure' freqs' poly' →
      (job, energy, volume, frequency, temperature, pressure, freqs, poly) =
        (job', energy', volume', frequency', temperature', pressure', freqs', poly')) := by
  obtain ⟨a1, a2, a3, a4, a5, a6⟩ := h
  obtain ⟨b1, b2, b3, b4, b5, b6⟩ := h'
  have s : ∀ x y, scheme x = scheme y → x = y := by decide
  have m : ∀ x y, minimization x = minimization y → x = y := by decide
  constructor
  · intro e
    have := congrArg readlines e
    rw [haInfo_lines a1 a2 a3 a4 a5, haInfo_lines b1 b2 b3 b4 b5] at this
    simp only [List.cons.injEq, List.append_cancel_left_eq, List.append_cancel_right_eq, and_true, true_and] at this
    obtain ⟨k1, k2, k3, k4, k5⟩ := this
    rw [k1, k2, k3, k4, k5]
  · intro e
    have := congrArg readlines e
    rw [qhaInfo_lines a1 a2 a3 a4 a5 a6, qhaInfo_lines b1 b2 b3 b4 b5 b6] at this
    simp only [List.cons.injEq, List.append_cancel_left_eq, List.append_cancel_right_eq, and_true, true_and] at this
    obtain ⟨k1, k2, k3, k4, k5, k6, k7, k8⟩ := this
    rw [k1, k2, k3, k4, k5, k6, s _ _ k7, m _ _ k8]

/-! ### Non-vacuity -/

example := C143_harmonic (job := c!"MgO") (energy := c!"Ha") (volume := c!"A") (frequency := c!"cm^-1") (temperature := c!"K")
  (by decide) (by decide) (by decide) (by decide) (by decide)

example := C143_quasi_harmonic (job := c!"Unknown") (energy := c!"Ha") (volume := c!"A") (frequency := c!"cm^-1")
  (temperature := c!"K") (pressure := c!"GPa") (by decide) (by decide) (by decide) (by decide) (by decide) (by decide) true false

/-- The two interpolation schemes can be told apart. -/
example : qhaInfo c!"Unknown" c!"Ha" c!"A" c!"cm^-1" c!"K" c!"GPa" true true ≠
    qhaInfo c!"Unknown" c!"Ha" c!"A" c!"cm^-1" c!"K" c!"GPa" false true := fun e => by
  have := (C143_distinct (by decide) (by decide) true true false true).2 e
  simp at this

end Verif.Report
