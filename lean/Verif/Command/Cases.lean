/-
The theorems about the command line applied to the runs of `Witness`.
-/
import Verif.Command.Witness
import Verif.Command.GroupProps
import Verif.Command.Plots
import Verif.Command.Props

namespace Verif.Command.Cases
open Verif.Py Verif.Command Spec

def o : Options := { filename := c!"runs/mgo.yaml" }

theorem none_named : ∀ x ∈ (o.outfile), HasName x := by simp [o]

theorem out_named : HasName c!"out" := ⟨[], c!"out", ⟨rfl, by decide, .inl rfl⟩, 'o', by decide, by decide⟩

/-! ### Names and files -/

example := C66_files (b := false) (t := sampleTexts) (prog := sampleProg) (o := o) (ow := false) (w := sampleWorld)
  (suffix := c!"_HA") (by decide) sample_base none_named rfl
example := C66_saved (b := false) (t := sampleTexts) (prog := sampleProg) (o := o) (ow := false) (w := sampleWorld)
  (suffix := c!"_HA") (by decide) sample_base none_named (by decide) rfl rfl rfl
example := C66_default_names c!"_QHA" c!"runs.old/" c!"mgo.b3lyp" c!"yaml" (by decide) (.inr ⟨c!"runs.old", rfl⟩)
  ⟨by decide, 'm', by decide, by decide⟩ (by decide) (by decide)
example := C66_directory_violated c!"_QHA" c!"mgo.yaml" c!"results/" [] (by simp) (.inr ⟨c!"results", rfl⟩)
example := C66_azimuths_partial (some 90) (some 100) (by decide)
example := C66_azimuths_violated 90 (by decide)
example := C66_seismic_files (t := sampleTexts) (prog := sampleProg) (o := o) (s := { plotting := true }) (mpl := true)
  (plotly := true) (ow := false) (p := {}) (w := sampleWorld) false sample_base none_named rfl
example := C91_results_partial (b := true) (t := sampleTexts) (prog := sampleProg) (o := o) (ow := false) (w := sampleWorld)
  (suffix := c!"_QHA") (by decide) sample_base none_named (old := c!"old results") rfl rfl

/-! ### Inputs -/

example := C89_default_partial (b := true) (t := sampleTexts) (prog := sampleProg) (o := o) (ow := true) (w := sampleWorld)
  (suffix := c!"_QHA") (by decide) sample_base rfl rfl

example := C89_given_partial (b := true) (t := sampleTexts) (prog := sampleProg) (o := { o with outfile := some c!"out" }) (ow := true)
  (w := sampleWorld) (suffix := c!"_QHA") (by decide) sample_base rfl out_named (by decide) (by decide) rfl
example := C66_given_names c!"_QHA" c!"runs/mgo.yaml" c!"out" out_named
example := C89_eosfit_partial (t := sampleTexts) (prog := sampleProg) (filename := c!"runs/mgo.yaml") (w := sampleWorld) sample_base
  (by decide) rfl
example := C89_eosfit_violated (t := sampleTexts) (prog := sampleProg) (stem := c!"out")
  (w := ⟨[], fun p => if p = c!"out.log" then some c!"data" else none⟩) out_named rfl

/-! ### Messages -/

example := C90_quiet_screen_violated (b := true) (t := sampleTexts) (prog := sampleProg) (o := { o with silent := true }) (ow := false)
  (w := sampleWorld) (suffix := c!"_QHA") (content := c!"input") (by decide) sample_base none_named (by decide) rfl rfl rfl

theorem discreet_one (t : Str) : Discreet [(.normal, t)] := by
  intro m hm
  simp only [List.mem_singleton] at hm
  simp [hm]

example := C90_quiet_screen_partial (suffix := c!"_HA") (b := false) (t := sampleTexts) (prog := sampleDiscreet)
  (o := { o with silent := true }) (ow := false) (w := sampleWorld) rfl
  (by intro m hm; simp only [sampleDiscreet, sampleProg, List.mem_singleton] at hm; simp [hm]) (fun _ => discreet_one _)
  (fun _ => discreet_one _) (fun _ => by intro m hm; simp [sampleDiscreet] at hm)
  (fun _ => by intro m hm; simp [sampleDiscreet] at hm) (fun _ => discreet_one _) rfl

/-! ### Figures -/

example := C67_command_violated (t := sampleTexts) (prog := sampleProg) (o := o) (s := { plotting := false }) (mpl := true)
  (plotly := true) (ow := true) (p := { plotting := true }) (w := sampleWorld) rfl rfl rfl
example := C92_command_partial (t := sampleTexts) (prog := sampleProg) (o := o) (s := { plotting := true }) (mpl := true)
  (plotly := false) (ow := true) (p := {}) (w := sampleWorld) sample_base none_named (by decide) (content := c!"input") rfl rfl (.inl rfl)
example := C92_command_violated (t := sampleTexts) (prog := sampleProg) (o := o) (s := { plotting := false }) (mpl := true)
  (plotly := false) (ow := false) (p := {}) (w := sampleWorld) sample_base none_named (by decide) (content := c!"input") rfl
example := C92_seismic_partial ⟨true, true, 80, true, true, c!"stereo"⟩ c!"mgo" rfl (.inr rfl)
example := C92_no_2D_violated ⟨true, true, 80, false, true, c!"stereo"⟩ c!"mgo" rfl
example := C92_plotly_only_violated ⟨false, true, 80, true, true, c!"stereo"⟩ c!"mgo" rfl
example := C67_seismic_violated true true [] [{ plotting := true }] { plotting := false } { plotting := true } rfl (by simp) rfl (.inl rfl)
example := C67_elastic [(true, c!"a", 80), (false, c!"b", 100)] 1 (by decide)

/-! ### Groups -/

example := C93_commands_partial [c!"ha"] (by decide)
example := C93_seismic_violated [c!"seismic"] (by decide)
example := C115_exact (fun _ _ => 0) (table := cli) (by decide) (name := c!"ha") (c := .haCalculation) (by decide)
example := C115_unknown (fun a b => if a.length = b.length then 1 else 0) (table := cli) (by decide) (name := c!"sec") (by decide)

end Verif.Command.Cases
