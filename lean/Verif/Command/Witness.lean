/-
Runs that meet the hypotheses of the theorems about the commands.
-/
import Verif.Command.Plots

namespace Verif.Command
open Verif.Py Verif.Export Spec

/-- A calculator that speaks in all ways and refuses an empty input. -/
def sampleProg : Calculator where
  created := [(.debug, c!"created")]
  read c := ([(.normal, c!"reading")], if c = [] then some c!"empty" else none)
  report _ := [(.normal, c!"input")]
  run c := ([(.override, c!"calculating"), (.bar, c!"####")], if c = c!"bad" then .error c!"failed" else .ok (c!"results of " ++ c))
  results _ := [(.warning, c!"careful")]
  exported _ := [(.normal, c!"exported")]

/-- A calculator that only speaks with `echo`. -/
def sampleDiscreet : Calculator :=
  { sampleProg with run := fun c => ([], .ok c), results := fun _ => [] }

def sampleTexts : Texts := ⟨c!"Quantas", c!"Error", fun f => f ++ c!" is not a file", c!"settings", [c!"bye"]⟩

/-- Two inputs, and results of an earlier run on the first. -/
def sampleWorld : World where
  screen := []
  disk p := if p = c!"runs/mgo.yaml" then some c!"input" else if p = c!"other.txt" then some c!"bad" else
    if p = c!"runs/mgo_QHA.hdf5" then some c!"old results" else
    if p = c!"runs/mgo_QHA.txt" then some c!"old log" else none

/-- `runs/mgo` is the base name. -/
theorem sample_base : Base c!"runs/mgo.yaml" c!"runs/mgo" :=
  .extension c!"runs/mgo" c!"yaml" ⟨c!"runs/", c!"mgo", ⟨rfl, by decide, .inr ⟨c!"runs", rfl⟩⟩, 'm', by decide, by decide⟩
    (by decide) (by decide)

/-- The harmonic command saves, the quasi-harmonic one asks; a failed run is neither. -/
example : (command c!"_HA" false sampleTexts sampleProg { filename := c!"runs/mgo.yaml" } false sampleWorld).2 = .saved := rfl
example : (command c!"_QHA" true sampleTexts sampleProg { filename := c!"runs/mgo.yaml" } true sampleWorld).2 = .saved := rfl
example : (command c!"_QHA" true sampleTexts sampleProg { filename := c!"runs/mgo.yaml" } false sampleWorld).2 = .declined := rfl
example : (command c!"_HA" true sampleTexts sampleProg { filename := c!"other.txt" } false sampleWorld).2 = .failed c!"failed" := rfl

/-- C91: what is left of the earlier run after declining. -/
example : let w := (command c!"_QHA" true sampleTexts sampleProg { filename := c!"runs/mgo.yaml" } false sampleWorld).1
    w.disk c!"runs/mgo_QHA.hdf5" = some c!"old results" ∧ w.disk c!"runs/mgo_QHA.txt" ≠ some c!"old log" := by
  refine ⟨rfl, ?_⟩
  obtain ⟨rest, h⟩ := C91_log_violated (o := { filename := c!"runs/mgo.yaml" }) (suffix := c!"_QHA") (stem := c!"runs/mgo")
    (b := true) (t := sampleTexts) (prog := sampleProg) (ow := false) (w := sampleWorld) (by decide) sample_base (by simp) rfl
  intro hx
  have := h.symm.trans hx
  simp at this

/-- C89: the input `other.txt` with the option `-o other` is gone. -/
example : ∃ rest, (command c!"_HA" false sampleTexts sampleProg { filename := c!"other.txt", outfile := some c!"other" } false
    sampleWorld).1.disk c!"other.txt" = some (c!"\nQuantas\n" ++ rest) :=
  C89_given_violated (o := { filename := c!"other.txt", outfile := some c!"other" }) (suffix := c!"_HA") (b := false)
    (t := sampleTexts) (prog := sampleProg) (ow := false) (w := sampleWorld) (by decide)
    ⟨[], c!"other", ⟨rfl, by decide, .inl rfl⟩, 'o', by decide, by decide⟩ rfl rfl rfl

/-- C90: a quiet run of the one calculator is not quiet, of the other it is. -/
example : (command c!"_HA" false sampleTexts sampleProg { filename := c!"runs/mgo.yaml", silent := true } false sampleWorld).1.screen =
    [c!"calculating", c!"####"] := rfl
example : (command c!"_HA" false sampleTexts sampleDiscreet { filename := c!"runs/mgo.yaml", silent := true } false
    sampleWorld).1.screen = [] := rfl
example : Discreet sampleDiscreet.created ∧ ∀ c, Discreet (sampleDiscreet.read c).1 := by
  constructor
  · intro m hm
    simp only [sampleDiscreet, sampleProg, List.mem_singleton] at hm
    simp [hm]
  · intro c m hm
    simp only [sampleDiscreet, sampleProg, List.mem_singleton] at hm
    simp [hm]

/-- C92 and C67: the seismic command. -/
example : (calculate c!"_SEISMIC" false sampleTexts sampleProg { filename := c!"runs/mgo.yaml" } false sampleWorld).2 = .saved := rfl
example : (seismic sampleTexts sampleProg { filename := c!"runs/mgo.yaml" } { plotting := true } false true true false {} sampleWorld).2.2 =
    .figures ⟨true, true, 80, true, true, c!"eqar"⟩ c!"runs/mgo_SEISMIC.hdf5" := rfl
example : (calculate c!"_SEISMIC" false sampleTexts sampleProg { filename := c!"runs/mgo.yaml", outfile := some c!"runs/mgo_QHA" }
    false sampleWorld).2 = .declined := rfl

end Verif.Command
