/-
C86 and C87 for the exporters of elastic and seismic results, and the export of sections nobody calculated.
-/
import Verif.Export.SeismicProps
import Verif.Polar.Units

noncomputable section

namespace Verif.Export
open Verif.Py Verif.IO Verif.IO.Spec Verif.Interfaces Verif.Phonon Spec

theorem outfile_kept {e : Exporter} {disk : Disk} {a : Answer} {file text : Str} (hf : disk file = some text)
    (h1 : a.overwrite = true → e.basename ++ '_' :: a.selection ++ c!".dat" ≠ file)
    (h2 : a.overwrite = false → a.name ≠ file) : file ≠ outfileOf e disk a := by
  unfold outfileOf
  simp only
  split
  · split
    · exact (h1 ‹_›).symm
    · rename_i ho
      exact (h2 (by simpa using ho)).symm
  · rename_i hd
    intro hh
    rw [← hh, hf] at hd
    exact hd rfl

theorem outfile_named {e : Exporter} {a : Answer} {file : Str} (disk : Disk)
    (h1 : e.basename ++ '_' :: a.selection ++ c!".dat" ≠ file) (h2 : a.name ≠ file) : file ≠ outfileOf e disk a := by
  unfold outfileOf
  simp only
  split
  · split
    · exact h1.symm
    · exact h2.symm
  · exact h1.symm

/-- One round of the dialogue of the elastic exporter: the disk is as before but for one file. -/
theorem runElastic_keeps (d : Data) (e : Exporter) (P : Disk → Prop) (answers : List Answer)
    (hP : ∀ a ∈ answers, ∀ disk text, P disk → P (Function.update disk (outfileOf e disk a) (some text)))
    (l : Option Locals) (disk : Disk) (h : P disk) : P (runElastic d e l answers disk).1 := by
  induction answers generalizing l disk with
  | nil => exact h
  | cons a rest ih =>
    have hr : ∀ b ∈ rest, ∀ disk text, P disk → P (Function.update disk (outfileOf e disk b) (some text)) :=
      fun b hb => hP b (List.mem_cons_of_mem _ hb)
    have ha := hP a (by simp) disk
    rw [runElastic]
    split
    · split
      · exact h
      · exact h
      · simp only
        split
        · exact ha _ h
        · split
          · exact ih hr _ _ (ha _ h)
          · exact ha _ h
    · exact ih hr _ _ h

theorem runSeismic_keeps (d : WaveData) (e : Exporter) (P : Disk → Prop) (answers : List Answer)
    (hP : ∀ a ∈ answers, ∀ disk text, P disk → P (Function.update disk (outfileOf e disk a) (some text)))
    (l : Option Values) (disk : Disk) (h : P disk) : P (runSeismic d e l answers disk).1 := by
  induction answers generalizing l disk with
  | nil => exact h
  | cons a rest ih =>
    have hr : ∀ b ∈ rest, ∀ disk text, P disk → P (Function.update disk (outfileOf e disk b) (some text)) :=
      fun b hb => hP b (List.mem_cons_of_mem _ hb)
    have ha := hP a (by simp) disk
    rw [runSeismic]
    split
    · split
      · exact h
      · simp only
        split
        · exact h
        · split
          · exact ha _ h
          · split
            · exact ih hr _ _ (ha _ h)
            · exact ha _ h
    · exact ih hr _ _ h

/-- C86, in part, for elastic results: an existing file is left as it is by every dialogue in which the user never
agrees to overwrite it and never types its name. -/
theorem C86_elastic_partial (d : Data) (e : Exporter) (answers : List Answer) (disk : Disk) {file text : Str}
    (hf : disk file = some text)
    (h : ∀ a ∈ answers, (a.overwrite = true → e.basename ++ '_' :: a.selection ++ c!".dat" ≠ file) ∧
      (a.overwrite = false → a.name ≠ file)) :
    (runElastic d e none answers disk).1 file = some text :=
  runElastic_keeps d e (fun disk => disk file = some text) answers (fun a ha disk t hd => by
    simp only [Function.update_of_ne (outfile_kept hd (h a ha).1 (h a ha).2), hd]) none disk hf

/-- C86, in part, for seismic results. -/
theorem C86_seismic_partial (d : WaveData) (e : Exporter) (answers : List Answer) (disk : Disk) {file text : Str}
    (hf : disk file = some text)
    (h : ∀ a ∈ answers, (a.overwrite = true → e.basename ++ '_' :: a.selection ++ c!".dat" ≠ file) ∧
      (a.overwrite = false → a.name ≠ file)) :
    (runSeismic d e none answers disk).1 file = some text :=
  runSeismic_keeps d e (fun disk => disk file = some text) answers (fun a ha disk t hd => by
    simp only [Function.update_of_ne (outfile_kept hd (h a ha).1 (h a ha).2), hd]) none disk hf

/-- C86 for elastic results: a dialogue writes no files but those named after the selections and those typed by
the user. -/
theorem C86_elastic_names (d : Data) (e : Exporter) (answers : List Answer) (disk : Disk) {file : Str}
    (h : ∀ a ∈ answers, e.basename ++ '_' :: a.selection ++ c!".dat" ≠ file ∧ a.name ≠ file) :
    (runElastic d e none answers disk).1 file = disk file :=
  runElastic_keeps d e (fun disk' => disk' file = disk file) answers (fun a ha disk' t hd => by
    simp only [Function.update_of_ne (outfile_named disk' (h a ha).1 (h a ha).2), hd]) none disk rfl

/-- C86 for seismic results. -/
theorem C86_seismic_names (d : WaveData) (e : Exporter) (answers : List Answer) (disk : Disk) {file : Str}
    (h : ∀ a ∈ answers, e.basename ++ '_' :: a.selection ++ c!".dat" ≠ file ∧ a.name ≠ file) :
    (runSeismic d e none answers disk).1 file = disk file :=
  runSeismic_keeps d e (fun disk' => disk' file = disk file) answers (fun a ha disk' t hd => by
    simp only [Function.update_of_ne (outfile_named disk' (h a ha).1 (h a ha).2), hd]) none disk rfl

/-- C86, violated, for elastic and seismic results: a name typed instead of an existing file is overwritten without a
question. -/
theorem C86_typed_more_violated {e : Exporter} {a : Answer} {disk : Disk}
    (hd : (disk (e.basename ++ '_' :: a.selection ++ c!".dat")).isSome) (ha : a.overwrite = false) (hm : a.more = false) :
    (∀ d text, WroteElastic d e a disk text → (runElastic d e none [a] disk).1 a.name = some text) ∧
    (∀ d text, WroteWaves d e a disk text → (runSeismic d e none [a] disk).1 a.name = some text) := by
  have ho : outfileOf e disk a = a.name := by simp only [outfileOf, hd, ha, if_true]; rfl
  constructor
  all_goals
    intro d text h
    obtain ⟨l', h⟩ := h none []
    rw [h, hm, ho]
    simp

/-- C87, violated, for elastic results: after a second file is loaded by another exporter, what the first exporter
writes under the name of its own file is the table of the second. -/
theorem C87_elastic_violated (history : List (Str × H5)) (hh : ∀ p ∈ history, Foreign p.2 ∨ SavedElastic p.2)
    (punit1 punit2 : Str) (r1 r2 : Polar.Results ℚ) (waves1 waves2 : Bool) (tab1 tab2 : Polar.Plane → Polar.Var → List (List ℚ))
    (h1 : r1.polar = Polar.sectionsOf waves1 tab1) (h2 : r2.polar = Polar.sectionsOf waves2 tab2) (name1 name2 : Str) :
    ∃ d1 e1 d2 e2, loadElastic (afterLoading [] history) name1 (elasticFile (Polar.saveElastic punit1 r1)) = (d1, .ok e1) ∧
      loadElastic d1 name2 (elasticFile (Polar.saveElastic punit2 r2)) = (d2, .ok e2) ∧ e1.basename = splitext name1 ∧
      ∀ (v : Polar.Var), (v = .waves → waves1 = true) → (v = .waves → waves2 = true) → ∀ n angles values, 0 < n →
        SectionTables v n angles values (fun k => tab2 k v) →
        ∀ (a : Answer) (disk : Disk), a.selection = v.key →
          ∃ text body, WroteElastic d2 e1 a disk text ∧
            IsSectionTable v angles values (Polar.unitOf punit2 v) body text := by
  obtain ⟨d1, he1, hk1, -⟩ := loadElastic_ok punit1 r1 waves1 tab1 h1 (afterLoading [] history) name1
  obtain ⟨d2, he2, hk2, hl⟩ := loadElastic_ok punit2 r2 waves2 tab2 h2 d1 name2
  have hkeys : Keys (afterLoading [] history) := afterLoading_keys history hh [] (.inl rfl)
  have hk1' : Keys d1 := by
    unfold Keys
    rw [hk1]
    rcases keys_step hkeys waves1 with ⟨h, -⟩ | h
    · exact .inr (.inl h)
    · exact .inr (.inr h)
  have hk' : d2.map Prod.fst = sectionNames false ∧ waves2 = false ∨ d2.map Prod.fst = sectionNames true := by
    rw [hk2]
    exact keys_step hk1' waves2
  refine ⟨d1, _, d2, _, he1, he2, rfl, fun v hv1 hv2 n angles values hn ht a disk ha => ?_⟩
  have hlen : ∀ i, (values .xy i ++ values .xz i ++ values .yz i).length = 3 * sectionWidth v := by
    intro i
    have := ht.2.1
    simp [this]
    ring
  refine ⟨_, _, fun l rest => ⟨some ⟨angles, (List.range n).map fun i : ℕ => values .xy i ++ values .xz i ++ values .yz i,
    Polar.unitOf punit2 v⟩, ?_⟩, sectionBody_isTable ht.1 (Polar.unitOf punit2 v)⟩
  rw [runElastic, if_pos (by rw [ha]; exact key_mem_offered.2 (Polar.mem_vars.2 hv1)), ha,
    gather_loaded hk' hl (Polar.mem_vars.2 hv2) ht l]
  simp only [writeElastic_eq ht.1 hn hlen]

/-- C96, violated: the sections that nobody calculated can be exported like the others: after a run without
`--polar` every quantity, the velocities of a solid of unknown density included, is offered, and its table is one line
of zeros. -/
theorem C96_placeholder_tables_violated (punit : Str) (r : Polar.Results ℚ) (hr : r.polar = Polar.placeholders) (filename : Str)
    (v : Polar.Var) : ∃ d e, loadElastic [] filename (elasticFile (Polar.saveElastic punit r)) = (d, .ok e) ∧
      v.key ∈ e.keys ∧ ∀ (a : Answer) (disk : Disk), a.selection = v.key → ∃ text body, WroteElastic d e a disk text ∧
        IsSectionTable v [0] (fun _ _ => List.replicate (sectionWidth v) 0) (Polar.unitOf punit v) body text := by
  obtain ⟨d, e, h1, -, h3, h4⟩ := C97_tables [] (by simp) punit r true Polar.zeros (hr.trans Polar.placeholders_eq) filename
  refine ⟨d, e, h1, (h3 _).2 ⟨v, rfl, fun _ => rfl⟩, fun a disk ha =>
    h4 v (fun _ => rfl) 1 [0] (fun _ _ => List.replicate (sectionWidth v) 0) one_pos ⟨rfl, by simp, fun k => ?_⟩ a disk ha⟩
  have hz : Polar.zeros (α := ℚ) k v = [0 :: List.replicate (sectionWidth v) 0] := by cases v <;> rfl
  simp only [hz, List.length_singleton, true_and]
  intro i t hi
  cases i with
  | zero => cases hi; rfl
  | succ i => simp at hi

end Verif.Export
