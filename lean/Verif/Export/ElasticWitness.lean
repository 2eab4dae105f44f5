/-
Concrete files to which the theorems on the exporters of elastic and seismic results apply.
-/
import Verif.Export.ExporterMore
import Verif.Export.ExporterWitness

noncomputable section

namespace Verif.Export.Witness
open Verif.Py Verif.IO Verif.IO.Spec Verif.Interfaces Verif.Phonon Verif.Export Spec Verif.Polar

/-- The values of a quantity on a plane. -/
def sectionValues (shift : ℚ) (v : Var) (k : Plane) (i : ℕ) : List ℚ :=
  (List.range (sectionWidth v)).map fun j : ℕ => shift + 100 * (j : ℚ) + i / 4 + (if k = .xy then 0 else 10)

/-- Two angles per section. -/
def sectionTab (shift : ℚ) (k : Plane) (v : Var) : List (List ℚ) :=
  [0 :: sectionValues shift v k 0, 180 :: sectionValues shift v k 1]

/-- Results with the velocities or without. -/
def elastic (shift : ℚ) (waves : Bool) : Polar.Results ℚ :=
  ⟨[[100]], [[1 / 100]], [[1, 2, 3, 4]], [100], sectionsOf waves (sectionTab shift)⟩

theorem sectionTab_tables (shift : ℚ) (v : Var) :
    SectionTables v 2 [0, 180] (sectionValues shift v) fun k => sectionTab shift k v := by
  refine ⟨rfl, by simp [sectionValues], fun k => ⟨rfl, fun i t hi => ?_⟩⟩
  match i, hi with
  | 0, hi => cases hi; rfl
  | 1, hi => cases hi; rfl
  | i + 2, hi => simp at hi

/-- A harmonic result file, then elastic results with velocities, then others without. -/
def elasticHistory : List (Str × H5) :=
  [(c!"mgo.hdf5", saveHa units [] (fun p => p) haRun), (c!"first.hdf5", elasticFile (saveElastic c!"GPa" (elastic 7 true)))]

theorem elasticHistory_ok : ∀ p ∈ elasticHistory, Foreign p.2 ∨ SavedElastic p.2 := by
  intro p hp
  simp only [elasticHistory, List.mem_cons, List.not_mem_nil, or_false] at hp
  rcases hp with rfl | rfl
  · exact .inl (.inr (haSets _ _ _ _ (by decide)))
  · exact .inr ⟨_, _, true, sectionTab 7, rfl, rfl⟩

/-- The shear modulus of the results without velocities is exported, and the velocities are not offered although the
file before had them. -/
example (disk : Disk) : ∃ d e text body,
    loadElastic (afterLoading [] elasticHistory) c!"second.hdf5" (elasticFile (saveElastic c!"GPa" (elastic 50 false))) =
      (d, .ok e) ∧ c!"waves" ∉ e.keys ∧
    WroteElastic d e ⟨c!"G", false, [], true⟩ disk text ∧
    IsSectionTable .G [0, 180] (sectionValues 50 .G) c!"GPa" body text := by
  obtain ⟨d, e, h1, -, h3, h4⟩ := C97_tables elasticHistory elasticHistory_ok c!"GPa" (elastic 50 false) false (sectionTab 50) rfl
    c!"second.hdf5"
  obtain ⟨text, body, h5, h6⟩ := h4 .G (by simp) 2 _ _ (by norm_num) (sectionTab_tables 50 .G) ⟨c!"G", false, [], true⟩ disk rfl
  refine ⟨d, e, text, body, h1, fun h => ?_, h5, h6⟩
  obtain ⟨v, hv, hw⟩ := (h3 _).1 h
  cases v <;> first | (exact absurd hv (by decide)) | (exact absurd (hw rfl) (by decide))

/-- The numbers of the tables fit. -/
example : ∃ body, (writeElastic [0, 180] ((List.range 2).map fun i : ℕ => sectionValues 50 .Nu .xy i ++
      sectionValues 50 .Nu .xz i ++ sectionValues 50 .Nu .yz i) c!"Nu" []).text = List.intercalate ['\n']
        ([c!"*- This file was created using Quantas -*", [], c!"Poisson's ratio", unitLine true [], []] ++ body) ∧
      ∃ rule labels row, rule ∈ body ∧ labels ∈ body ∧ row ∈ body ∧
        rule.length = row.length + 1 ∧ labels.length = row.length + 3 := by
  refine C97_width_violated .Nu 2 [0, 180] (sectionValues 50 .Nu) (by norm_num) rfl (by simp [sectionValues]) (fun i t hi => ?_) []
  have ht : |t| ≤ 10 ^ 6 - 1 := by
    match i, hi with
    | 0, hi => cases hi; norm_num
    | 1, hi => cases hi; norm_num [abs_of_pos]
    | i + 2, hi => simp at hi
  have hi' : i ≤ 1 := by
    match i, hi with
    | 0, _ => omega
    | 1, _ => omega
    | i + 2, hi => simp at hi
  refine ⟨ht, fun v hv => ?_⟩
  have hq : (i : ℚ) ≤ 1 := by exact_mod_cast hi'
  have hq0 : (0 : ℚ) ≤ i := Nat.cast_nonneg _
  have : ∀ k, ∀ v ∈ sectionValues 50 .Nu k i, |v| ≤ 10 ^ 8 - 1 := by
    intro k v hv
    obtain ⟨j, hj, rfl⟩ := List.mem_map.1 hv
    have hj' : j ≤ 2 := by have := List.mem_range.1 hj; simp only [sectionWidth] at this; omega
    have hjq : (j : ℚ) ≤ 2 := by exact_mod_cast hj'
    have hjq0 : (0 : ℚ) ≤ j := Nat.cast_nonneg _
    rw [abs_le]
    split <;> constructor <;> linarith
  simp only [List.mem_append] at hv
  rcases hv with (h | h) | h
  · exact this _ v h
  · exact this _ v h
  · exact this _ v h

/-- A typed name, and a disk on which the file of the selection exists. -/
example (text : Str) (d : Data) (e : Exporter) (he : e.basename = c!"mgo")
    (h : WroteElastic d e ⟨c!"E", false, c!"notes.dat", false⟩ (fun f => if f = c!"mgo_E.dat" then some [] else some c!"precious") text) :
    (runElastic d e none [⟨c!"E", false, c!"notes.dat", false⟩]
      (fun f => if f = c!"mgo_E.dat" then some [] else some c!"precious")).1 c!"notes.dat" = some text :=
  (C86_typed_more_violated (a := ⟨c!"E", false, c!"notes.dat", false⟩) (by rw [he]; rfl) rfl rfl).1 d text h

/-- Two elastic files whose Young's moduli differ: the first exporter writes those of the second. -/
example (disk : Disk) : ∃ d1 e1 d2 e2 text body,
    loadElastic [] c!"first.hdf5" (elasticFile (saveElastic c!"GPa" (elastic 7 true))) = (d1, .ok e1) ∧
    loadElastic d1 c!"second.hdf5" (elasticFile (saveElastic c!"GPa" (elastic 50 true))) = (d2, .ok e2) ∧
    e1.basename = c!"first" ∧ sectionValues 7 .E .xy 0 ≠ sectionValues 50 .E .xy 0 ∧
    WroteElastic d2 e1 ⟨c!"E", false, [], true⟩ disk text ∧
    IsSectionTable .E [0, 180] (sectionValues 50 .E) c!"GPa" body text := by
  obtain ⟨d1, e1, d2, e2, h1, h2, h3, h4⟩ := C87_elastic_violated [] (by simp) c!"GPa" c!"GPa" (elastic 7 true) (elastic 50 true)
    true true (sectionTab 7) (sectionTab 50) rfl rfl c!"first.hdf5" c!"second.hdf5"
  obtain ⟨text, body, h5, h6⟩ := h4 .E (by simp) (by simp) 2 _ _ (by norm_num) (sectionTab_tables 50 .E)
    ⟨c!"E", false, [], true⟩ disk rfl
  refine ⟨d1, e1, d2, e2, text, body, h1, h2, h3.trans (by decide), ?_, h5, h6⟩
  simp [sectionValues, sectionWidth]

/-- Placeholders. -/
example : (⟨[[100]], [[1 / 100]], [[1, 2, 3, 4]], [100], placeholders⟩ : Polar.Results ℚ).polar = placeholders := rfl

/-! ### Seismic results -/

/-- One direction. -/
def waveRow (v : ℚ) : List ℚ := [0, 1 / 3, v, 12, 1, 0, 0, v, 12, v, 0, 0, 3 / 2, 1]

/-- An elastic file and other seismic results come first. -/
example (disk : Disk) : ∃ d e text,
    loadSeismic (afterLoadingWaves [] [(c!"c.hdf5", elasticFile (saveElastic c!"GPa" (elastic 7 true))),
      (c!"old.hdf5", saveSeismic c!"GPa" [waveRow 1] [waveRow 2] [waveRow 3])]) c!"mgo.hdf5"
      (saveSeismic c!"GPa" [waveRow 4, waveRow 5] [waveRow 6] [waveRow (25 / 3)]) = (d, .ok e) ∧
    WroteWaves d e ⟨c!"ssecondary", false, [], true⟩ disk text ∧ IsWaveTable .slow [waveRow 4, waveRow 5] text := by
  obtain ⟨d, e, h1, -, -, h4⟩ := C98_tables [(c!"c.hdf5", elasticFile (saveElastic c!"GPa" (elastic 7 true))),
    (c!"old.hdf5", saveSeismic c!"GPa" [waveRow 1] [waveRow 2] [waveRow 3])] (by
      intro p hp
      simp only [List.mem_cons, List.not_mem_nil, or_false] at hp
      rcases hp with rfl | rfl
      · exact .inl (.inr (elasticSets _ _ true (sectionTab 7) rfl (by decide)))
      · exact .inr ⟨_, _, _, _, rfl⟩) [waveRow 4, waveRow 5] [waveRow 6] [waveRow (25 / 3)] c!"mgo.hdf5"
  obtain ⟨text, h5, h6⟩ := h4 .slow (by simp [tableFor, waveRow]) ⟨c!"ssecondary", false, [], true⟩ disk rfl
  exact ⟨d, e, text, h1, h5, h6⟩

/-- The quasi-harmonic command is given elastic results. -/
example (answers : List Answer) (disk : Disk) :
    exportFor .quasiHarmonic answers c!"c.hdf5" (elasticFile (saveElastic c!"GPa" (elastic 7 true))) disk =
      (disk, .refused .notHa) :=
  C98_kinds .quasiHarmonic .elastic (by decide) _ ⟨_, _, true, sectionTab 7, rfl, rfl⟩ answers _ disk

/-- A harmonic exporter whose volumes stay those of its own file, beside the temperatures of a refused one. -/
example (s : Shared) : ∃ s' e, load harmonic s c!"q.hdf5" (saveQha units [] (fun p => p) qhaRun) = (s', .ok e) ∧
    e.error = some .notHa ∧ s'.x = some (.vec [0, 300, 600]) ∧ s'.y = s.y := by
  obtain ⟨s', e, h1, h2, h3, -, h5, -⟩ := C87_refused_violated s units [] (fun p => p) qhaRun c!"q.hdf5"
  exact ⟨s', e, h1, h2, h3, h5⟩

open Verif.Seismic Verif.Seismic.Spec Verif.Elastic Verif.Elastic.Spec in
/-- An isotropic solid on a grid of three by two directions. -/
example : ∃ num o, EighCorrect num ∧ PinvCorrect num ∧ seismic (isotropic 160 80) 3200 = .ok o ∧
    ∃ t, scan num o 3 2 {} = .ok t ∧ ∃ row, (t.get 0)[5]? = some row ∧ row 13 = 1 := by
  obtain ⟨num, hn, hp⟩ := exists_numerics
  obtain ⟨o, ho⟩ : ∃ o, seismic (isotropic 160 80) 3200 = .ok o := ⟨_, if_neg (iso_det (by norm_num) (by norm_num))⟩
  refine ⟨num, o, hn, hp, ho, ?_⟩
  obtain ⟨-, t, h1, h2⟩ := C98_enhancement_violated num hn hp 160 80 3200 (by norm_num) (by norm_num) (by norm_num) _ ho 3 2
    (by norm_num) (by norm_num) {}
  obtain ⟨row, en, e1, -, -, e2, -⟩ := h2 2 (by norm_num) 1 (by norm_num) 0
  exact ⟨t, h1, row, e1, e2⟩

end Verif.Export.Witness
