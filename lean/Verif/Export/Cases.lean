/-
The theorems about the exporters applied to concrete files.
-/
import Verif.Export.ElasticWitness
import Verif.Export.ExporterMore
import Verif.Export.GenericWitness
import Verif.Export.UnitLabels
import Verif.Export.Hdf5Props

noncomputable section

namespace Verif.Export.Cases
open Verif.Py Verif.IO Verif.Interfaces Verif.Export Verif.Export.Spec Verif.Export.Witness

/-! ### Files that stay as they are -/

/-- Notes, beside the file of the bulk modulus. -/
def disk : Disk := fun f => if f = c!"mgo_KT.dat" then some [] else if f = c!"notes.txt" then some c!"precious" else none

/-- The bulk modulus goes into a file of its own, then over the existing file. -/
def answers : List Answer := [⟨c!"KT", false, c!"other.dat", false⟩, ⟨c!"KT", true, c!"notes.txt", false⟩]

example (d : Data) (e : Exporter) (he : e.basename = c!"mgo") :=
  C86_elastic_partial d e answers disk (file := c!"notes.txt") (text := c!"precious") rfl (by rw [he]; decide)
example (d : WaveData) (e : Exporter) (he : e.basename = c!"mgo") :=
  C86_seismic_partial d e answers disk (file := c!"notes.txt") (text := c!"precious") rfl (by rw [he]; decide)
example (d : Data) (e : Exporter) (he : e.basename = c!"mgo") :=
  C86_elastic_names d e answers disk (file := c!"mgo.hdf5") (by rw [he]; decide)
example (d : WaveData) (e : Exporter) (he : e.basename = c!"mgo") :=
  C86_seismic_names d e answers disk (file := c!"mgo.hdf5") (by rw [he]; decide)
example (s : Shared) (e : Exporter) (he : e.basename = c!"mgo") :=
  C86_names quasiHarmonic s e answers disk (file := c!"mgo.hdf5") (by rw [he]; decide)
example := C96_placeholder_tables_violated c!"GPa" ⟨[[100]], [[1 / 100]], [[1, 2, 3, 4]], [100], Polar.placeholders⟩ rfl c!"c.hdf5" .E

/-! ### The exporter for all result files -/

example := Generic.C131_foreign_violated ⟨[(c!"title", c!"mine")], []⟩ (by decide) c!"mine.hdf5"
example (e : Generic.State) (he : e.outbase = c!"mgo") (f : H5) :=
  Generic.C131_untouched e f [c!"KT", c!"out.dat", c!"y", c!"quit"] disk c!"notes.txt" (by rw [he]; decide)

/-! ### Reading data -/

open Verif.Export.Witness in
theorem no_Cv : Absent file.sets c!"Cv" := by
  intro p hp
  simp only [file, List.mem_cons, List.not_mem_nil, or_false] at hp
  rcases hp with rfl | rfl <;> decide

example := C54_data Witness.file_valid (key := c!"S") (List.mem_cons_self ..)
example := C54_missing ⟨.valueError, .valueError⟩ no_Cv 2
example := C54_row ⟨.valueError, .valueError⟩ Witness.file_valid (key := c!"S") (List.mem_cons_self ..) (i := 1) (by simp)
example := C54_index_partial ⟨.valueError, .valueError⟩ rfl Witness.file_valid (key := c!"S") (m := 1) (n := 3)
  (z := fun i j => (i : ℚ) + 2 * (j : ℕ)) (List.mem_cons_self ..) (c := 3) (.inl (by decide)) (r := -3) (.inr (by decide))
example := C54_index_violated ⟨.indexError, .indexError⟩ rfl Witness.file_valid (key := c!"S") (m := 1) (n := 3)
  (z := fun i j => (i : ℚ) + 2 * (j : ℕ)) (List.mem_cons_self ..) (c := -4) (.inr (by decide))
example := C54_export_violated no_Cv (by decide) (by decide)
example := C54_info (f := Witness.file) (info := c!"Quantas") rfl

/-! ### Units -/

open Verif.QHA in
example (k : Units.Consts) : ∃ (ext : Ext) (r : Results 60 1), QHA.run k ext (exSettings 60) exInput = .ok r ∧
    ∀ i j, (∃ H G S, Spec.IsJoules k exUnits (qhaUnit (scalesOf (exSettings 60)) c!"H") (r.H i j) H ∧
      Spec.IsJoules k exUnits (qhaUnit (scalesOf (exSettings 60)) c!"G") (r.G i j) G ∧
      Spec.IsJoules k exUnits (qhaUnit (scalesOf (exSettings 60)) c!"S") (r.S i j) S ∧
      H - G = exUnits.t.kelvin ((exSettings 60).temperature i) * S) ∧
    ∃ KS KT, Spec.IsPascals k exUnits (qhaUnit (scalesOf (exSettings 60)) c!"KS") (r.KS i j) KS ∧
      Spec.IsPascals k exUnits (qhaUnit (scalesOf (exSettings 60)) c!"KT") (r.KT i j) KT := by
  obtain ⟨ext, ha, r, hext, hha, hr, h⟩ := witness k 60
  refine ⟨ext, r, hr, fun i j => ⟨?_, ?_⟩⟩
  · obtain ⟨H, G, U, F, S, h1, h2, -, -, h3, -, -, h4⟩ := C88_potentials_partial hext (exUnits_of 60) hr
      (fun _ => ⟨exInput_injective, le_refl 3⟩) i j
    exact ⟨H, G, S, h1, h2, h3, h4⟩
  · obtain ⟨KS, KT, Cv, h1, h2, -⟩ := C88_moduli_partial (exUnits_of 60) hr (by norm_num) i j (h i j).2.2.2.ne'
    exact ⟨KS, KT, h1, h2⟩

example (k : Units.Consts) := C88_volume_violated (k := k) (QHA.exUnits_of 60)

end Verif.Export.Cases
