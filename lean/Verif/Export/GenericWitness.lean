/-
Concrete files to which the theorems on the exporter for all result files apply.
-/
import Verif.Export.GenericProps
import Verif.Export.ExporterWitness

noncomputable section

namespace Verif.Export.Generic.Witness
open Verif.Py Verif.IO Verif.IO.Spec Verif.Interfaces Verif.Phonon Verif.Export Verif.Export.Spec
open Verif.Export.Witness (units values qhaRun haRun)

theorem units_plain : Spec.PlainUnits units c!"cm^-1" := by
  unfold Spec.PlainUnits; decide

/-- The bulk modulus of a quasi-harmonic run, in a job whose name mentions the harmonic approximation, and
then the enthalpy are exported, and no other file is changed. -/
example (disk : Disk) : ∃ e t1 t2 body,
    readInput c!"mgo.hdf5" (saveQha units (qhaInfo c!"as in (HA)" c!"Ha" c!"A" c!"cm^-1" c!"K" c!"GPa" true false)
      (described qhaDescriptions) qhaRun) = .ok (none, e) ∧
    run e (saveQha units (qhaInfo c!"as in (HA)" c!"Ha" c!"A" c!"cm^-1" c!"K" c!"GPa" true false)
      (described qhaDescriptions) qhaRun) .quantity
        [c!"KT", [], c!"y", c!"H", c!"h.txt", c!"y", c!"Quit"] disk =
      (Function.update (Function.update disk c!"mgo_KT.dat" (some t1)) c!"h.txt" (some t2), .finished) ∧
    IsTable (Rounded 8) [0, 300, 600] [0, 5 / 2] (values c!"KT") c!"Isothermal bulk modulus"
      c!"Data in GPa units" c!"T (K)" c!"Pressure (GPa)" body t1 := by
  obtain ⟨e, h1, h2, h3⟩ := C131_quasi_harmonic_partial units c!"as in (HA)" c!"cm^-1" true false qhaRun
    c!"mgo.hdf5" values (fun p _ => rfl) (by simp [qhaRun]) (by decide) (by decide)
  obtain ⟨t1, body, s1, i1, -⟩ := h3 c!"KT" (by decide) (by decide)
  obtain ⟨t2, -, s2, -⟩ := h3 c!"H" (by decide) (by decide)
  have h := C131_session e _ [⟨c!"KT", [], t1⟩, ⟨c!"H", c!"h.txt", t2⟩]
    (by simpa using ⟨s1, s2⟩) c!"Quit" (by decide) disk
  have hb : splitext c!"mgo.hdf5" = c!"mgo" := by decide +kernel
  rw [hb] at h2
  refine ⟨e, t1, t2, body, h1, ?_, i1⟩
  simp [h2] at h
  exact h

/-- Expansions of 10⁻⁹ per kelvin are written as zero. -/
example : ∃ e text body,
    readInput c!"mgo.hdf5" (saveQha units (qhaInfo [] c!"Ha" c!"A" c!"cm^-1" c!"K" c!"GPa" true false)
      (described qhaDescriptions) ⟨[0, 10], [0, 1], fun _ => matrixOf [0, 10] [0, 1] fun _ _ => 1 / 10 ^ 9⟩) =
      .ok (none, e) ∧
    IsTable (fun _ written => written = 0) [0, 10] [0, 1] (fun _ _ => 1 / 10 ^ 9)
      c!"Volumetric coefficient of thermal expansion" c!"Data in K^-1 units" c!"T (K)" c!"Pressure (GPa)"
      body text := by
  obtain ⟨e, h1, text, body, -, h2⟩ := C131_expansion_violated units [] c!"cm^-1" true false
    ⟨[0, 10], [0, 1], fun _ => matrixOf [0, 10] [0, 1] fun _ _ => 1 / 10 ^ 9⟩ c!"mgo.hdf5"
    (fun _ _ => 1 / 10 ^ 9) rfl (fun _ _ => by norm_num) (by simp) (by decide) (by decide)
  exact ⟨e, text, body, h1, h2⟩

/-- A harmonic run: the entropy can be exported, the static energy cannot. -/
example : ∃ e, readInput c!"mgo.hdf5" (saveHa units (haInfo c!"MgO" c!"Ha" c!"A" c!"cm^-1" c!"K")
      (described haDescriptions) haRun) = .ok (none, e) ∧
    (∃ text body, Spec.Saves e (saveHa units (haInfo c!"MgO" c!"Ha" c!"A" c!"cm^-1" c!"K")
        (described haDescriptions) haRun) c!"S" text ∧
      IsTable (Phonon.Spec.Significant 12) [0, 300] [100, 105] (values c!"S") c!"Entropy"
        c!"Data in mHa units" c!"T (K)" c!"Volume (A)" body text) ∧
    Spec.Fails e (saveHa units (haInfo c!"MgO" c!"Ha" c!"A" c!"cm^-1" c!"K")
      (described haDescriptions) haRun) c!"U0" .indexError := by
  obtain ⟨e, h1, -, h2⟩ := C131_harmonic_partial units c!"MgO" c!"cm^-1" (by decide) units_plain haRun
    c!"mgo.hdf5" (by simp [haRun]) (by decide) (by decide)
  obtain ⟨e', h1', h3⟩ := C131_static_violated units c!"MgO" c!"cm^-1" (by decide) units_plain haRun
    c!"mgo.hdf5" (by simp [haRun]) (by simp [haRun])
  obtain ⟨text, body, s1, s2, -⟩ := h2 c!"S" (by decide) (values c!"S") rfl
  have : e' = e := by
    have := h1'.symm.trans h1
    simpa using this
  exact ⟨e, h1, ⟨text, body, s1, s2⟩, this ▸ h3⟩

/-- A harmonic run named after a quasi-harmonic one. -/
example (disk : Disk) : ∃ e, readInput c!"mgo.hdf5" (saveHa units
      (haInfo c!"MgO, first step of (QHA)" c!"Ha" c!"A" c!"cm^-1" c!"K") (described haDescriptions) haRun) =
      .ok (none, e) ∧
    run e (saveHa units (haInfo c!"MgO, first step of (QHA)" c!"Ha" c!"A" c!"cm^-1" c!"K")
      (described haDescriptions) haRun) .quantity [c!"S", [], c!"n"] disk = (disk, .crashed .keyError) := by
  obtain ⟨e, h1, h2⟩ := C131_job_violated units c!"MgO, first step of (QHA)" c!"cm^-1" (by decide +kernel) haRun
    c!"mgo.hdf5"
  exact ⟨e, h1, h2 c!"S" (by decide) [] [c!"n"] disk⟩

/-- A seismic result file. -/
def seismicFile : H5 := ⟨[(c!"info", seismicInfo c!"GPa")],
  [(c!"fsecondary", ⟨.mat [[0, 1]], []⟩), (c!"primary", ⟨.mat [[0, 2]], []⟩),
   (c!"ssecondary", ⟨.mat [[0, 3]], []⟩)]⟩

/-- An elastic result file. -/
def elasticFile : H5 := ⟨[(c!"info", elasticInfo c!"GPa")],
  [(c!"averages", ⟨.mat [[0, 1]], [(c!"unit", c!"GPa")]⟩), (c!"polar_LC_xy", ⟨.mat [[0, 2]], [(c!"unit", c!"TPa^-1")]⟩)]⟩

example (disk : Disk) : ∃ e e', readInput c!"s.hdf5" seismicFile = .ok (none, e) ∧
    run e seismicFile .quantity [c!"primary", [], c!"n"] disk = (disk, .crashed .attributeError) ∧
    readInput c!"e.hdf5" elasticFile = .ok (none, e') ∧
    run e' elasticFile .quantity [c!"averages", c!"a.txt", c!"n"] disk = (disk, .crashed .attributeError) := by
  obtain ⟨e, h1, h2⟩ := C131_elastic_violated c!"GPa" (by decide) seismicFile
    ⟨by unfold seismicFile; decide, by simp [seismicFile]⟩ (.inr rfl) (by simp [seismicFile]) c!"s.hdf5"
  obtain ⟨e', h1', h2'⟩ := C131_elastic_violated c!"GPa" (by decide) elasticFile
    ⟨by unfold elasticFile; decide, by simp [elasticFile]⟩ (.inl rfl) (by simp [elasticFile]) c!"e.hdf5"
  exact ⟨e, e', h1, h2 (c!"primary", _) (by simp [seismicFile]; rfl)
      (by show lower c!"primary" ≠ _; decide) (by show lower c!"primary" ≠ _; decide) _ _ _,
    h1', h2' (c!"averages", _) (by simp [elasticFile]; rfl)
      (by show lower c!"averages" ≠ _; decide) (by show lower c!"averages" ≠ _; decide) _ _ _⟩

/-- Answers that are none, before the one that is. -/
example (e : State) (f : H5) (disk : Disk) := C131_more e f [c!"what", c!" n", c!"yes"] (by decide) [c!"S", []] disk

end Verif.Export.Generic.Witness
