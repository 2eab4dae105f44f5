/-
Concrete runs to which the theorems on the exporters apply.
-/
import Verif.Export.ExporterProps

noncomputable section

namespace Verif.Export.Witness
open Verif.Py Verif.IO Verif.IO.Spec Verif.Interfaces Verif.Phonon Verif.Export Spec

def units : Scales := ⟨c!"Ha", c!"A", c!"K", c!"GPa"⟩

def values (p : Str) (i j : ℕ) : ℚ := (p.length : ℚ) + i / 2 - 3 * j

def qhaRun : QhaRun := ⟨[0, 300, 600], [0, 5 / 2], fun p => matrixOf [0, 300, 600] [0, 5 / 2] (values p)⟩

/-- The harmonic results have one row per temperature, but for the zero-point energy. -/
def haRun : HaRun := ⟨[100, 105], [0, 300], [-7, -15 / 2], fun p =>
  if p = c!"Uzp" then .mat [[1 / 100, 1 / 101]] else matrixOf [0, 300] [100, 105] (values p)⟩

theorem haRun_not_scalar (p : Str) (x : ℚ) : haRun.results p ≠ .scalar x := by
  simp only [haRun]
  split <;> simp [matrixOf]

def answer : Answer := ⟨c!"KT", false, c!"other.dat", false⟩

theorem fits : AllFit c!"KT" [0, 300, 600] [0, 5 / 2] (values c!"KT") c!"T (K)" c!"P (GPa)" where
  temperatures := by
    intro t ht
    simp only [List.mem_cons, List.not_mem_nil, or_false] at ht
    rcases ht with rfl | rfl | rfl <;> norm_num [FitsTemperature]
  columns := by
    intro t ht
    simp only [List.mem_cons, List.not_mem_nil, or_false] at ht
    rcases ht with rfl | rfl <;> norm_num [FitsFixed, abs_of_pos]
  values := by
    intro i hi j hj
    unfold FitsValue
    rw [if_pos (by decide)]
    simp only [List.length_cons, List.length_nil] at hi hj
    interval_cases i <;> interval_cases j <;> norm_num [FitsFixed, values, abs_le]
  xlabel := by decide
  ylabel := by decide

/-- The bulk modulus of the run is exported: a table of lines of 54 characters. -/
example (s : Shared) (disk : Disk) :
    ∃ s' e, load quasiHarmonic s c!"mgo.hdf5" (saveQha units [] (fun p => p) qhaRun) = (s', .ok e) ∧
      ∃ text body, Wrote quasiHarmonic s' e answer disk text ∧
        IsTable (Rounded 8) [0, 300, 600] [0, 5 / 2] (values c!"KT") c!"Isothermal bulk modulus"
          c!"Data in GPa units" c!"T (K)" c!"P (GPa)" body text ∧ ∀ l ∈ body, l.length = 54 := by
  obtain ⟨s', e, h1, -, h3⟩ := C55_quasi_harmonic s units [] (fun p => p) qhaRun c!"mgo.hdf5" values
    (fun p _ => rfl) (by simp [qhaRun]) (by decide) (by decide)
  obtain ⟨-, h5⟩ := h3 (c!"KT", c!"Isothermal bulk modulus") (by decide)
  obtain ⟨text, body, h6, h7, h8⟩ := h5 answer disk rfl
  exact ⟨s', e, h1, text, body, h6, h7, h8 fits⟩

/-- The entropy of the harmonic run is exported. -/
example (s : Shared) (disk : Disk) :
    ∃ s' e text body,
      load harmonic s c!"mgo.hdf5" (saveHa units [] (fun p => p) haRun) = (s', .ok e) ∧
      Wrote harmonic s' e ⟨c!"S", false, [], true⟩ disk text ∧
      IsTable (Significant 12) [0, 300] [100, 105] (values c!"S") c!"Entropy" c!"Data in mHa units" c!"T (K)"
        c!"V (A^3)" body text := by
  obtain ⟨s', e, h1, -, h3⟩ := C55_harmonic_partial s units [] (fun p => p) haRun c!"mgo.hdf5"
    (fun p _ => haRun_not_scalar p) (by simp [haRun]) (by decide) (by decide)
  obtain ⟨-, h5⟩ := h3 (c!"S", c!"Entropy") (by decide)
  obtain ⟨text, body, h6, h7, -⟩ := h5 ⟨c!"S", false, [], true⟩ disk rfl
    (by show c!"S" ≠ c!"U0"; decide) (values c!"S") rfl
  exact ⟨s', e, text, body, h1, h6, h7⟩

/-- The static and the zero-point energies of the run cannot be exported. -/
example (s : Shared) (disk : Disk) : ∃ s' e text1 text2,
    load harmonic s c!"mgo.hdf5" (saveHa units [] (fun p => p) haRun) = (s', .ok e) ∧
    run harmonic s' e [⟨c!"U0", true, [], true⟩] disk =
      (Function.update disk (outfileOf e disk ⟨c!"U0", true, [], true⟩) (some text1), .crashed .indexError) ∧
    run harmonic s' e [⟨c!"Uzp", true, [], true⟩] disk =
      (Function.update disk (outfileOf e disk ⟨c!"Uzp", true, [], true⟩) (some text2), .crashed .indexError) := by
  obtain ⟨s', e, h1, -, -, h2⟩ := C55_static_violated s units [] (fun p => p) haRun c!"mgo.hdf5"
    (fun p _ => haRun_not_scalar p) (by simp [haRun]) (by simp [haRun])
  obtain ⟨s'', e', h1', -, -, h2'⟩ := C55_zero_point_violated s units [] (fun p => p) haRun c!"mgo.hdf5"
    (fun p _ => haRun_not_scalar p) (by simp [haRun]) (by simp [haRun]) (row := [1 / 100, 1 / 101])
    (by simp [haRun]) rfl
  obtain ⟨rfl, h⟩ := Prod.mk.inj (h1.symm.trans h1')
  obtain rfl := Except.ok.inj h
  obtain ⟨t1, e1⟩ := h2 ⟨c!"U0", true, [], true⟩ [] disk rfl
  obtain ⟨t2, e2⟩ := h2' ⟨c!"Uzp", true, [], true⟩ [] disk rfl
  exact ⟨s', e, t1, t2, h1, e1, e2⟩

/-- A disk on which the file of the bulk modulus and another file exist. -/
def disk : Disk := fun p =>
  if p = c!"mgo_KT.dat" then some c!"old" else if p = c!"notes.txt" then some c!"notes" else none

/-- The file of the bulk modulus is kept when the user types another name. -/
example (s : Shared) (e : Exporter) (he : e.basename = c!"mgo") :
    (run quasiHarmonic s e [⟨c!"KT", false, c!"new.dat", false⟩] disk).1 c!"mgo_KT.dat" = some c!"old" :=
  C86_unconfirmed_partial _ _ _ _ _ rfl fun a ha => by
    obtain rfl := List.mem_singleton.1 ha
    exact ⟨by simp, by decide⟩

/-- The notes are overwritten when the user types their name. -/
example (s : Shared) : ∃ s' e w,
    load quasiHarmonic s c!"mgo.hdf5" (saveQha units [] (fun p => p) qhaRun) = (s', .ok e) ∧
      tableOf quasiHarmonic s' c!"KT" = .ok w ∧
      (run quasiHarmonic s' e [⟨c!"KT", false, c!"notes.txt", false⟩] disk).1 c!"notes.txt" = some w.text := by
  have hf := saveQha_file (u := units) (info := []) (descriptions := fun p => p) (r := qhaRun)
    (fun p hp x => by simp [qhaRun, matrixOf])
  obtain ⟨s', e, h1, h2, h3⟩ := C87_last_partial hf s c!"mgo.hdf5"
  obtain ⟨s'', e', h1', -, h3'⟩ := C55_quasi_harmonic s units [] (fun p => p) qhaRun c!"mgo.hdf5" values
    (fun p _ => rfl) (by simp [qhaRun]) (by decide) (by decide)
  obtain ⟨rfl, h⟩ := Prod.mk.inj (h1.symm.trans h1')
  obtain rfl := Except.ok.inj h
  have hk := (h3' (c!"KT", c!"Isothermal bulk modulus") (by decide)).1
  have hset : (c!"KT", dataset (qhaRun.results c!"KT") c!"KT" (qhaUnit units c!"KT")) ∈
      (saveQha units [] (fun p => p) qhaRun).sets :=
    List.mem_cons_of_mem _ (List.mem_cons_of_mem _ (List.mem_map.2 ⟨_, by decide, rfl⟩))
  have ht := h3 _ hset (by show c!"KT" ≠ c!"T"; decide) (by show c!"KT" ≠ c!"P"; decide)
  refine ⟨s', e, _, h1, ht, C86_typed_violated (a := ⟨c!"KT", false, c!"notes.txt", false⟩) hk ht ?_ rfl rfl []⟩
  rw [h2]
  decide

/-- A second run, at another temperature. -/
def second : QhaRun := ⟨[100], [0], fun p => matrixOf [100] [0] (values p)⟩

/-- Two exporters in one process: the file written for the first one has the values of the second. -/
example (s : Shared) : ∃ s1 e1 s2 e2 body,
    load quasiHarmonic s c!"one.hdf5" (saveQha units [] (fun p => p) qhaRun) = (s1, .ok e1) ∧
    load quasiHarmonic s1 c!"two.hdf5" (saveQha units [] (fun p => p) second) = (s2, .ok e2) ∧
    ∃ text, (run quasiHarmonic s2 e1 [⟨c!"KT", false, [], false⟩] (fun _ => none)).1 c!"one_KT.dat" = some text ∧
      IsTable (Rounded 8) [100] [0] (values c!"KT") c!"Isothermal bulk modulus"
        c!"Data in GPa units" c!"T (K)" c!"P (GPa)" body text := by
  have hf1 := saveQha_file (u := units) (info := []) (descriptions := fun p => p) (r := qhaRun)
    (fun p hp x => by simp [qhaRun, matrixOf])
  have hf2 := saveQha_file (u := units) (info := []) (descriptions := fun p => p) (r := second)
    (fun p hp x => by simp [second, matrixOf])
  obtain ⟨s1, e1, s2, e2, h1, h2, h3⟩ := C87_shared_violated hf1 hf2 s c!"one.hdf5" c!"two.hdf5"
  obtain ⟨text, body, w1, w2, w3⟩ := writeTable_isTable (k := quasiHarmonic) (x := [100])
    (y := [0]) (xu := c!"K") (yu := c!"GPa") (zu := c!"GPa") (p := c!"KT")
    (qx := ⟨c!"Temperature", (c!"T (", c!")"), .temperature⟩) (qy := ⟨c!"Pressure", (c!"P (", c!")"), .fixed⟩)
    (qz := ⟨c!"Isothermal bulk modulus", (c!"KT (", c!")"), .fixed⟩)
    rfl rfl rfl rfl rfl (by unfold StyleOf; decide) (by simp) (values c!"KT") (by decide) (by decide)
  refine ⟨s1, e1, s2, e2, body, h1, h2, text, ?_, w2⟩
  have hm : ∀ r : QhaRun, (c!"KT", dataset (r.results c!"KT") c!"KT" (qhaUnit units c!"KT")) ∈
      (saveQha units [] (fun p => p) r).sets := fun r =>
    List.mem_cons_of_mem _ (List.mem_cons_of_mem _ (List.mem_map.2 ⟨_, by decide, rfl⟩))
  have := h3 _ _ c!"KT" (hm qhaRun) (hm second) (by decide) (by show c!"KT" ≠ c!"P"; decide)
    ⟨c!"KT", false, [], false⟩ (fun _ => none) rfl rfl rfl
  exact this.trans (congrArg (fun w => some (Written.text w)) w1)

end Verif.Export.Witness
