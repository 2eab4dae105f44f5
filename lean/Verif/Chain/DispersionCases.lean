/-
Concrete outputs that meet the hypotheses of C147.
-/
import Verif.Chain.DispersionProps
import Verif.Chain.PhononWitness
import Verif.Interfaces.CrystalQHAWitness

noncomputable section

namespace Verif.Chain
open Verif.Py Verif.IO Verif.IO.Spec Verif.Interfaces Verif.Interfaces.Spec Verif.Phonon Verif.Phonon.Spec Verif.Units
  Verif.Units.Spec Spec

theorem means_celsius : Means temperatures c!"C" ⟨[c!"celsius", c!"°c", c!"c"], 1, 273.15⟩ := by
  constructor <;> simp [temperatures, lower]

/-- The data of the dispersion output of `Verif.Interfaces.CrystalWitness`. -/
def dispData : Sampling where
  natom := 1
  dim := ![![1, 1, 0], ![-1, 1, 0], ![0, 0, 1]]
  volume := 24
  energy := -200.25
  shrink := ![2, 1, 1]
  points := [(1, ![0, 0, 0]), (1, ![1, 0, 0])]
  freqs := [[0, 0, 0], [100.5, 405.75, 405.75]]

theorem dispersion_output : DispersionOutput (textOf dispFile) dispData := by
  refine ⟨dispFile, dispersion (dispTable1 ++ dispTable2) (by decide +kernel) (by decide +kernel), 2,
    [[(1, 3, 0)], [(1, 1, 100.5), (2, 3, 405.75)]], dispFile_text, disp_contains _ (by decide +kernel), dispE_det,
    by norm_num, show (-400.5 : ℚ) ≠ 0 by norm_num, disp_super, disp_tables, rfl, List.cons_ne_nil _ _, rfl, ?_, ?_, ?_, rfl,
    ?_, rfl, ?_, ?_⟩
  · intro i j
    fin_cases i <;> fin_cases j <;> simp [dispersion, dispE, dispData]
  · simp [dispersion, dispData, Matrix.det_fin_three]
    norm_num
  · simp [dispersion, dispData]
    norm_num
  · simp [dispersion, dispData]
  · decide
  · intro f hf ν hν
    simp only [dispData, List.mem_cons, List.not_mem_nil, or_false] at hf
    rcases hf with rfl | rfl <;> simp only [List.mem_cons, List.not_mem_nil, or_false] at hν
    · rcases hν with rfl | rfl | rfl <;> exact ⟨0, by norm_num⟩
    · rcases hν with rfl | rfl | rfl
      · exact ⟨1005000000000, by norm_num⟩
      · exact ⟨4057500000000, by norm_num⟩
      · exact ⟨4057500000000, by norm_num⟩

/-- A directory with the output. -/
def dispDisk (f : Str) : Option Str := if f = c!"disp.out" then some (textOf dispFile) else none

/-- `C147_dispersion` applies: the zero point energy is the mean over the two points, the first of which has no vibrations of
positive frequency. -/
example : ∃ fuel s text doc,
    inpgen (crystalFiles fuel dispDisk) ⟨[]⟩ c!"disp.out" c!"mg" false 0 c!"crystal" c!"magnesium" =
      (s, .written c!"mg.yaml" text) ∧ Denotes text doc ∧
    ∃ res : HA.Results 1 1, harmonic codata ⟨c!"Ha", c!"cm^-1", c!"C", fun _ => 25⟩ (.tree doc) = .ok (.ok ⟨1, res⟩) ∧
      codata.Ha * res.Uzp 0 0 = (codata.h * (100 * codata.c * 912) / 2) / 2 := by
  obtain ⟨fuel, h⟩ := C147_dispersion (nt := 1) codata (disk := dispDisk) (filename := c!"disp.out") (isList := false)
    (files := [c!"disp.out"]) (ref := 0) (os := [dispData]) (.inl ⟨rfl, rfl⟩) (.cons ⟨_, rfl, dispersion_output⟩ .nil)
    (r := dispData) rfl (by decide) (by simp) (job := c!"magnesium") ⟨⟨_, _, rfl, by decide⟩, by decide, by decide, by decide⟩
    c!"mg" (t := c!"C") (by simp) means_celsius (fun _ => 25) (by decide)
  obtain ⟨s, text, doc, h1, h2, -, ⟨nv, res⟩, h3, h4, h5⟩ := h fuel le_rfl
  simp only [List.length_cons, List.length_nil] at h4
  subst h4
  refine ⟨fuel, s, text, doc, h1, h2, res, h3, ?_⟩
  have := (h5 0 0 _ (by norm_num [Scale.toRef]) rfl).zeroPoint
  rw [this]
  norm_num [cellMean, Spec.zeroPoint, List.filter, pointsOf, dispData]
  ring

/-- The data of the quasi-harmonic output of a supercell of two unit cells of `Verif.Interfaces.CrystalQHAWitness`. -/
def quasiData : Expanded where
  natom := 1
  volumes := [50, 100, 125, 150]
  energies := [-5.25, -5.375, -5.25, -5]
  bands := [[List.replicate 4 0, List.replicate 4 0, List.replicate 4 0],
    [List.replicate 4 100.5, List.replicate 4 200.5, List.replicate 4 300]]

theorem quasi_output : QuasiOutput (textOf fileB) quasiData := by
  have e : (Matrix.of fun i j => (((![![1, 1, 0], ![-1, 1, 0], ![0, 0, 1]] : Fin 3 → Fin 3 → ℤ) i j : ℤ) : ℚ)) = dispE := by
    ext i j
    fin_cases i <;> fin_cases j <;> simp [dispE]
  refine ⟨fileB, outB, orderA, ![![1, 1, 0], ![-1, 1, 0], ![0, 0, 1]], 2, isText_join _ (by decide +kernel),
    recognised_A outB rfl rfl, .inl ⟨contains_of (by decide +kernel), ?_⟩, ?_, by decide, ?_, rfl, rfl, ?_, ?_, rfl, ?_, rfl, ?_⟩
  · rw [e]
    exact ⟨2, first_of (by decide +kernel), labelledMatrixAt_of (by decide +kernel)⟩
  · rw [e, dispE_det]; norm_num
  · intro c hc
    obtain ⟨v, -, rfl⟩ := List.mem_map.1 hc
    rfl
  · intro i c hc
    simp only [outB, List.getElem?_map, Option.map_eq_some_iff] at hc
    obtain ⟨v, hv, rfl⟩ := hc
    rw [qhaLattice_det]
    match i, hv with
    | 0, hv => cases hv; exact ⟨150, rfl, by norm_num⟩
    | 1, hv => cases hv; exact ⟨50, rfl, by norm_num⟩
    | 2, hv => cases hv; exact ⟨100, rfl, by norm_num⟩
    | 3, hv => cases hv; exact ⟨125, rfl, by norm_num⟩
  · simp only [outB, tableA, quasiData]
    refine .cons ?_ (.cons ?_ (.cons ?_ (.cons ?_ .nil))) <;> norm_num
  · decide
  · intro b hb f hf ν hν
    have : ν = 0 ∨ ν = 100.5 ∨ ν = 200.5 ∨ ν = 300 := by
      simp only [quasiData, List.mem_cons, List.not_mem_nil, or_false] at hb
      rcases hb with rfl | rfl <;> simp only [List.mem_cons, List.not_mem_nil, or_false] at hf
      · rcases hf with rfl | rfl | rfl <;> exact .inl (List.eq_of_mem_replicate hν)
      · rcases hf with rfl | rfl | rfl
        · exact .inr (.inl (List.eq_of_mem_replicate hν))
        · exact .inr (.inr (.inl (List.eq_of_mem_replicate hν)))
        · exact .inr (.inr (.inr (List.eq_of_mem_replicate hν)))
    rcases this with rfl | rfl | rfl | rfl
    · exact ⟨0, by norm_num⟩
    · exact ⟨1005000000000, by norm_num⟩
    · exact ⟨2005000000000, by norm_num⟩
    · exact ⟨3000000000000, by norm_num⟩

/-- A directory with the quasi-harmonic output. -/
def quasiDisk (f : Str) : Option Str := if f = c!"qha.out" then some (textOf fileB) else none

/-- `C147_quasi_harmonic` applies: the zero point energy at the last volume is the mean over the two points. -/
example (s : Phonon.State) : ∃ text doc,
    inpgen (quasiFiles quasiDisk) s c!"qha.out" c!"q" false 0 c!"crystal-qha" c!"oxide" =
      (s, .written c!"q.yaml" text) ∧ Denotes text doc ∧
    ∃ res : HA.Results 1 4, harmonic codata ⟨c!"Ha", c!"cm^-1", c!"C", fun _ => 25⟩ (.tree doc) = .ok (.ok ⟨4, res⟩) ∧
      codata.Ha * res.Uzp 0 3 = (codata.h * (100 * codata.c * 601) / 2) / 2 := by
  obtain ⟨text, doc, h1, h2, -, ⟨nv, res⟩, h3, h4, h5⟩ := C147_quasi_harmonic (nt := 1) codata (disk := quasiDisk)
    (filename := c!"qha.out") rfl quasi_output (by decide) (job := c!"oxide")
    ⟨⟨_, _, rfl, by decide⟩, by decide, by decide, by decide⟩ s c!"q" 0 (t := c!"C") (by simp) means_celsius (fun _ => 25)
  simp only [quasiData, List.length_cons, List.length_nil] at h4
  subst h4
  refine ⟨text, doc, h1, h2, res, h3, ?_⟩
  have := (h5 0 3 _ (by norm_num [Scale.toRef]) rfl).zeroPoint
  rw [this]
  norm_num [cellMean, Spec.zeroPoint, List.filter, pointsAt, quasiData]
  ring

end Verif.Chain
