/-
Concrete phonopy calculations that meet the hypotheses of C149.
-/
import Verif.Chain.PhonopyProps
import Verif.Chain.DispersionCases
import Verif.Phonon.PhonopyWitness

noncomputable section

namespace Verif.Chain
open Verif.Py Verif.IO Verif.IO.Spec Verif.Interfaces Verif.Interfaces.Spec Verif.Phonon Verif.Phonon.Spec Verif.Units
  Verif.Units.Spec Verif.QHA.Spec Spec

/-- A cell of magnesium of the volume `9 a`. -/
def longCell (a : ℚ) : Matrix (Fin 3) (Fin 3) ℚ := Matrix.of ![![a, 0, 0], ![0, 3, 0], ![0, 0, 3]]

/-- Its phonopy output. -/
def longOutput (a : ℚ) : Node := .map [
  (c!"nqpoint", .int 2), (c!"natom", .int 1), (c!"lattice", mat3 (longCell a)),
  (c!"points", .list [atomNode c!"Mg" fun _ => 1 / 2]),
  (c!"phonon", .list [pointNode 0 1 [0, 0, 0], pointNode (fun _ => 1 / 2) 7 [5, 6, 7]])]

theorem longOutput_ok (a : ℚ) : PhonopyOutput (longOutput a) [(12, fun _ => 1 / 2)] (longCell a)
    [⟨0, 1, [0, 0, 0]⟩, ⟨fun _ => 1 / 2, 7, [5, 6, 7]⟩] where
  natom := entry_of (by simp) (by simp)
  nqpoint := entry_of (by simp) (by simp)
  cell := ⟨_, entry_of (by simp) (by simp), isMatrix_mat3 _⟩
  sites := ⟨[atomNode c!"Mg" fun _ => 1 / 2], entry_of (by simp) (by simp),
    .cons (atomNode_given _ known_Mg) .nil⟩
  phonon := ⟨[pointNode 0 1 [0, 0, 0], pointNode (fun _ => 1 / 2) 7 [5, 6, 7]],
    entry_of (by simp) (by simp),
    .cons (by simpa using pointNode_given 0 1 [0, 0, 0])
      (.cons (by simpa using pointNode_given (fun _ => 1 / 2) 7 [5, 6, 7]) .nil)⟩
  bands := by simp

/-- A directory with four calculations and a list of them. -/
def mgFolder : Folder where
  yaml := fun f => if f = c!"a.yaml" then some (.tree (longOutput 3)) else if f = c!"b.yaml" then some (.tree (longOutput 4)) else
    if f = c!"c.yaml" then some (.tree (longOutput 5)) else if f = c!"d.yaml" then some (.tree (longOutput 6)) else
    if f ∈ [c!"a_disp.yaml", c!"b_disp.yaml", c!"c_disp.yaml", c!"d_disp.yaml"] then some (.tree sampleDisp) else none
  xml := fun _ => some [(c!"e_fr_energy", c!"-1.7"), (c!"e_wo_entrp", c!"-1.6"), (c!"e_wo_entrp", c!"-1.5"),
    (c!"e_0_energy", c!"-1.4")]
  text := fun f => if f = c!"files" then some c!"a.yaml\nb.yaml\nc.yaml\nd.yaml\n" else none

/-- The data of the calculation with the cell `longCell a`. -/
def longData (a : ℚ) : Spectrum where
  natom := 1
  dim := fun i j => if i = j then 1 else 0
  volume := 9 * a
  energy := -3 / 2
  points := [⟨0, 1, [0, 0, 0]⟩, ⟨fun _ => 1 / 2, 7, [5, 6, 7]⟩]

theorem longData_ok {f : PhonopyFiles} {a : ℚ} (h1 : f.output = some (.tree (longOutput a)))
    (h2 : f.disp = some (.tree sampleDisp)) (h3 : f.vasprun = some [(c!"e_fr_energy", c!"-1.7"), (c!"e_wo_entrp", c!"-1.6"),
      (c!"e_wo_entrp", c!"-1.5"), (c!"e_0_energy", c!"-1.4")]) : PhonopyCalculation f (longData a) := by
  refine ⟨_, _, _, _, _, _, _, h1, h2, longOutput_ok a, sampleDisp_ok, by rw [h3]; exact sampleEnergy, rfl, ?_, ?_, ?_, ?_⟩
  · simp [longData, longCell, Matrix.det_fin_three]
    ring
  · intro i j
    simp [longData, Matrix.one_apply]
  · simp [longData]
  · intro p hp
    simp only [longData, List.mem_cons, List.not_mem_nil, or_false] at hp
    rcases hp with rfl | rfl
    · exact ⟨1, by norm_num⟩
    · exact ⟨7, by norm_num⟩

theorem mg_files : List.Forall₂ (fun f o => PhonopyCalculation (calculationFiles mgFolder f) o)
    [c!"a.yaml", c!"b.yaml", c!"c.yaml", c!"d.yaml"] [longData 3, longData 4, longData 5, longData 6] :=
  .cons (longData_ok rfl rfl rfl) (.cons (longData_ok rfl rfl rfl) (.cons (longData_ok rfl rfl rfl)
    (.cons (longData_ok rfl rfl rfl) .nil)))

theorem mg_listed : Listed (readlines c!"a.yaml\nb.yaml\nc.yaml\nd.yaml\n")
    [c!"a.yaml", c!"b.yaml", c!"c.yaml", c!"d.yaml"] := by
  have e : readlines c!"a.yaml\nb.yaml\nc.yaml\nd.yaml\n" = [c!"a.yaml\n", c!"b.yaml\n", c!"c.yaml\n", c!"d.yaml\n"] := by
    decide +kernel
  rw [e]
  refine .cons ⟨c!"\n", rfl, by simp, ?_⟩ (.cons ⟨c!"\n", rfl, by simp, ?_⟩ (.cons ⟨c!"\n", rfl, by simp, ?_⟩
    (.cons ⟨c!"\n", rfl, by simp, ?_⟩ .nil))) <;>
  · intro c hc
    cases hc
    decide

theorem mg_same : ∀ o ∈ [longData 3, longData 4, longData 5, longData 6],
    o.natom = (longData 4).natom ∧ o.points.length = (longData 4).points.length := by
  intro o ho
  simp only [List.mem_cons, List.not_mem_nil, or_false] at ho
  rcases ho with rfl | rfl | rfl | rfl <;> exact ⟨rfl, rfl⟩

theorem plain_mg : Phonon.Spec.Plain c!"magnesium" := ⟨⟨_, _, rfl, by decide⟩, by decide, by decide, by decide⟩

theorem mg_weights : ((longData 4).points.map fun p => p.weight).sum ≠ 0 := by
  norm_num [longData]

/-- `C149_harmonic_partial` applies: the zero point energy of each calculation is that of three oscillators of 5, 6 and 7 THz with
the weight 7/8, up to the decimals of the input. -/
example : ∃ s text doc, inpgen (phonopyFiles codata mgFolder) ⟨[]⟩ c!"files" c!"mg" true 1 c!"phonopy" c!"magnesium" =
      (s, .written c!"mg.yaml" text) ∧ Denotes text doc ∧
    ∃ res : HA.Results 1 4, harmonic codata ⟨c!"eV", c!"cm^-1", c!"C", fun _ => 25⟩ (.tree doc) = .ok (.ok ⟨4, res⟩) ∧
      ∃ pts, Sampled codata (longData 4) (longData 6) pts ∧
        codata.eV * res.Uzp 0 3 = cellMean (Spec.zeroPoint codata) (100 * codata.c) pts := by
  obtain ⟨s, text, doc, h1, h2, -, ⟨nv, res⟩, h3, h4, h5⟩ := C149_harmonic_partial (nt := 1) (k := codata) rfl (d := mgFolder)
    (filename := c!"files") (.inr ⟨rfl, _, rfl, mg_listed⟩) mg_files (ref := 1) rfl (by decide) mg_same plain_mg c!"mg"
    mg_weights (t := c!"C") (by simp) means_celsius (fun _ => 25)
  simp only [List.length_cons, List.length_nil] at h4
  subst h4
  refine ⟨s, text, doc, h1, h2, res, h3, ?_⟩
  obtain ⟨pts, p1, p2⟩ := h5 0 3 (longData 6) (by norm_num [Scale.toRef]) rfl
  exact ⟨pts, p1, p2.zeroPoint⟩

/-- The frequencies of the input are those of the calculation up to 1.5 hertz. -/
example {pts : List (ℚ × List ℚ)} (h : Sampled codata (longData 4) (longData 6) pts) :
    ∃ a b c x y z : ℚ, pts = [(1, [a, b, c]), (7, [x, y, z])] ∧ |100 * codata.c * x - 10 ^ 12 * 5| ≤ 1.5 := by
  simp only [Spec.Sampled, longData, List.zip_cons_cons, List.zip_nil_right, List.forall₂_cons_right_iff,
    List.forall₂_nil_right_iff] at h
  obtain ⟨⟨w, l⟩, _, ⟨hw, a, _, -, ⟨b, _, -, ⟨c, _, -, rfl, rfl⟩, rfl⟩, hl⟩, ⟨⟨w', l'⟩, _, ⟨hw', x, _, hx, ⟨y, _, -, ⟨z, _, -, rfl, rfl⟩,
    rfl⟩, hl'⟩, rfl, rfl⟩, rfl⟩ := h
  simp only at hw hw' hl hl'
  subst hw hw' hl hl'
  refine ⟨a, b, c, x, y, z, rfl, ?_⟩
  norm_num [codata] at hx ⊢
  exact hx.trans (by norm_num)

/-- `C149_default_violated` applies: with the default units the free energy is wrong by more than 39 eV. -/
example : ∃ s text doc, inpgen (phonopyFiles codata mgFolder) ⟨[]⟩ c!"a.yaml" c!"mg" false 0 c!"phonopy" c!"magnesium" =
      (s, .written c!"mg.yaml" text) ∧ Denotes text doc ∧
    ∃ res : HA.Results 1 1, harmonic codata ⟨c!"Ha", c!"cm^-1", c!"K", fun _ => 300⟩ (.tree doc) = .ok (.ok ⟨1, res⟩) ∧
      ∃ pts, Sampled codata (longData 3) (longData 3) pts ∧
        39 * codata.eV <
          |codata.Ha * res.F 0 0 - (codata.eV * (-3 / 2) + cellMean (Spec.free codata 300) (100 * codata.c) pts)| := by
  obtain ⟨s, text, doc, h1, h2, -, ⟨nv, res⟩, h3, h4, h5⟩ := C149_default_violated (nt := 1) (d := mgFolder)
    (filename := c!"a.yaml") (isList := false) (.inl ⟨rfl, rfl⟩) (.cons (longData_ok (a := 3) rfl rfl rfl) .nil) (ref := 0) rfl
    (by decide) (by simp) plain_mg c!"mg" (by norm_num [longData]) (fun _ => 300) rfl
  simp only [List.length_cons, List.length_nil] at h4
  subst h4
  refine ⟨s, text, doc, h1, h2, res, h3, ?_⟩
  obtain ⟨pts, p1, p2⟩ := h5 0 0 (longData 3) (by norm_num) rfl (by norm_num [longData])
  refine ⟨pts, p1, ?_⟩
  have e : ((longData 3).energy : ℝ) = -3 / 2 := by norm_num [longData]
  rw [e] at p2
  refine lt_of_le_of_lt (le_of_eq ?_) p2
  rw [abs_of_neg (by norm_num)]
  ring

/-- Settings in electronvolt at 300 K, with polynomials. -/
def voltSettings : QHA.Settings 1 1 :=
  { scheme := .freq, minimization := .poly, eos := c!"BM", edeg := 3, fdeg := 3,
    eunit := c!"eV", vunit := c!"A", funit := c!"cm^-1", tunit := c!"K", punit := c!"GPa",
    kieffer := false, temperature := fun _ => 300, pressure := fun _ => 0 }

/-- `C149_quasi_partial` applies to the list of the four calculations. -/
example (ext : QHA.Ext) (hext : Numerics ext) := C149_quasi_partial (k := codata) rfl hext (d := mgFolder)
  (filename := c!"files") rfl mg_listed mg_files (ref := 1) rfl (by decide) mg_same (by decide) plain_mg c!"mg" mg_weights
  (s := voltSettings) (p := .GPa) (t := .K) ⟨rfl, rfl, rfl, rfl, rfl⟩ rfl rfl

end Verif.Chain
