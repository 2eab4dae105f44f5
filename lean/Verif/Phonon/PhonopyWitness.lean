/-
Concrete files that meet the hypotheses of C83.
-/
import Verif.Phonon.PhonopyProps

namespace Verif.Phonon
open Verif.Py Verif.IO Verif.IO.Spec Verif.Interfaces Verif.Units Spec

/-- A vector of floats. -/
def vec3 (v : Fin 3 → ℚ) : Node := .list [.float (v 0), .float (v 1), .float (v 2)]

/-- A matrix of floats. -/
def mat3 (M : Matrix (Fin 3) (Fin 3) ℚ) : Node := .list [vec3 (M 0), vec3 (M 1), vec3 (M 2)]

theorem isVector_vec3 (v : Fin 3 → ℚ) : IsVector (vec3 v) v :=
  ⟨_, _, _, rfl, .inl rfl, .inl rfl, .inl rfl⟩

theorem isMatrix_mat3 (M : Matrix (Fin 3) (Fin 3) ℚ) : IsMatrix (mat3 M) M :=
  ⟨_, _, _, rfl, isVector_vec3 _, isVector_vec3 _, isVector_vec3 _⟩

/-- An atom. -/
def atomNode (s : Str) (v : Fin 3 → ℚ) : Node :=
  .map [(c!"symbol", .str s), (c!"coordinates", vec3 v), (c!"mass", .float 24)]

/-- A q-point with frequencies in THz. -/
def pointNode (v : Fin 3 → ℚ) (w : ℤ) (fs : List ℚ) : Node :=
  .map [(c!"q-position", vec3 v), (c!"weight", .int w),
    (c!"band", .list (fs.map fun f => .map [(c!"frequency", .float f)]))]

theorem pointNode_given (v : Fin 3 → ℚ) (w : ℤ) (fs : List ℚ) :
    PPointGiven (pointNode v w fs) ⟨v, w, fs⟩ := by
  refine ⟨⟨_, entry_of (by simp) (by simp), isVector_vec3 v⟩,
    ⟨.int w, entry_of (by simp) (by simp), .inr ⟨w, rfl, rfl⟩⟩,
    fs.map (fun f => .map [(c!"frequency", .float f)]), entry_of (by simp) (by simp), ?_⟩
  rw [List.forall₂_map_left_iff, List.forall₂_same]
  exact fun f _ => ⟨.float f, entry_of (by simp) (by simp), .inl rfl⟩

/-- The cell of magnesium. -/
def cubic : Matrix (Fin 3) (Fin 3) ℚ := Matrix.of ![![3, 0, 0], ![0, 3, 0], ![0, 0, 3]]

/-- A phonopy output with one atom of magnesium at (1/2, 1/2, 1/2). -/
def sampleOutput : Node := .map [
  (c!"nqpoint", .int 2), (c!"natom", .int 1), (c!"lattice", mat3 cubic),
  (c!"points", .list [atomNode c!"Mg" fun _ => 1 / 2]),
  (c!"phonon", .list [pointNode 0 1 [0, 0, 0], pointNode (fun _ => 1 / 2) 7 [5, 6, 7]])]

/-- Its displacement file. -/
def sampleDisp : Node := .map [
  (c!"supercell_matrix", mat3 1),
  (c!"supercell", .map [(c!"lattice", mat3 cubic), (c!"points", .list [atomNode c!"Mg" fun _ => 1 / 2])])]

theorem atomNode_given {s : Str} {z : ℕ} (v : Fin 3 → ℚ) (h : Chemistry.Spec.Known s z) :
    AtomGiven (atomNode s v) (z, v) :=
  ⟨⟨s, entry_of (by simp) (by simp), h⟩, vec3 v, entry_of (by simp) (by simp),
    isVector_vec3 v⟩

theorem known_Mg : Chemistry.Spec.Known c!"Mg" 12 := .inl (by decide +kernel)

theorem sampleOutput_ok : PhonopyOutput sampleOutput [(12, fun _ => 1 / 2)] cubic
    [⟨0, 1, [0, 0, 0]⟩, ⟨fun _ => 1 / 2, 7, [5, 6, 7]⟩] where
  natom := entry_of (by simp) (by simp)
  nqpoint := entry_of (by simp) (by simp)
  cell := ⟨_, entry_of (by simp) (by simp), isMatrix_mat3 _⟩
  sites := ⟨[atomNode c!"Mg" fun _ => 1 / 2], entry_of (by simp) (by simp),
    .cons (atomNode_given _ known_Mg) .nil⟩
  phonon := ⟨[pointNode 0 1 [0, 0, 0], pointNode (fun _ => 1 / 2) 7 [5, 6, 7]],
    entry_of (by simp) (by simp),
    .cons (by simpa using pointNode_given 0 1 [0, 0, 0])
      (.cons (by simpa using pointNode_given (fun _ => 1 / 2) 7 [5, 6, 7]) .nil)⟩
  bands := by simp

theorem sampleDisp_ok : Displacements sampleDisp 1 [(12, fun _ => 1 / 2)] cubic where
  matrix := ⟨_, entry_of (by simp) (by simp), isMatrix_mat3 _⟩
  cell := ⟨_, entry_of (by simp; rfl) (by simp),
    ⟨_, entry_of (by simp) (by simp), isMatrix_mat3 _⟩,
    [atomNode c!"Mg" fun _ => 1 / 2], entry_of (by simp) (by simp),
    .cons (atomNode_given _ known_Mg) .nil⟩

/-- The energies of two ionic steps. -/
theorem sampleEnergy : EnergyOf (some [(c!"e_fr_energy", c!"-1.7"), (c!"e_wo_entrp", c!"-1.6"),
    (c!"e_wo_entrp", c!"-1.5"), (c!"e_0_energy", c!"-1.4")]) (-3 / 2) := by
  refine .inr ⟨_, rfl, .inl ⟨[(c!"e_fr_energy", c!"-1.7"), (c!"e_wo_entrp", c!"-1.6")], c!"-1.5",
    [(c!"e_0_energy", c!"-1.4")], rfl, ?_, by decide, ?_⟩⟩
  · exact parseFloat_token (t := c!"-1.5") (by unfold IsToken; decide) (by decide +kernel)
  · intro p hp hn
    have : p = (c!"e_wo_entrp", c!"-1.6") := by
      simp only [List.mem_cons, List.not_mem_nil, or_false] at hp
      rcases hp with rfl | rfl
      · exact absurd hn (by decide)
      · rfl
    subst this
    exact ⟨-8 / 5, parseFloat_token (t := c!"-1.6") (by unfold IsToken; decide) (by decide +kernel)⟩

/-- The volume, the energy and the wavenumbers of the sample; the position of the atom is lost. -/
example (k : Consts) : ∃ r, phonopyLoad k ⟨some (.tree sampleDisp), some [(c!"e_fr_energy", c!"-1.7"),
      (c!"e_wo_entrp", c!"-1.6"), (c!"e_wo_entrp", c!"-1.5"), (c!"e_0_energy", c!"-1.4")],
      some (.tree sampleOutput)⟩ = .ok r ∧ r.completed = true ∧ r.energy = -3 / 2 ∧
      r.volume = .ok cubic.det := by
  obtain ⟨r, h, h1, _, h2, _, h3, _⟩ := C83_read_partial k sampleOutput_ok sampleDisp_ok sampleEnergy
  exact ⟨r, h, h1, h2, h3⟩

example : ∃ c, setUnitCell sampleOutput = .ok c ∧ c.positions = [[0, 0, 0]] := by
  obtain ⟨c, hc⟩ : ∃ c, setUnitCell sampleOutput = .ok c := by
    obtain ⟨r, h, _⟩ := C83_read_partial codata sampleOutput_ok sampleDisp_ok sampleEnergy
    cases hc : setUnitCell sampleOutput with
    | ok c => exact ⟨c, rfl⟩
    | error e => simp [phonopyLoad, vaspEnergy_of sampleEnergy, loadYaml, Except.bind, hc] at h
  exact ⟨c, hc, by
    simpa using C83_coordinates_violated sampleOutput_ok hc (by
      intro a ha i
      simp only [List.mem_singleton] at ha
      subst ha
      norm_num)⟩

end Verif.Phonon
