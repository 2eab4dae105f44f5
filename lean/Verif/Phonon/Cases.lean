/-
The theorems about the phonon input files applied to concrete files.
-/
import Verif.Phonon.GeneratorProps
import Verif.Phonon.PhonopyWitness

namespace Verif.Phonon.Cases
open Verif.Py Verif.IO Verif.IO.Spec Verif.Interfaces Verif.Units Spec

/-! ### The generator -/

theorem both : Calculations Witness.files .crystal [c!"a.out", c!"b.out"] [Witness.calc 10 (-5) 100, Witness.calc 11 (-6) 90] :=
  .cons ⟨by decide, by simp [Witness.files]⟩ (.cons ⟨by decide, by simp [Witness.files]⟩ .nil)

theorem first : Calculations Witness.files .crystal [c!"a.out"] [Witness.calc 10 (-5) 100] :=
  .cons ⟨by decide, by simp [Witness.files]⟩ .nil

theorem second : Calculations Witness.files .crystal [c!"b.out"] [Witness.calc 11 (-6) 90] :=
  .cons ⟨by decide, by simp [Witness.files]⟩ .nil

theorem listed : Requested Witness.files c!"list" true [c!"a.out", c!"b.out"] := by
  refine .inr ⟨rfl, ?_⟩
  refine .cons ⟨['\n'], rfl, by simp, ?_⟩ (.cons ⟨['\n'], rfl, by simp, ?_⟩ .nil) <;>
      (intro c hc; obtain rfl := Option.some.inj hc; decide)

theorem flag : OnePerFile c!"crystal" .crystal := .inl ⟨rfl, rfl⟩

/-- A directory where a listed output is missing, one cannot be read, and one is a quasi-harmonic output. -/
def lossy : Files Str :=
  { Witness.files with
    lines := fun f => if f = c!"broken" then [c!"a.out\n", c!"list\n"] else [c!"a.out\n", c!"gone.out\n"],
    qha := fun _ => .ok (.done Witness.qha) }

theorem lossy_first : Calculations lossy .crystal [c!"a.out"] [Witness.calc 10 (-5) 100] :=
  .cons ⟨by decide, by simp [lossy, Witness.files]⟩ .nil

theorem lossy_second : Calculations lossy .crystal [c!"b.out"] [Witness.calc 11 (-6) 90] :=
  .cons ⟨by decide, by simp [lossy, Witness.files]⟩ .nil

theorem lossy_listed : Requested lossy c!"list" true ([c!"a.out"] ++ c!"gone.out" :: []) := by
  refine .inr ⟨rfl, ?_⟩
  refine .cons ⟨['\n'], rfl, by simp, ?_⟩ (.cons ⟨['\n'], rfl, by simp, ?_⟩ .nil) <;>
      (intro c hc; obtain rfl := Option.some.inj hc; decide)

theorem lossy_broken : Requested lossy c!"broken" true ([c!"a.out"] ++ c!"list" :: []) := by
  refine .inr ⟨rfl, ?_⟩
  refine .cons ⟨['\n'], rfl, by simp, ?_⟩ (.cons ⟨['\n'], rfl, by simp, ?_⟩ .nil) <;>
      (intro c hc; obtain rfl := Option.some.inj hc; decide)

theorem test_plain : Plain c!"test" := ⟨⟨_, _, rfl, by decide⟩, by decide, by decide, by decide⟩

variable (s : State) (ref : ℤ)

example := C53_missing flag lossy_listed lossy_first (by decide) s c!"out" ref c!"test"
example := C53_unreadable flag lossy_broken lossy_first (by decide) (e := c!"not an output") rfl s c!"out" ref
  c!"test"
example := C53_refused_violated flag flag lossy_listed (.inl ⟨rfl, rfl⟩) (by simp) lossy_first (by decide) lossy_second
  (k := 0) rfl (Witness.provides 10 (-5) 100 11 (-6) 90) (Witness.complete _ _ _ _ _ _) test_plain c!"one" c!"two" 0 c!"test"
example := C53_quasi_harmonic (fs := lossy) (filename := c!"a.out") (by decide) rfl Witness.provides_qha
  (Witness.complete _ _ _ _ _ _) test_plain s c!"out" ref
example := C84_too_large flag listed both (ref := 3) (by decide) c!"test" c!"out"
example := C84_boundary_violated flag listed both c!"test" c!"out"
example := C84_negative_violated flag listed both c!"test" c!"out"
example := C85_description_violated (k := 0) rfl (Witness.provides 10 (-5) 100 11 (-6) 90) (Witness.complete _ _ _ _ _ _)
  (job := c!"2024") (.inr ⟨2024, by decide +kernel⟩)
example := C85_multiple (k := 0) rfl (Witness.provides 10 (-5) 100 11 (-6) 90) (Witness.complete _ _ _ _ _ _) test_plain
example := C85_single Witness.provides_qha (Witness.complete _ _ _ _ _ _) test_plain

/-- What the generator wrote is read back. -/
example : ∃ (doc : Node) (r : Reader), Reader.load {} (.tree doc) = .ok r ∧ r.jobname = .ok c!"test" ∧ r.natoms = .ok 1 := by
  obtain ⟨_, doc, -, -, h⟩ := C85_multiple (k := 0) rfl (Witness.provides 10 (-5) 100 11 (-6) 90)
    (Witness.complete _ _ _ _ _ _) test_plain
  obtain ⟨r, h1, -, -, h2, h3, -⟩ := C85_read (Witness.complete _ _ _ _ _ _) h
  exact ⟨doc, r, h1, h2, h3⟩

/-! ### The reader -/

/-- Without volumes, without energies, without phonons. -/
example := C52_lacking (doc := .map [(c!"energy", numbers [1])]) .volume (.inl ⟨rfl, _, rfl, by simp⟩)
example := C52_lacking (doc := .map [(c!"volume", numbers [75])]) .energy
  (.inr (.inl ⟨rfl, ⟨_, entry_of (by simp; rfl) (by decide)⟩, _, rfl, by simp⟩))
example := C52_lacking (doc := .map [(c!"volume", numbers [75]), (c!"energy", numbers [1])]) .phonon
  (.inr (.inr ⟨rfl, ⟨numbers [75], entry_of (by simp) (by decide)⟩, ⟨numbers [1], entry_of (by simp) (by decide)⟩,
    _, rfl, by simp⟩))

example := C52_text_violated (s := c!"see volume 3 for energy and phonon data") (by decide +kernel) (by decide +kernel)
  (by decide +kernel)

/-- A reader that has read a complete input. -/
noncomputable def used : Reader := Classical.choose (C52_complete oneAtom_complete)

theorem used_completed : used.completed = true := (Classical.choose_spec (C52_complete oneAtom_complete)).2.1
theorem used_frequencies : used.frequencies = .ok [[[some 10, some 11], [some 20, some 21], [some 30, some 31]]] :=
  (Classical.choose_spec (C52_complete oneAtom_complete)).2.2.2.2.2.2.2.2.1
theorem used_weights : used.weights = .ok (([1] : List ℚ).map some) :=
  (Classical.choose_spec (C52_complete oneAtom_complete)).2.2.2.2.2.2.2.2.2

example := C52_reused_violated (r := used) used_completed (doc := .map [(c!"energy", numbers [1])]) ⟨_, rfl, by simp⟩
example := C52_single_volume (r := { data := .map [(c!"volume", .float 75)] }) (entry_of (by simp; rfl) (by decide))
  (.inl rfl)
example := C52_mandatory_violated (doc := .map [(c!"volume", numbers [75]), (c!"energy", numbers [1]), (c!"phonon", .list [])])
  (entry_of (by simp; rfl) (by decide)) (entry_of (by simp; rfl) (by decide)) (entry_of (by simp; rfl) (by decide))
  ⟨_, rfl, by simp⟩ ⟨_, rfl, by simp⟩

example := C52_total used_weights
example := C82_shape used_frequencies

/-- Two q-points where one is announced. -/
def more : Reader := { data := .map [(c!"qpoints", .int 1), (c!"phonon", .list [.map [(c!"weight", .int 1)],
  .map [(c!"weight", .int 1)]])] }
example := C82_more_points (r := more) (nq := 1) rfl (entry_of (by simp; rfl) (by decide)) (by decide)

/-- Three frequencies for two volumes. -/
def wrong : Reader := { data := oneAtom [band [10, 11], band [20, 21], band [30, 31, 32]] }
example := C82_wrong_number (r := wrong) (nv := 2) rfl
  (qs := [.map [(c!"weight", .int 1), (c!"band", .list [band [10, 11], band [20, 21], band [30, 31, 32]])]])
  (entry_of (by simp) (by decide)) (List.mem_singleton_self _) (bs := [band [10, 11], band [20, 21], band [30, 31, 32]])
  (entry_of (by simp) (by decide)) (b := band [30, 31, 32]) (by simp) (v := numbers [30, 31, 32])
  (entry_of (by simp) (by decide)) (givesList_numbers _) (by decide) (by decide)

/-- No q-points where one is announced. -/
def none_ : Reader := { data := .map [(c!"natom", .int 1), (c!"qpoints", .int 1), (c!"volume", numbers [75, 74]),
  (c!"phonon", .list [])] }
example := C82_missing_points_violated (r := none_) (nq := 1) (na := 1) (nv := 2) rfl rfl rfl
  (entry_of (by simp) (by decide))

example := C82_no_brackets_violated (r := { data := .map [(c!"volume", .str c!"75.0 74.0")] }) (d := '7')
  (s := c!"5.0 74.0") (by decide) (by decide +kernel) (entry_of (by simp) (by decide))

/-! ### phonopy -/

example (k : Consts) := C83_not_yaml_violated k (.tree sampleDisp) sampleEnergy

/-- Two q-points are announced, one is given. -/
example (k : Consts) (r : Phonopy) := C83_incomplete k (nq := 2) (na := 1) (pl := [pointNode 0 1 [0, 0, 0]])
  (idata := .map [(c!"natom", .int 1), (c!"nqpoint", .int 2), (c!"phonon", .list [pointNode 0 1 [0, 0, 0]])])
  (entry_of (by simp) (by decide)) (entry_of (by simp) (by decide)) (entry_of (by simp) (by decide)) (.inl (by decide)) r

end Verif.Phonon.Cases
