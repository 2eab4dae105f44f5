/-
A concrete output that meets the hypotheses of C155.
-/
import Verif.Chain.QuasiTableProps
import Verif.Chain.QuasiCases
import Verif.Chain.TableCases

noncomputable section

namespace Verif.Chain
open Verif.Py Verif.IO Verif.IO.Spec Verif.Interfaces Verif.Interfaces.Spec Verif.Phonon Verif.Phonon.Spec Verif.Units
  Verif.Units.Spec Verif.QHA.Spec Spec
open Verif.Export (QhaRun)

/-- Every result can be held by a file, with any relative error. -/
theorem holds_quasi_exists {nt np : ℕ} {ε : ℝ} (hε : 0 < ε) (T : Fin nt → ℝ) (P : Fin np → ℝ) (res : QHA.Results nt np) :
    ∃ r, HoldsQuasi ε r T P res := by
  choose q hq using fun y => near_rat hε y
  let z (g : Fin nt → Fin np → ℝ) (i j : ℕ) : ℚ := if h : i < nt ∧ j < np then q (g ⟨i, h.1⟩ ⟨j, h.2⟩) else 0
  let m (g : Fin nt → Fin np → ℝ) : Export.Values := .mat ((List.range nt).map fun i => (List.range np).map (z g i))
  refine ⟨⟨(List.finRange nt).map fun i => q (T i), (List.finRange np).map fun j => q (P j), fun p =>
    (((reported res).find? fun x => x.1 = p).map fun x => m x.2).getD (.mat [])⟩, ?_, ?_, ?_, ?_, ?_⟩
  · simp
  · intro i p hp
    rw [List.getElem?_map, List.getElem?_eq_getElem (by simp)] at hp
    simp only [List.getElem_finRange, Option.map_some, Option.some.injEq] at hp
    rw [← hp]
    exact hq _
  · simp
  · intro i p hp
    rw [List.getElem?_map, List.getElem?_eq_getElem (by simp)] at hp
    simp only [List.getElem_finRange, Option.map_some, Option.some.injEq] at hp
    rw [← hp]
    exact hq _
  · intro x hx
    refine ⟨z x.2, ?_, fun i v => ?_⟩
    · simp only [reported, List.mem_cons, List.not_mem_nil, or_false] at hx
      rcases hx with rfl | rfl | rfl | rfl | rfl | rfl | rfl | rfl | rfl | rfl | rfl | rfl | rfl | rfl | rfl | rfl | rfl <;> rfl
    · simp only [z, i.2, v.2, and_self, dif_pos]
      exact hq _

/-- `C155_quasi_harmonic` and `C155_export` apply: the free energies of the output with the volumes 50, 100, 125 and 150 have
equilibrium volumes, the run is saved with eleven correct digits, and the table of the volumes has the line of 300 K, the column
of no pressure and there an equilibrium volume. -/
example (st : Phonon.State) : ∃ (ext : QHA.Ext) (text : Str) (doc : Node) (r : QHA.Results 1 1) (run : QhaRun) (V : ℝ),
    Numerics ext ∧ inpgen (quasiFiles quasiDisk) st c!"qha.out" c!"q" false 0 c!"crystal-qha" c!"oxide" =
      (st, .written c!"q.yaml" text) ∧ Denotes text doc ∧
    quasiHarmonic codata ext quasiSettings (.tree doc) = .ok (.ok r) ∧ HoldsQuasi (1 / 10 ^ 11) run (fun _ => 300) (fun _ => 0) r ∧
    ∃ c : Fin 4 → ℝ, Equilibrium codata ⟨.Ha, .A, .GPa, .K, .cm⟩ c 0 V ∧ Minimal codata ⟨.Ha, .A, .GPa, .K, .cm⟩ c 0 V ∧
    ∃ e table, Export.Generic.readInput c!"q.hdf5" (qhaFile c!"oxide" quasiSettings run) = .ok (none, e) ∧
      Export.Generic.Spec.Saves e (qhaFile c!"oxide" quasiSettings run) c!"VT" table ∧
      ∃ t p x : ℚ, Shows table 0 0 t x ∧ Heads table 0 p ∧ |(t : ℝ) - 300| ≤ 1 / 100 ∧ |(p : ℝ)| ≤ 1 / 10 ^ 8 ∧
        |(x : ℝ) - V| ≤ 1 / 10 ^ 11 * |V| + 1 / 10 ^ 8 := by
  obtain ⟨ext, hext⟩ := QHA.numerics_exists
  obtain ⟨text₀, doc₀, r₀, a1, a2, a3, -, -⟩ := quasi_run st hext
  obtain ⟨text₁, doc₁, b1, b2, b3, -, -⟩ := C148_quasi_harmonic (k := codata) hext (disk := quasiDisk)
    (filename := c!"qha.out") rfl quasi_output (by decide) (by decide) (job := c!"oxide")
    ⟨⟨_, _, rfl, by decide⟩, by decide, by decide, by decide⟩ st c!"q" 0 (s := quasiSettings) (u := ⟨.Ha, .A, .GPa, .K, .cm⟩)
    ⟨rfl, rfl, rfl, rfl, rfl⟩ rfl rfl
  obtain ⟨text, doc, h1, h2, ⟨nv, ha⟩, -, X, c, -, -, h3, h4⟩ := C155_quasi_harmonic (k := codata) hext (disk := quasiDisk)
    (filename := c!"qha.out") rfl quasi_output (by decide) (by decide) (job := c!"oxide")
    ⟨⟨_, _, rfl, by decide⟩, by decide, by decide, by decide⟩ st c!"q" 0 (s := quasiSettings) (u := ⟨.Ha, .A, .GPa, .K, .cm⟩)
    ⟨rfl, rfl, rfl, rfl, rfl⟩ rfl rfl (by decide)
  have e1 : text₀ = text := by
    have := a1.symm.trans h1
    simpa using this
  have e2 : text₁ = text := by
    have := b1.symm.trans h1
    simpa using this
  subst e1 e2
  have e3 : doc₀ = doc := (b3 _ a2).trans (b3 _ h2).symm
  subst e3
  obtain ⟨r, r1, V, r2, r3⟩ := h4 (by
    by_contra hc
    have := h3 hc
    rw [a3] at this
    cases this)
  obtain ⟨run, hrun⟩ := holds_quasi_exists (ε := 1 / 10 ^ 11) (by norm_num) quasiSettings.temperature quasiSettings.pressure r
  obtain ⟨e, e1, ⟨table, t1, t2⟩, -⟩ := r3 _ run (by norm_num) hrun c!"q.hdf5"
  obtain ⟨t, p, x, k1, k2, k3, k4, k5⟩ := t2 0 0
  refine ⟨ext, _, _, r, run, V 0 0, hext, h1, h2, r1, hrun, c 0, (r2 0 0).1, (r2 0 0).2, e, table, e1, t1, t, p, x, k1, k2,
    k3.trans ?_, ?_, k5.trans ?_⟩
  · norm_num [quasiSettings]
  · have : quasiSettings.pressure 0 = 0 := rfl
    rw [this] at k4
    simp only [sub_zero, abs_zero, mul_zero, add_zero] at k4
    exact k4.trans (by norm_num)
  · rw [printing, if_pos (by simp)]
    norm_num

/-- A list of four outputs of the zone centre. -/
def fourDisk (name : Str) : Option Str := if name = c!"four" then some c!"a.out\nb.out\na.out\nb.out\n" else mgoDisk name

/-- `C155_crystal` applies to it. -/
example (ext : QHA.Ext) (hext : Numerics ext) := C155_crystal codata hext (disk := fourDisk) (filename := c!"four")
  (files := [c!"a.out", c!"b.out", c!"a.out", c!"b.out"]) (ref := 0) (n := 2) rfl
  (os := [⟨2, mgoLattice.det, -275.25, [0, 0, 0, 405.75, 405.75, 405.75]⟩,
    ⟨2, mgoLattice.det, -275.25, [0, 0, 0, 398.25, 398.25, 398.25]⟩,
    ⟨2, mgoLattice.det, -275.25, [0, 0, 0, 405.75, 405.75, 405.75]⟩,
    ⟨2, mgoLattice.det, -275.25, [0, 0, 0, 398.25, 398.25, 398.25]⟩])
  (.cons ⟨['\n'], rfl, by simp, fun c hc => by obtain rfl := Option.some.inj hc; decide⟩
    (.cons ⟨['\n'], rfl, by simp, fun c hc => by obtain rfl := Option.some.inj hc; decide⟩
      (.cons ⟨['\n'], rfl, by simp, fun c hc => by obtain rfl := Option.some.inj hc; decide⟩
        (.cons ⟨['\n'], rfl, by simp, fun c hc => by obtain rfl := Option.some.inj hc; decide⟩ .nil))))
  (.cons ⟨_, rfl, mgo_output⟩ (.cons ⟨_, rfl, soft_output⟩ (.cons ⟨_, rfl, mgo_output⟩ (.cons ⟨_, rfl, soft_output⟩ .nil))))
  (by decide) (by simp) (by simp) (by simp) (job := c!"periclase") ⟨⟨_, _, rfl, by decide⟩, by decide, by decide, by decide⟩
  c!"mgo" (s := quasiSettings) (u := ⟨.Ha, .A, .GPa, .K, .cm⟩) ⟨rfl, rfl, rfl, rfl, rfl⟩ rfl rfl (by decide)

/-- A list of four outputs with the dispersion of the phonons. -/
def fourDispersions (name : Str) : Option Str :=
  if name = c!"four" then some c!"disp.out\ndisp.out\ndisp.out\ndisp.out\n" else dispDisk name

/-- `C155_dispersion` applies to it. -/
example (ext : QHA.Ext) (hext : Numerics ext) := C155_dispersion codata hext (disk := fourDispersions) (filename := c!"four")
  (files := [c!"disp.out", c!"disp.out", c!"disp.out", c!"disp.out"]) (ref := 0) rfl
  (os := [dispData, dispData, dispData, dispData])
  (.cons ⟨['\n'], rfl, by simp, fun c hc => by obtain rfl := Option.some.inj hc; decide⟩
    (.cons ⟨['\n'], rfl, by simp, fun c hc => by obtain rfl := Option.some.inj hc; decide⟩
      (.cons ⟨['\n'], rfl, by simp, fun c hc => by obtain rfl := Option.some.inj hc; decide⟩
        (.cons ⟨['\n'], rfl, by simp, fun c hc => by obtain rfl := Option.some.inj hc; decide⟩ .nil))))
  (.cons ⟨_, rfl, dispersion_output⟩ (.cons ⟨_, rfl, dispersion_output⟩ (.cons ⟨_, rfl, dispersion_output⟩
    (.cons ⟨_, rfl, dispersion_output⟩ .nil))))
  (r := dispData) rfl (by decide) (by simp) (by decide) (job := c!"periclase")
  ⟨⟨_, _, rfl, by decide⟩, by decide, by decide, by decide⟩ c!"disp" (by decide) (s := quasiSettings)
  (u := ⟨.Ha, .A, .GPa, .K, .cm⟩) ⟨rfl, rfl, rfl, rfl, rfl⟩ rfl rfl (by decide)

/-- `C155_phonopy_partial` applies to the list of four calculations. -/
example (ext : QHA.Ext) (hext : Numerics ext) := C155_phonopy_partial (k := codata) rfl hext (d := mgFolder)
  (filename := c!"files") rfl mg_listed mg_files (ref := 1) rfl (by decide) mg_same (by decide) plain_mg c!"mg" mg_weights
  (s := voltSettings) (p := .GPa) (t := .K) ⟨rfl, rfl, rfl, rfl, rfl⟩ rfl rfl (by decide)

end Verif.Chain
