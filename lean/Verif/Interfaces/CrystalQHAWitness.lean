/-
Concrete CRYSTAL quasi-harmonic outputs (shortened) meeting the hypotheses of the theorems, and the
violation of C60.
-/
import Verif.Interfaces.CrystalQHAProps
import Verif.Interfaces.CrystalWitness

noncomputable section

namespace Verif.Interfaces
open Verif.Py Verif.IO Verif.IO.Spec Spec

/-! ### Facts by computation -/

theorem positions_of {ls : List Str} {ks : List ℕ} {P : Str → Bool}
    (h : (List.range ls.length).filter (fun k => (ls[k]?.map P).getD false) = ks) (k : ℕ) :
    k ∈ ks ↔ ∃ l, ls[k]? = some l ∧ P l = true := by
  rw [← h]
  simp only [List.mem_filter, List.mem_range]
  constructor
  · rintro ⟨a, b⟩
    rw [List.getElem?_eq_getElem a] at b ⊢
    exact ⟨_, rfl, by simpa using b⟩
  · rintro ⟨l, a, b⟩
    refine ⟨(List.getElem?_eq_some_iff.1 a).1, ?_⟩
    rw [a]
    simpa using b

theorem plain_at {ls : List Str} (h : ls.all plainLine = true) {i : ℕ} {l : Str} (hl : ls[i]? = some l) :
    plainLine l = true := List.all_eq_true.1 h l (List.mem_of_getElem? hl)

theorem geometryAt_of {ls : List Str} (hp : ls.all plainLine = true) {g p : ℕ}
    {atoms : List (ℤ × (Fin 3 → ℚ))} {M : Matrix (Fin 3) (Fin 3) ℚ}
    (h1 : ls[g + 8]?.bind (fun l => (words l).getLast?.bind parseInt) = some (atoms.length : ℤ))
    (h2 : ∀ i < atoms.length,
      ls[g + 11 + i]?.bind (fun l => (words l)[2]?.bind parseInt) = atoms[i]?.map (·.1) ∧
      ∀ j : Fin 3, ls[g + 11 + i]?.bind (fun l => (words l)[4 + (j : ℕ)]?.bind parseFloat) =
        atoms[i]?.map (fun a => a.2 j))
    (h3 : startLine latticeVectors (ls.drop (g + 11 + atoms.length)) = some p)
    (h4 : ∀ i : Fin 3, ls[g + 11 + atoms.length + p + 2 + (i : ℕ)]?.map
      (fun l => (words l).map parseFloat) = some ((List.ofFn (M i)).map some)) :
    GeometryAt ls g atoms M := by
  refine ⟨?_, fun i a ha => ?_, p, first_of h3, fun i => ?_⟩
  · cases hl : ls[g + 8]? with
    | none => rw [hl] at h1; simp at h1
    | some l =>
      rw [hl] at h1
      exact ⟨l, rfl, endsWith_of (plain_at hp hl) (by simpa using h1)⟩
  · obtain ⟨a1, a2⟩ := h2 i (List.getElem?_eq_some_iff.1 ha).1
    rw [ha] at a1 a2
    cases hl : ls[g + 11 + i]? with
    | none => rw [hl] at a1; simp at a1
    | some l =>
      rw [hl] at a1 a2
      exact ⟨l, rfl, atomLine_of (plain_at hp hl) (by simpa using a1) fun j => by simpa using a2 j⟩
  · have := h4 i
    cases hl : ls[g + 11 + atoms.length + p + 2 + (i : ℕ)]? with
    | none => rw [hl] at this; simp at this
    | some l =>
      rw [hl] at this
      exact ⟨l, rfl, numbers_of (plainLine_iff (plain_at hp hl)) (by simpa using this)⟩

theorem volumesPrinted_of {ls : List Str} (hp : ls.all plainLine = true) {s : ℕ} {table : List (ℚ × ℚ)}
    (h1 : startLine qhaEv ls = some s)
    (h2 : ∀ i < table.length, ls[s + 4 + i]?.map (fun l => (words l).map parseFloat) =
      table[i]?.map (fun v => [some v.1, some v.2]))
    (h3 : (ls[s + 4 + table.length]?.map fun l => decide ((words l).length ≠ 2)) = some true) :
    VolumesPrinted ls table := by
  refine ⟨s, first_of h1, fun i v hv => ?_, ?_⟩
  · have := h2 i (List.getElem?_eq_some_iff.1 hv).1
    rw [hv] at this
    cases hl : ls[s + 4 + i]? with
    | none => rw [hl] at this; simp at this
    | some l =>
      rw [hl] at this
      simp only [Option.map_some, Option.some.injEq] at this
      have hw := line_words (plain_at hp hl)
      have hT := words_tokens' hw
      generalize words l = ws at *
      have hlen : ws.length = 2 := by simpa using congrArg List.length this
      match ws, hlen with
      | [t0, t1], _ =>
        simp at this
        exact ⟨l, rfl, t0, t1, hw, parseFloat_token (hT _ (by simp)) this.1,
          parseFloat_token (hT _ (by simp)) this.2⟩
  · cases hl : ls[s + 4 + table.length]? with
    | none => rw [hl] at h3; simp at h3
    | some l =>
      rw [hl] at h3
      exact ⟨l, _, rfl, line_words (plain_at hp hl), by simpa using h3⟩

theorem frequenciesPrinted_of {ls : List Str} (hp : ls.all plainLine = true) {ks : List ℕ}
    {freqs : List (List ℚ)} (h1 : ks.length = freqs.length) (h2 : ks.Pairwise (· < ·))
    (h3 : (List.range ls.length).filter (fun k => (ls[k]?.map fun l =>
      hasSub qhaFreq l && ((words l)[0]? == some c!"FREQUENCY")).getD false) = ks)
    (h4 : ∀ i < freqs.length, ∀ j < (freqs.getD i []).length,
      ls[ks.getD i 0 + 3 + j]?.bind (fun l => (words l)[1]?.bind parseFloat) = (freqs.getD i [])[j]?) :
    FrequenciesPrinted ls freqs := by
  refine ⟨ks, h1, h2, fun k => ?_, fun i k row hk hr j q hq => ?_⟩
  · rw [positions_of h3 k]
    constructor
    · rintro ⟨l, a, b⟩
      simp only [Bool.and_eq_true, beq_iff_eq] at b
      exact ⟨l, a, hasSub_iff.1 b.1, first_words b.2⟩
    · rintro ⟨l, a, b, c⟩
      simp only [Bool.and_eq_true, beq_iff_eq]
      exact ⟨l, a, hasSub_iff.2 b, words_first (by unfold IsToken; decide) c⟩
  · have hrow : freqs.getD i [] = row := by rw [List.getD_eq_getElem?_getD, hr]; rfl
    have hkk : ks.getD i 0 = k := by rw [List.getD_eq_getElem?_getD, hk]; rfl
    have := h4 i (List.getElem?_eq_some_iff.1 hr).1 j (by rw [hrow]; exact (List.getElem?_eq_some_iff.1 hq).1)
    rw [hrow, hkk, hq] at this
    cases hl : ls[k + 3 + j]? with
    | none => rw [hl] at this; simp at this
    | some l =>
      rw [hl] at this
      obtain ⟨t, a, b⟩ := word_numeral (i := 1) (plain_at hp hl) (by simpa using this)
      have hw := line_words (plain_at hp hl)
      generalize words l = ws at *
      match ws, hw, a with
      | t0 :: t1 :: rest, hw, a =>
        simp at a
        subst a
        exact ⟨l, t0, t1, rest, rfl, hw, b⟩

/-! ### The outputs -/

/-- An optimised geometry with volume `v`. -/
def qhaCell (v : Str) : List Str :=
  [c!" FINAL OPTIMIZED GEOMETRY - DIMENSIONALITY OF THE SYSTEM      3",
    c!" (NON PERIODIC DIRECTION: LATTICE PARAMETER FORMALLY SET TO 500)",
    c!" ****", c!" LATTICE PARAMETERS", c!" PRIMITIVE CELL", c!" A B C", c!" 2.97 2.97 2.97", c!" ****",
    c!" ATOMS IN THE ASYMMETRIC UNIT    2 - ATOMS IN THE UNIT CELL:    2", c!" ATOM", c!" ****",
    c!"      1 T  12 MG    0.000000000000E+00  0.000000000000E+00  0.000000000000E+00",
    c!"      2 F   8 O     5.000000000000E-01 -5.000000000000E-01  0.000000000000E-00",
    c!" DIRECT LATTICE VECTORS CARTESIAN COMPONENTS (ANGSTROM)", c!" X Y Z",
    c!" " ++ v ++ c!" 0 0", c!"  0 1 0", c!"  0 0 1"]

/-- A frequency at four volumes. -/
def qhaBand (f : Str) : List Str :=
  [c!" FREQUENCY #  ", c!" ----", c!" VOLUME   FREQUENCY",
    c!" 1 " ++ f, c!" 2 " ++ f, c!" 3 " ++ f, c!" 4 " ++ f]

/-- An output with four cells. -/
def qhaFile (option : List Str) (cells table : List Str) : List Str :=
  [c!" QUASI-HARMONIC APPROXIMATION"] ++ option ++ (cells.map qhaCell).flatten ++
    [c!" SORTING VOLUMES/ENERGIES", c!"", c!"  VOLUME   ENERGY", c!" ----"] ++ table ++ [c!""] ++
    ([c!"0", c!"0", c!"0", c!"100.5", c!"200.5", c!"300"].map qhaBand).flatten

/-- The frequencies. -/
def qhaFreqs : List (List ℚ) :=
  [List.replicate 4 0, List.replicate 4 0, List.replicate 4 0, List.replicate 4 100.5,
    List.replicate 4 200.5, List.replicate 4 300]

/-- The atoms. -/
def qhaAtoms : List (ℤ × (Fin 3 → ℚ)) := [(12, ![0, 0, 0]), (8, ![1 / 2, -1 / 2, 0])]

/-- The lattice. -/
def qhaLattice (v : ℚ) : Matrix (Fin 3) (Fin 3) ℚ := !![v, 0, 0; 0, 1, 0; 0, 0, 1]

theorem qhaLattice_det (v : ℚ) : (qhaLattice v).det = v := by
  simp [qhaLattice, Matrix.det_fin_three]

theorem cellsPrinted_of {ls : List Str} (hp : ls.all plainLine = true) {ks : List ℕ} {vols : List ℚ}
    (h1 : ks.length = vols.length) (h2 : ks.Pairwise (· < ·))
    (h3 : (List.range ls.length).filter (fun k => (ls[k]?.map (hasSub qhaOpt)).getD false) = ks)
    (h4 : ∀ k ∈ ks, ls[k + 8]?.bind (fun l => (words l).getLast?.bind parseInt) = some 2 ∧
      (∀ i < 2, ls[k + 11 + i]?.bind (fun l => (words l)[2]?.bind parseInt) = qhaAtoms[i]?.map (·.1) ∧
        ∀ j : Fin 3, ls[k + 11 + i]?.bind (fun l => (words l)[4 + (j : ℕ)]?.bind parseFloat) =
          qhaAtoms[i]?.map (fun a => a.2 j)) ∧
      startLine latticeVectors (ls.drop (k + 13)) = some 0)
    (h5 : ∀ i < ks.length, ∀ j : Fin 3, ls[ks.getD i 0 + 15 + (j : ℕ)]?.map
      (fun l => (words l).map parseFloat) = some ((List.ofFn (qhaLattice (vols.getD i 0) j)).map some)) :
    CellsPrinted ls (vols.map fun v => (qhaAtoms, qhaLattice v)) := by
  refine ⟨ks, by simpa using h1, h2, fun k => ?_, fun i k c hk hc => ?_⟩
  · rw [positions_of h3 k]
    simp only [hasSub_iff, qhaOpt]
  · rw [List.getElem?_map, Option.map_eq_some_iff] at hc
    obtain ⟨v, hv, rfl⟩ := hc
    obtain ⟨a1, a2, a3⟩ := h4 k (List.mem_of_getElem? hk)
    have := h5 i (List.getElem?_eq_some_iff.1 hk).1
    have hkk : ks.getD i 0 = k := by rw [List.getD_eq_getElem?_getD, hk]; rfl
    have hvv : vols.getD i 0 = v := by rw [List.getD_eq_getElem?_getD, hv]; rfl
    rw [hkk, hvv] at this
    exact geometryAt_of hp a1 a2 a3 fun j => this j

/-- The order of the cells in the output. -/
def volsA : List ℚ := [300, 100, 200, 250]

/-- The table of volumes and energies. -/
def tableA : List (ℚ × ℚ) := [(100, -10.5), (200, -10.75), (250, -10.5), (300, -10)]

/-- The output of a unit cell. -/
def fileA : List Str := qhaFile [] [c!"300", c!"100", c!"200", c!"250"]
  [c!" 100  -10.5", c!" 200  -10.75", c!" 250  -10.5", c!" 300  -10"]

/-- The output of a supercell of two unit cells. -/
def fileB : List Str := qhaFile [c!" * SUPERCELL OPTION", c!" EXPANSION MATRIX OF PRIMITIVE CELL",
  c!" E1     1.000     1.000    0.000", c!" E2    -1.000     1.000    0.000",
  c!" E3     0.000     0.000    1.000"] [c!"300", c!"100", c!"200", c!"250"]
  [c!" 100  -10.5", c!" 200  -10.75", c!" 250  -10.5", c!" 300  -10"]

/-- Two volumes that differ by half a part in a hundred thousand. -/
def fileC : List Str := qhaFile [] [c!"300", c!"100", c!"200", c!"100.0005"]
  [c!" 100  -10.5", c!" 100.0005  -10.75", c!" 200  -10.5", c!" 300  -10"]

/-- The cells of `fileC`. -/
def volsC : List ℚ := [300, 100, 200, 100.0005]

/-- The table of `fileC`. -/
def tableC : List (ℚ × ℚ) := [(100, -10.5), (100.0005, -10.75), (200, -10.5), (300, -10)]

/-- The output A. -/
def outA : QhaOutput fileA where
  table := tableA
  cells := volsA.map fun v => (qhaAtoms, qhaLattice v)
  freqs := qhaFreqs
  header := contains_of (by decide +kernel)
  fresh := not_contains_of (by decide +kernel)
  volumes := volumesPrinted_of (by decide +kernel) (s := 73) (by decide +kernel) (by decide +kernel)
    (by decide +kernel)
  many := by decide
  geometries := cellsPrinted_of (by decide +kernel) (ks := [1, 19, 37, 55]) rfl (by decide)
    (by decide +kernel) (by decide +kernel) (by decide +kernel)
  same := rfl
  frequencies := frequenciesPrinted_of (by decide +kernel) (ks := [82, 89, 96, 103, 110, 117]) rfl
    (by decide) (by decide +kernel) (by decide +kernel)
  full := by decide

/-- The output B. -/
def outB : QhaOutput fileB where
  table := tableA
  cells := volsA.map fun v => (qhaAtoms, qhaLattice v)
  freqs := qhaFreqs
  header := contains_of (by decide +kernel)
  fresh := not_contains_of (by decide +kernel)
  volumes := volumesPrinted_of (by decide +kernel) (s := 78) (by decide +kernel) (by decide +kernel)
    (by decide +kernel)
  many := by decide
  geometries := cellsPrinted_of (by decide +kernel) (ks := [6, 24, 42, 60]) rfl (by decide)
    (by decide +kernel) (by decide +kernel) (by decide +kernel)
  same := rfl
  frequencies := frequenciesPrinted_of (by decide +kernel) (ks := [87, 94, 101, 108, 115, 122]) rfl
    (by decide) (by decide +kernel) (by decide +kernel)
  full := by decide

/-- The output C. -/
def outC : QhaOutput fileC where
  table := tableC
  cells := volsC.map fun v => (qhaAtoms, qhaLattice v)
  freqs := qhaFreqs
  header := contains_of (by decide +kernel)
  fresh := not_contains_of (by decide +kernel)
  volumes := volumesPrinted_of (by decide +kernel) (s := 73) (by decide +kernel) (by decide +kernel)
    (by decide +kernel)
  many := by decide
  geometries := cellsPrinted_of (by decide +kernel) (ks := [1, 19, 37, 55]) rfl (by decide)
    (by decide +kernel) (by decide +kernel) (by decide +kernel)
  same := rfl
  frequencies := frequenciesPrinted_of (by decide +kernel) (ks := [82, 89, 96, 103, 110, 117]) rfl
    (by decide) (by decide +kernel) (by decide +kernel)
  full := by decide

/-- The position of each cell in the table. -/
def orderA : ℕ → ℕ := fun i => [3, 0, 1, 2].getD i 0

theorem recognised_A {ls : List Str} (o : QhaOutput ls) (ht : o.table = tableA)
    (hc : o.cells = volsA.map fun v => (qhaAtoms, qhaLattice v)) : Recognised o orderA where
  range := by rw [hc]; decide
  injective := by rw [hc]; decide
  close := by
    rw [hc, ht]
    intro i j c v hi hj
    rw [List.getElem?_map, Option.map_eq_some_iff] at hi
    obtain ⟨w, hw, rfl⟩ := hi
    have key : ∀ i < 4, ∀ j < 4, |volsA.getD i 0 - (tableA.getD j 0).1| ≤
        1 / 100000000 + 1 / 100000 * |(tableA.getD j 0).1| ↔ j = orderA i := by decide +kernel
    have hi' := (List.getElem?_eq_some_iff.1 hw).1
    have hj' := (List.getElem?_eq_some_iff.1 hj).1
    have := key i hi' j hj'
    rw [List.getD_eq_getElem?_getD, List.getD_eq_getElem?_getD, hw, hj] at this
    rw [qhaLattice_det]
    exact this

/-- The hypotheses of `C60_cells_partial` hold for the output A read by the first reader. -/
example : ∃ d', qhaLoad (fileA.map (· ++ ['\n'])).flatten .initial = (d', .ok none) ∧
    (∃ vols, d'.volumes = .ok vols ∧ vols.length = 4 ∧ vols[3]? = some 300) ∧
    d'.energies = [-10.5, -10.75, -10.5, -10] ∧ d'.phonons.length = 1 := by
  obtain ⟨d', h1, -, -, -, ⟨vols, h2, h3, h4⟩, h5, -, -, h6, -⟩ := C60_cells_partial (ls := fileA)
    (isText_join _ (by decide +kernel)) outA (recognised_A outA rfl rfl) .initial (E := 1)
    (.inr ⟨not_contains_of (by decide +kernel), rfl⟩) (n := 1) (m := 2) (by simp) (by decide)
    (by intro c hc; obtain ⟨v, -, rfl⟩ := List.mem_map.1 hc; rfl) rfl
  refine ⟨d', h1, ⟨vols, h2, h3, ?_⟩, ?_, h6⟩
  · have := h4 0 _ rfl
    rw [show orderA 0 = 3 from rfl, qhaLattice_det] at this
    rw [this]
    norm_num
  · rw [h5]
    simp [outA, tableA]

/-- The hypotheses of `C80_violated` hold for the output B followed by the output A: the energies of
the unit cell are halved. -/
example : ∃ d₁ d₂, qhaLoad (fileB.map (· ++ ['\n'])).flatten .initial = (d₁, .ok none) ∧
    qhaLoad (fileA.map (· ++ ['\n'])).flatten d₁ = (d₂, .ok none) ∧
    d₂.energies = [-5.25, -5.375, -5.25, -5] ∧ d₂.natom = .ok 1 ∧ d₂.qpoints = 2 := by
  obtain ⟨d₁, d₂, h1, h2, h3, h4, h5, -⟩ := C80_violated (ls₁ := fileB) (ls₂ := fileA)
    (isText_join _ (by decide +kernel)) (isText_join _ (by decide +kernel)) outB
    (recognised_A outB rfl rfl) (contains_of (by decide +kernel))
    (E := dispE) ⟨2, first_of (by decide +kernel), labelledMatrixAt_of (by decide +kernel)⟩
    (n := 2) (m₁ := 1) (by simp [dispE, Matrix.det_fin_three]; norm_num) (by decide)
    (by intro c hc; obtain ⟨v, -, rfl⟩ := List.mem_map.1 hc; rfl) rfl outA
    (recognised_A outA rfl rfl) (not_contains_of (by decide +kernel)) (m₂ := 1)
    (by intro c hc; obtain ⟨v, -, rfl⟩ := List.mem_map.1 hc; rfl) rfl .initial
  refine ⟨d₁, d₂, h1, h2, ?_, h4, h5⟩
  rw [h3]
  simp [outA, tableA]
  norm_num

/-- **C60 (violation).**  An output with four different volumes, each printed exactly once among the
optimised geometries, completes, but the volumes returned are not in the order of the table: the
volume 200 is paired with the energy of the volume 100.0005. -/
theorem C60_violated : ∃ (ls : List Str) (text : Str) (o : QhaOutput ls) (p : ℕ → ℕ) (d' : QhaData),
    IsText ls text ∧
    (∀ i < o.cells.length, p i < o.cells.length) ∧
    (∀ i < o.cells.length, ∀ j < o.cells.length, p i = p j → i = j) ∧
    (∀ (i : ℕ) c, o.cells[i]? = some c → ∃ v, o.table[p i]? = some v ∧ v.1 = c.2.det) ∧
    o.table.Pairwise (fun v w => v.1 < w.1) ∧
    qhaLoad text .initial = (d', .ok none) ∧ d'.volumes = .ok [100, 200, 100.0005, 300] ∧
    o.table.map (·.1) = [100, 100.0005, 200, 300] ∧ d'.energies = o.table.map (·.2) := by
  have hdet : ∀ v, (cellOf (qhaAtoms, qhaLattice v)).lattice.det = v := fun v => qhaLattice_det v
  have hidx : cellIndexes (outC.cells.map cellOf) (outC.table.map (·.1)) = [3, 0, 1, 2, 0, 1] := by
    have e : cellIndexes (outC.cells.map cellOf) (outC.table.map (·.1)) =
        volsC.flatMap fun v => (List.range 4).filter fun j =>
          ((tableC.map (·.1))[j]?.map (isClose v)).getD false := by
      rw [cellIndexes, outC, List.map_map, List.flatMap_map]
      simp only [Function.comp, hdet, List.length_map]
      rfl
    rw [e]
    decide +kernel
  have hord : orderedCells (outC.cells.map cellOf) (outC.table.map (·.1)) =
      .ok ([100, 200, 100.0005, 300].map fun v => cellOf (qhaAtoms, qhaLattice v)) := by
    rw [orderedCells, if_neg (by decide), hidx]
    rfl
  refine ⟨fileC, _, outC, fun i => [3, 0, 2, 1].getD i 0, _, isText_join _ (by decide +kernel),
    by decide, by decide, ?_, by decide +kernel, qha_read (isText_join _ (by decide +kernel)) outC .initial
      (E := 1) (.inr ⟨not_contains_of (by decide +kernel), rfl⟩) (n := 1) (by simp) (by decide) hord
      (m := 2) ⟨_, rfl, rfl⟩ (by decide), ?_, rfl, ?_⟩
  · intro i c hc
    rw [outC, List.getElem?_map, Option.map_eq_some_iff] at hc
    obtain ⟨w, hw, rfl⟩ := hc
    have hi := (List.getElem?_eq_some_iff.1 hw).1
    rw [qhaLattice_det]
    have key : ∀ i < 4, tableC[[3, 0, 2, 1].getD i 0]?.map (·.1) = volsC[i]? := by decide +kernel
    have := key i hi
    rw [hw, Option.map_eq_some_iff] at this
    exact this
  · have hk : kpointsOf 1 = 1 := by
      rw [kpointsOf, Matrix.det_one]
      exact_mod_cast roundHalfEven_int 1
    simp only [QhaData.volumes, QhaData.kpoints, hk]
    show Except.ok _ = _
    simp only [hdet]
    norm_num
  · have hk : kpointsOf 1 = 1 := by
      rw [kpointsOf, Matrix.det_one]
      exact_mod_cast roundHalfEven_int 1
    simp [QhaData.energies, QhaData.kpoints, hk]

/-- `C81_not_output` on a concrete file. -/
example : ¬ Contains c!"QUASI-HARMONIC APPROXIMATION" mgoHead := not_contains_of (by decide +kernel)

/-- An output with two volumes, and its restarted version. -/
def fewFile : List Str := [c!" QUASI-HARMONIC APPROXIMATION", c!" SORTING VOLUMES/ENERGIES", c!"", c!"", c!"",
  c!" 100  -10.5", c!" 200  -10.75", c!""]

/-- `C81_few` on a concrete file. -/
example : (qhaLoad (fewFile.map (· ++ ['\n'])).flatten .initial).2 = .ok (some .fewVolumes) :=
  C81_few (table := [(100, -10.5), (200, -10.75)]) (isText_join fewFile (by decide +kernel))
    (contains_of (by decide +kernel))
    (volumesPrinted_of (s := 1) (by decide +kernel) (by decide +kernel) (by decide +kernel)
      (by decide +kernel)) (by decide) _

/-- A restarted calculation. -/
def restartFile : List Str := fileA ++ [c!" READING DATA FROM RESTART UNIT"]

/-- `C81_restarted` on a concrete file. -/
example : (qhaLoad (restartFile.map (· ++ ['\n'])).flatten .initial).2 = .ok (some .restarted) :=
  C81_restarted (table := tableA) (isText_join restartFile (by decide +kernel))
    (contains_of (by decide +kernel))
    (volumesPrinted_of (s := 73) (by decide +kernel) (by decide +kernel) (by decide +kernel)
      (by decide +kernel)) (by decide) (by decide) (contains_of (by decide +kernel)) _

/-- `C81_no_table_violated` on a concrete file. -/
example : ∃ ls : List Str, Contains c!"QUASI-HARMONIC APPROXIMATION" ls ∧
    ¬ Contains c!"SORTING VOLUMES/ENERGIES" ls :=
  ⟨[c!" QUASI-HARMONIC APPROXIMATION"], contains_of (by decide +kernel), not_contains_of (by decide +kernel)⟩

end Verif.Interfaces
