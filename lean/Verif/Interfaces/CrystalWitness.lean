/-
Concrete CRYSTAL outputs meeting the hypotheses of the theorems on phonon outputs (shortened).
-/
import Verif.Interfaces.CrystalProps
import Verif.Interfaces.SoecWitness

noncomputable section

namespace Verif.Interfaces
open Verif.Py Verif.IO Verif.IO.Spec Spec

/-! ### Facts by computation -/

/-- The line has no white space but blanks and tabs. -/
def plainLine (l : Str) : Bool := l.all fun c => !isSpace c || c = ' ' || c = '\t'

theorem plainLine_iff {l : Str} (h : plainLine l = true) :
    ∀ c ∈ l, isSpace c = true → c = ' ' ∨ c = '\t' := by
  intro c hc hs
  have := List.all_eq_true.1 h c hc
  simpa [hs] using this

theorem plain_of {ls : List Str} (h : ls.all plainLine = true) : Plain ls := fun l hl c hc hw =>
  plainLine_iff (List.all_eq_true.1 h l hl) c hc (isSpace_iff.2 hw)

theorem first_of {p : Str} {ls : List Str} {i : ℕ} (h : startLine p ls = some i) : First p ls i := by
  rw [startLine, List.findIdx?_eq_some_iff_getElem] at h
  obtain ⟨hi, h1, h2⟩ := h
  refine ⟨⟨_, List.getElem?_eq_getElem hi, hasSub_iff.1 h1⟩, fun j hj l hl hs => ?_⟩
  obtain ⟨hj', rfl⟩ := List.getElem?_eq_some_iff.1 hl
  exact h2 j hj (hasSub_iff.2 hs)

theorem contains_of {p : Str} {ls : List Str} (h : ls.any (hasSub p) = true) : Contains p ls :=
  any_contains.1 h

theorem not_contains_of {p : Str} {ls : List Str} (h : ls.any (hasSub p) = false) : ¬ Contains p ls :=
  fun hc => by rw [any_contains.2 hc] at h; simp at h

theorem line_words {l : Str} (h : plainLine l = true) : Words (words l) l :=
  words_witness (plainLine_iff h) rfl

theorem word_integer {l : Str} (h : plainLine l = true) {i : ℕ} {z : ℤ}
    (hz : (words l)[i]?.bind parseInt = some z) : ∃ t, (words l)[i]? = some t ∧ Integer t z := by
  cases ht : (words l)[i]? with
  | none => rw [ht] at hz; simp at hz
  | some t =>
    rw [ht] at hz
    have h1 := words_tokens' (line_words h) t (List.mem_of_getElem? ht)
    have h2 := parseInt_sound hz
    rw [strip_token h1] at h2
    exact ⟨t, rfl, h2⟩

theorem word_numeral {l : Str} (h : plainLine l = true) {i : ℕ} {q : ℚ}
    (hq : (words l)[i]?.bind parseFloat = some q) : ∃ t, (words l)[i]? = some t ∧ Numeral t q := by
  cases ht : (words l)[i]? with
  | none => rw [ht] at hq; simp at hq
  | some t =>
    rw [ht] at hq
    exact ⟨t, rfl, parseFloat_token (words_tokens' (line_words h) t (List.mem_of_getElem? ht)) hq⟩

theorem endsWith_of {l : Str} (h : plainLine l = true) {z : ℤ}
    (hz : (words l).getLast?.bind parseInt = some z) : EndsWith l z := by
  have hw := line_words h
  cases ht : (words l).getLast? with
  | none => rw [ht] at hz; simp at hz
  | some t =>
    rw [ht] at hz
    obtain ⟨ws, e⟩ := List.getLast?_eq_some_iff.1 ht
    rw [e] at hw
    have h2 := parseInt_sound hz
    rw [strip_token (words_tokens' hw t (by simp))] at h2
    exact ⟨ws, t, hw, h2⟩

theorem atomLine_of {l : Str} (h : plainLine l = true) {z : ℤ} {v : Fin 3 → ℚ}
    (hz : (words l)[2]?.bind parseInt = some z)
    (hv : ∀ i : Fin 3, (words l)[4 + (i : ℕ)]?.bind parseFloat = some (v i)) : AtomLine l (z, v) := by
  have hw := line_words h
  obtain ⟨t2, a2, b2⟩ := word_integer h hz
  obtain ⟨t4, a4, b4⟩ := word_numeral h (hv 0)
  obtain ⟨t5, a5, b5⟩ := word_numeral h (hv 1)
  obtain ⟨t6, a6, b6⟩ := word_numeral h (hv 2)
  generalize words l = ws at *
  match ws, hw, a2, a4, a5, a6 with
  | w0 :: w1 :: w2 :: w3 :: w4 :: w5 :: w6 :: rest, hw, a2, a4, a5, a6 =>
    simp at a2 a4 a5 a6
    subst a2 a4 a5 a6
    exact ⟨_, _, _, _, _, _, _, _, hw, b2, b4, b5, b6⟩

theorem pointLine_of {l : Str} (h : plainLine l = true) {w : ℚ} {v : Fin 3 → ℚ}
    (hz : (words l)[2]?.bind parseFloat = some w)
    (hv : ∀ i : Fin 3, (words l)[3 + (i : ℕ)]?.bind parseFloat = some (v i)) : PointLine l (w, v) := by
  have hw := line_words h
  obtain ⟨t2, a2, b2⟩ := word_numeral h hz
  obtain ⟨t4, a4, b4⟩ := word_numeral h (hv 0)
  obtain ⟨t5, a5, b5⟩ := word_numeral h (hv 1)
  obtain ⟨t6, a6, b6⟩ := word_numeral h (hv 2)
  generalize words l = ws at *
  match ws, hw, a2, a4, a5, a6 with
  | w0 :: w1 :: w2 :: w3 :: w4 :: w5 :: rest, hw, a2, a4, a5, a6 =>
    simp at a2 a4 a5 a6
    subst a2 a4 a5 a6
    exact ⟨_, _, _, _, _, _, _, hw, b2, b4, b5, b6⟩

theorem modeLine_of {l : Str} (h : plainLine l = true) {n1 n2 : ℤ} {q : ℚ}
    (h0 : ((words l)[0]?.bind List.getLast?) = some '-')
    (h1 : (words l)[0]?.bind (fun w => parseInt w.dropLast) = some n1)
    (h2 : (words l)[1]?.bind parseInt = some n2) (h3 : (words l)[3]?.bind parseFloat = some q) :
    ModeLine l (n1, n2, q) := by
  have hw := line_words h
  have hT := words_tokens' hw
  obtain ⟨t2, a2, b2⟩ := word_integer h h2
  obtain ⟨t3, a3, b3⟩ := word_numeral h h3
  generalize words l = ws at *
  match ws, hw, hT, h0, h1, a2, a3 with
  | w0 :: w1 :: w2 :: w3 :: rest, hw, hT, h0, h1, a2, a3 =>
    simp at a2 a3 h0 h1
    subst a2 a3
    obtain ⟨t1, c, e, hi⟩ := toInt_dropLast (z := n1) (hT w0 (by simp)) (by rw [toInt, h1])
    subst e
    simp at h0
    subst h0
    exact ⟨t1, w1, w2, w3, rest, hw, hi, b2, b3⟩

theorem blank_of {l : Str} (h : (l.all fun c => c = ' ' || c = '\t') = true) : Blank l := by
  intro c hc
  simpa using List.all_eq_true.1 h c hc

theorem matrixAt_of {ls : List Str} {k : ℕ} {M : Matrix (Fin 3) (Fin 3) ℚ}
    (h : ∀ i : Fin 3, (ls[k + (i : ℕ)]?.map plainLine = some true) ∧
      ls[k + (i : ℕ)]?.map (fun l => (words l).map parseFloat) = some ((List.ofFn (M i)).map some)) :
    MatrixAt ls k M := by
  intro i
  obtain ⟨h1, h2⟩ := h i
  cases hl : ls[k + (i : ℕ)]? with
  | none => rw [hl] at h1; simp at h1
  | some l =>
    rw [hl] at h1 h2
    exact ⟨l, rfl, numbers_of (plainLine_iff (by simpa using h1)) (by simpa using h2)⟩

/-! ### An output at the zone centre -/

/-- The atoms. -/
def mgoAtoms : List (ℤ × (Fin 3 → ℚ)) := [(12, ![0, 0, 0]), (8, ![-1 / 2, -1 / 2, -1 / 2])]

/-- The lattice vectors. -/
def mgoLattice : Matrix (Fin 3) (Fin 3) ℚ := !![0, 2.1, 2.1; 2.1, 0, 2.1; 2.1, 2.1, 0]

/-- The output up to the frequencies. -/
def mgoHead : List Str :=
  [c!" EIGENVALUES (EIGV) OF THE MASS WEIGHTED HESSIAN MATRIX AND HARMONIC TRANSVERSE",
    c!" GEOMETRY FOR WAVE FUNCTION - DIMENSIONALITY OF THE SYSTEM    3",
    c!" (NON PERIODIC DIRECTION: LATTICE PARAMETER FORMALLY SET TO 500)",
    c!" ****", c!" LATTICE PARAMETERS", c!" PRIMITIVE CELL", c!" A B C", c!" 2.97 2.97 2.97", c!" ****",
    c!" ATOMS IN THE ASYMMETRIC UNIT    2 - ATOMS IN THE UNIT CELL:    2",
    c!"     ATOM              X/A                 Y/B                 Z/C    ", c!" ****",
    c!"      1 T  12 MG    0.000000000000E+00  0.000000000000E+00  0.000000000000E+00",
    c!"      2 T   8 O    -5.000000000000E-01 -5.000000000000E-01 -5.000000000000E-01",
    c!"", c!" DIRECT LATTICE VECTORS CARTESIAN COMPONENTS (ANGSTROM)",
    c!"          X                    Y                    Z",
    c!"   0.000000000000E+00   0.210000000000E+01   0.210000000000E+01",
    c!"   0.210000000000E+01   0.000000000000E+00   0.210000000000E+01",
    c!"   0.210000000000E+01   0.210000000000E+01   0.000000000000E+00",
    c!"    CENTRAL POINT             -275.25     10",
    c!"    MODES         EIGV          FREQUENCIES     IRREP  IR   INTENS    RAMAN",
    c!"             (HARTREE**2)   (CM**-1)     (THZ)             (KM/MOL)"]

/-- The table, complete. -/
def mgoTable : List Str :=
  [c!"    1-   3    0.0000E+00      0.0000    0.0000  (F1u)   A (    0.00)   I",
    c!"    4-   6    0.3400E-05    405.7500   12.1640  (F1u)   A ( 1000.00)   I", c!"  "]

theorem mgo_cell (rest : List Str) (h : rest.any (hasSub supercellOption) = false) :
    GammaCell (mgoHead ++ rest) mgoAtoms mgoLattice (-275.25) := by
  have hg : ∀ (i : ℕ) l, mgoHead[i]? = some l → (mgoHead ++ rest)[i]? = some l := by
    intro i l hi
    rw [List.getElem?_append_left (List.getElem?_eq_some_iff.1 hi).1, hi]
  have hf : ∀ p i, startLine p mgoHead = some i → First p (mgoHead ++ rest) i := by
    intro p i hp
    obtain ⟨⟨l, a, b⟩, c⟩ := first_of hp
    refine ⟨⟨l, hg i l a, b⟩, fun j hj l' hl => c j hj l' ?_⟩
    rw [List.getElem?_append_left (by have := (List.getElem?_eq_some_iff.1 a).1; omega)] at hl
    exact hl
  refine ⟨⟨_, List.mem_append_left _ (List.mem_cons_self), hasSub_iff.1 (by decide)⟩, ?_,
    ⟨1, hf _ _ (by decide +kernel), ⟨_, hg 9 _ rfl, endsWith_of (by decide) (by decide +kernel)⟩, ?_,
      1, ?_, ?_⟩, 20, _, _, _, _, _, hf _ _ (by decide +kernel), hg 20 _ rfl,
      words_witness (ts := [c!"CENTRAL", c!"POINT", c!"-275.25", c!"10"]) (by decide) (by decide),
      parseFloat_token (by unfold IsToken; decide) (by decide +kernel)⟩
  · rintro ⟨l, hm, hs⟩
    rcases List.mem_append.1 hm with hm | hm
    · have : mgoHead.any (hasSub supercellOption) = false := by decide +kernel
      exact not_contains_of this ⟨l, hm, hs⟩
    · exact not_contains_of h ⟨l, hm, hs⟩
  · intro i a ha
    match i, ha with
    | 0, ha =>
      cases ha
      exact ⟨_, hg 12 _ rfl, atomLine_of (by decide) (by decide +kernel) (by decide +kernel)⟩
    | 1, ha =>
      cases ha
      exact ⟨_, hg 13 _ rfl, atomLine_of (by decide) (by decide +kernel) (by decide +kernel)⟩
  · have e : (mgoHead ++ rest).drop (1 + 11 + mgoAtoms.length) = mgoHead.drop 14 ++ rest := rfl
    rw [e]
    have h0 : startLine latticeVectors (mgoHead.drop 14) = some 1 := by decide +kernel
    obtain ⟨⟨l, a, b⟩, c⟩ := first_of h0
    refine ⟨⟨l, ?_, b⟩, fun j hj l' hl => c j hj l' ?_⟩
    · rw [List.getElem?_append_left (by decide), a]
    · rwa [List.getElem?_append_left (by have : (mgoHead.drop 14).length = 9 := by decide
                                         omega)] at hl
  · have h0 : MatrixAt mgoHead 17 mgoLattice := matrixAt_of (by decide +kernel)
    intro i
    obtain ⟨l, a, b⟩ := h0 i
    exact ⟨l, hg _ _ a, b⟩

theorem mgo_title (rest : List Str) : First frequencyTitle (mgoHead ++ rest) 21 := by
  have h0 : startLine frequencyTitle mgoHead = some 21 := by decide +kernel
  obtain ⟨⟨l, a, b⟩, c⟩ := first_of h0
  refine ⟨⟨l, ?_, b⟩, fun j hj l' hl => c j hj l' ?_⟩
  · rw [List.getElem?_append_left (by decide), a]
  · rwa [List.getElem?_append_left (by have : mgoHead.length = 23 := by decide
                                       omega)] at hl

theorem mgo_modes : ModesAt (mgoHead ++ mgoTable) 23 [(1, 3, 0), (4, 6, 405.75)] :=
  ⟨mgoTable.take 2, c!"  ", [], rfl,
    .cons (modeLine_of (by decide) (by decide +kernel) (by decide +kernel) (by decide +kernel) (by decide +kernel))
      (.cons (modeLine_of (by decide) (by decide +kernel) (by decide +kernel) (by decide +kernel)
        (by decide +kernel)) .nil), blank_of (by decide)⟩

theorem mgo_text : IsText (mgoHead ++ mgoTable) ((mgoHead ++ mgoTable).map (· ++ ['\n'])).flatten :=
  isText_join _ (by decide +kernel)

/-- The hypotheses of `C77_gamma` hold for this output. -/
example : ∃ r : PhononReader,
    (∀ fuel, 28 ≤ fuel → loadPhonon fuel ((mgoHead ++ mgoTable).map (· ++ ['\n'])).flatten = some (.ok r)) ∧
    r.completed = true ∧ r.phonons = [[0, 0, 0, 405.75, 405.75, 405.75]] := by
  have hM : mgoLattice ≠ 0 := fun h => by
    have := congrFun (congrFun h 0) 1
    norm_num [mgoLattice] at this
  obtain ⟨r, h1, h2, -, -, -, -, -, -, -, -, -, -, -, -, h3⟩ :=
    C77_gamma mgo_text (mgo_cell mgoTable (by decide +kernel)) (by norm_num) hM (mgo_title _) mgo_modes rfl
  exact ⟨r, h1, h2, h3⟩

/-- The second mode is missing. -/
def shortTable : List Str :=
  [c!"    1-   3    0.0000E+00      0.0000    0.0000  (F1u)   A (    0.00)   I", c!""]

theorem short_modes : ModesAt (mgoHead ++ shortTable) 23 [(1, 3, 0)] :=
  ⟨shortTable.take 1, c!"", [], rfl,
    .cons (modeLine_of (by decide) (by decide +kernel) (by decide +kernel) (by decide +kernel)
      (by decide +kernel)) .nil, blank_of (by decide)⟩

/-- `C59_hang_violated` on a concrete output. -/
example (fuel : ℕ) :
    loadPhonon fuel ((mgoHead ++ shortTable).map (· ++ ['\n'])).flatten = none :=
  C59_hang_violated (isText_join _ (by decide +kernel)) (mgo_cell shortTable (by decide +kernel))
    (mgo_title _) short_modes (by decide) fuel

/-- The hypotheses of `C59_never_returns_partial` hold for both outputs. -/
example : Plain (mgoHead ++ shortTable) ∧ Plain (mgoHead ++ mgoTable) :=
  ⟨plain_of (by decide +kernel), plain_of (by decide +kernel)⟩

/-- A third mode is in excess. -/
def longTable : List Str := mgoTable.take 2 ++
  [c!"    7-   7    0.3400E-05    505.7500   12.1640  (F1u)   A ( 1000.00)   I", c!""]

/-- `C59_too_many` on a concrete output. -/
example : loadPhonon 100 ((mgoHead ++ longTable).map (· ++ ['\n'])).flatten =
    some (.error .indexError) := by
  have hm : ModesAt (mgoHead ++ longTable) 23 [(1, 3, 0), (4, 6, 405.75), (7, 7, 505.75)] :=
    ⟨longTable.take 3, c!"", [], rfl,
      .cons (modeLine_of (by decide) (by decide +kernel) (by decide +kernel) (by decide +kernel) (by decide +kernel))
      (.cons (modeLine_of (by decide) (by decide +kernel) (by decide +kernel) (by decide +kernel)
        (by decide +kernel)) (.cons (modeLine_of (by decide) (by decide +kernel) (by decide +kernel)
        (by decide +kernel) (by decide +kernel)) .nil)), blank_of (by decide)⟩
  exact C59_too_many (isText_join _ (by decide +kernel)) (mgo_cell longTable (by decide +kernel))
    (mgo_title _) hm (by decide) (by decide)

/-- A file that ends within the table: the hypothesis of `C59_stops_partial` holds. -/
example : ∃ r, loadPhonon 26 ((mgoHead ++ mgoTable.take 1).map (· ++ ['\n'])).flatten = some r := by
  refine C59_stops_partial (ls := mgoHead ++ mgoTable.take 1) (isText_join _ (by decide +kernel)) ?_
  intro k j l l' hk hl hj hl'
  have h1 : k = 21 := by
    have hlen : (mgoHead ++ mgoTable.take 1).length = 24 := by decide
    have hk' : k < 24 := by have := (List.getElem?_eq_some_iff.1 hk).1; omega
    have key : ∀ k < 24, ((mgoHead ++ mgoTable.take 1)[k]?.map (hasSub frequencyTitle)) = some true →
        k = 21 := by decide +kernel
    exact key k hk' (by rw [hk]; simpa using hasSub_iff.2 hl)
  subst h1
  have hj' : j = 23 := by
    have := (List.getElem?_eq_some_iff.1 hl').1
    have hlen : (mgoHead ++ mgoTable.take 1).length = 24 := by decide
    omega
  subst hj'
  cases hl'
  exact ⟨'1', by decide, by decide⟩

/-- `C77_not_output` on a concrete file. -/
example : ¬ IsFrequency [c!"not an output"] := not_contains_of (by decide)

/-! ### A dispersion output -/

/-- The supercell of two unit cells. -/
def dispLines (tables : List Str) : List Str :=
  [c!" EIGENVALUES (EIGV) OF THE MASS WEIGHTED HESSIAN MATRIX AND HARMONIC TRANSVERSE",
    c!" * SUPERCELL OPTION", c!" PHONON FREQUENCIES AT A SET OF K POINTS BY USING A SUPERCELL",
    -- 3
    c!" GEOMETRY NOW FULLY CONSISTENT WITH THE GROUP", c!"", c!" LATTICE PARAMETERS", c!" A B C",
    c!" 2 3 4", c!" ****", c!"",
    c!" ATOMS IN THE ASYMMETRIC UNIT    1 - ATOMS IN THE UNIT CELL:    1", c!" ATOM", c!" ****",
    c!"      1 T  12 MG    0.000000000000E+00  0.000000000000E+00  0.000000000000E+00",
    -- 14
    c!" EXPANSION MATRIX OF PRIMITIVE CELL", c!" E1     1.000     1.000    0.000",
    c!" E2    -1.000     1.000    0.000", c!" E3     0.000     0.000    1.000",
    -- 18
    c!" A SUPERCELL THAT PERMITS THE CALCULATION OF MODES AT    2 K POINTS :",
    c!"    K       WEIGHT       COORD", c!"    1  R  1.000     0 0 0", c!"    2  R  1.000     1 0 0",
    c!" WITH SHRINKING FACTORS IN: IS1 = 2 IS2 = 1 IS3 = 1",
    -- 23
    c!" GEOMETRY FOR WAVE FUNCTION - DIMENSIONALITY OF THE SYSTEM    3",
    c!" (NON PERIODIC DIRECTION: LATTICE PARAMETER FORMALLY SET TO 500)",
    c!" ****", c!" LATTICE PARAMETERS", c!" PRIMITIVE CELL", c!" A B C", c!" 2.97 2.97 2.97", c!" ****",
    c!" ATOMS IN THE ASYMMETRIC UNIT    1 - ATOMS IN THE UNIT CELL:    2", c!" ATOM", c!" ****",
    c!"      1 T  12 MG    0.000000000000E+00  0.000000000000E+00  0.000000000000E+00",
    c!"      2 F  12 MG    5.000000000000E-01 -5.000000000000E-01  0.000000000000E-00",
    -- 36
    c!" DIRECT LATTICE VECTORS CARTESIAN COMPONENTS (ANGSTROM)", c!" X Y Z",
    c!"  2 3 0", c!" -2 3 0", c!"  0 0 4", c!"    CENTRAL POINT             -400.5     10"] ++ tables

/-- The first table. -/
def dispTable1 : List Str :=
  [c!"    MODES         EIGV          FREQUENCIES     IRREP  IR   INTENS    RAMAN", c!" units",
    c!"    1-   3    0.0000E+00      0.0000    0.0000  (F1u)   A (    0.00)   I", c!""]

/-- The second table. -/
def dispTable2 : List Str :=
  [c!"    MODES         EIGV          FREQUENCIES     IRREP  IR   INTENS    RAMAN", c!" units",
    c!"    1-   1    0.3400E-05    100.5000   12.1640  (F1u)   A ( 1000.00)   I",
    c!"    2-   3    0.3400E-05    405.7500   12.1640  (F1u)   A ( 1000.00)   I", c!""]

theorem labelledMatrixAt_of {ls : List Str} {k : ℕ} {M : Matrix (Fin 3) (Fin 3) ℚ}
    (h : ∀ i : Fin 3, (ls[k + (i : ℕ)]?.map plainLine = some true) ∧
      ls[k + (i : ℕ)]?.map (fun l => (words l).length) = some 4 ∧
      ls[k + (i : ℕ)]?.map (fun l => (words l).tail.map parseFloat) =
        some ((List.ofFn (M i)).map some)) :
    LabelledMatrixAt ls k M := by
  intro i
  obtain ⟨h1, h2, h3⟩ := h i
  cases hl : ls[k + (i : ℕ)]? with
  | none => rw [hl] at h1; simp at h1
  | some l =>
    rw [hl] at h1 h2 h3
    simp only [Option.map_some, Option.some.injEq] at h1 h2 h3
    have hw := line_words h1
    have hT := words_tokens' hw
    generalize words l = ws at *
    match ws, h2 with
    | [t0, t1, t2, t3], _ =>
      simp [List.ofFn_succ] at h3
      exact ⟨l, t0, t1, t2, t3, rfl, hw, parseFloat_token (hT _ (by simp)) h3.1,
        parseFloat_token (hT _ (by simp)) h3.2.1, parseFloat_token (hT _ (by simp)) h3.2.2⟩

theorem countLine_of {l : Str} (h : plainLine l = true) {z : ℤ}
    (hz : (words l).reverse[3]?.bind parseInt = some z) : CountLine l z := by
  have hw := line_words h
  have hT := words_tokens' hw
  generalize hws : words l = ws at *
  have hr : ws = ws.reverse.reverse := (List.reverse_reverse ws).symm
  match hrev : ws.reverse, hz with
  | w :: v :: u :: t :: more, hz =>
    rw [hrev] at hr
    simp at hr hz
    have h2 := parseInt_sound hz
    rw [strip_token (hT t (by rw [hr]; simp))] at h2
    rw [hr] at hw
    exact ⟨more.reverse, t, u, v, w, hw, h2⟩

theorem shrinkLine_of {l : Str} (h : plainLine l = true) {s : Fin 3 → ℚ}
    (h0 : (words l)[6]?.bind parseFloat = some (s 0)) (h1 : (words l)[9]?.bind parseFloat = some (s 1))
    (h2 : (words l)[12]?.bind parseFloat = some (s 2)) : ShrinkLine l s := by
  obtain ⟨t0, a0, b0⟩ := word_numeral h h0
  obtain ⟨t1, a1, b1⟩ := word_numeral h h1
  obtain ⟨t2, a2, b2⟩ := word_numeral h h2
  exact ⟨_, t0, t1, t2, line_words h, a0, a1, a2, b0, b1, b2⟩

/-- The output with both tables. -/
def dispFile : List Str := dispLines (dispTable1 ++ dispTable2)

/-- The output that ends after the first table. -/
def dispCut : List Str := dispLines dispTable1

theorem disp_get (t : List Str) (i : ℕ) (l : Str) (h : (dispLines [])[i]? = some l) :
    (dispLines t)[i]? = some l := by
  have e : dispLines t = dispLines [] ++ t := rfl
  rw [e, List.getElem?_append_left (List.getElem?_eq_some_iff.1 h).1, h]

theorem disp_first (t : List Str) {p : Str} {i : ℕ} (h : startLine p (dispLines []) = some i) :
    First p (dispLines t) i := by
  have e : dispLines t = dispLines [] ++ t := rfl
  obtain ⟨⟨l, a, b⟩, c⟩ := first_of h
  refine ⟨⟨l, disp_get t i l a, b⟩, fun j hj l' hl => c j hj l' ?_⟩
  rw [e, List.getElem?_append_left (by have := (List.getElem?_eq_some_iff.1 a).1; omega)] at hl
  exact hl

theorem disp_contains (t : List Str) {p : Str} (h : (dispLines []).any (hasSub p) = true) :
    Contains p (dispLines t) := by
  have e : dispLines t = dispLines [] ++ t := rfl
  obtain ⟨l, a, b⟩ := contains_of h
  exact ⟨l, by rw [e]; exact List.mem_append_left _ a, b⟩

theorem disp_not_contains {t : List Str} {p : Str} (h : (dispLines []).any (hasSub p) = false)
    (ht : t.any (hasSub p) = false) : ¬ Contains p (dispLines t) := by
  have e : dispLines t = dispLines [] ++ t := rfl
  rw [e]
  exact not_contains_of (by rw [List.any_append, h, ht]; rfl)

/-- The expansion matrix. -/
def dispE : Matrix (Fin 3) (Fin 3) ℚ := !![1, 1, 0; -1, 1, 0; 0, 0, 1]

theorem disp_kTable {t : List Str} (ht : t.any (hasSub kTable) = false) (j : ℕ) (l : Str) (hj : 19 < j)
    (hl : (dispLines t)[j]? = some l) : ¬ kTable <:+: l := by
  have e : dispLines t = (dispLines t).take 20 ++ ((dispLines []).drop 20 ++ t) := rfl
  rw [e, List.getElem?_append_right (by simp; omega)] at hl
  refine fun hs => not_contains_of (p := kTable) ?_ ⟨l, List.mem_of_getElem? hl, hs⟩
  have h0 : ((dispLines []).drop 20).any (hasSub kTable) = false := by decide +kernel
  rw [List.any_append, h0, ht]
  rfl

/-- The facts of `Spec.Dispersion` for these outputs. -/
def dispersion (t : List Str) (h1 : t.any (hasSub hessInterpolation) = false)
    (h2 : t.any (hasSub kTable) = false) : Dispersion (dispLines t) where
  superAtoms := [(12, ![0, 0, 0]), (12, ![1 / 2, -1 / 2, 0])]
  superLattice := !![2, 3, 0; -2, 3, 0; 0, 0, 4]
  atoms := [(12, ![0, 0, 0])]
  expansion := dispE
  points := [(1, ![0, 0, 0]), (1, ![1, 0, 0])]
  shrink := ![2, 1, 1]
  energy := -400.5
  frequency := disp_contains t (by decide +kernel)
  supercell := disp_contains t (by decide +kernel)
  wave := by
    refine ⟨23, disp_first t (by decide +kernel), ⟨_, disp_get t 31 _ rfl, endsWith_of (by decide)
      (by decide +kernel)⟩, ?_, 0, ?_, ?_⟩
    · intro i a ha
      match i, ha with
      | 0, ha =>
        cases ha
        exact ⟨_, disp_get t 34 _ rfl, atomLine_of (by decide) (by decide +kernel) (by decide +kernel)⟩
      | 1, ha =>
        cases ha
        exact ⟨_, disp_get t 35 _ rfl, atomLine_of (by decide) (by decide +kernel) (by decide +kernel)⟩
    · refine ⟨⟨_, rfl, hasSub_iff.1 (by decide)⟩, fun j hj => by omega⟩
    · have h0 : MatrixAt (dispLines []) 38 !![2, 3, 0; -2, 3, 0; 0, 0, 4] := matrixAt_of (by decide +kernel)
      intro i
      obtain ⟨l, a, b⟩ := h0 i
      exact ⟨l, disp_get t _ _ a, b⟩
  initial := by
    refine ⟨3, disp_first t (by decide +kernel), ⟨_, disp_get t 10 _ rfl, endsWith_of (by decide)
      (by decide +kernel)⟩, ?_⟩
    intro i a ha
    match i, ha with
    | 0, ha =>
      cases ha
      exact ⟨_, disp_get t 13 _ rfl, atomLine_of (by decide) (by decide +kernel) (by decide +kernel)⟩
  expanded := by
    have h0 : LabelledMatrixAt (dispLines []) 15 dispE := labelledMatrixAt_of (by decide +kernel)
    refine ⟨14, disp_first t (by decide +kernel), fun i => ?_⟩
    obtain ⟨l, t0, t1, t2, t3, a, b⟩ := h0 i
    exact ⟨l, t0, t1, t2, t3, disp_get t _ _ a, b⟩
  sampled := by
    refine .inr ⟨disp_not_contains (by decide +kernel) h1, 18, _, 19, _, disp_first t (by decide +kernel),
      disp_get t 18 _ rfl, countLine_of (by decide) (by decide +kernel), disp_get t 19 _ rfl,
      hasSub_iff.1 (by decide), fun j l hj hl => disp_kTable h2 j l hj hl, ?_, _, disp_get t 22 _ rfl,
      shrinkLine_of (by decide) (by decide +kernel) (by decide +kernel) (by decide +kernel)⟩
    intro i a ha
    match i, ha with
    | 0, ha =>
      cases ha
      exact ⟨_, disp_get t 20 _ rfl, pointLine_of (by decide) (by decide +kernel) (by decide +kernel)⟩
    | 1, ha =>
      cases ha
      exact ⟨_, disp_get t 21 _ rfl, pointLine_of (by decide) (by decide +kernel) (by decide +kernel)⟩
  printed := ⟨41, _, _, _, _, _, disp_first t (by decide +kernel), disp_get t 41 _ rfl,
    words_witness (ts := [c!"CENTRAL", c!"POINT", c!"-400.5", c!"10"]) (by decide) (by decide),
    parseFloat_token (by unfold IsToken; decide) (by decide +kernel)⟩

/-- A file with titles at the given lines. -/
theorem titles_of {ls : List Str} {ks : List ℕ} (hs : ks.Pairwise (· < ·))
    (hk : ∀ k < ls.length, k ∈ ks ↔ (ls[k]?.map (hasSub frequencyTitle)) = some true)
    (hb : ∀ k ∈ ks, k < ls.length) : Titles ls ks := by
  refine ⟨hs, fun k => ?_⟩
  constructor
  · intro h
    have h1 := (hk k (hb k h)).1 h
    rw [List.getElem?_eq_getElem (hb k h)] at h1 ⊢
    exact ⟨_, rfl, hasSub_iff.1 (by simpa using h1)⟩
  · rintro ⟨l, h1, h2⟩
    have hlt := (List.getElem?_eq_some_iff.1 h1).1
    exact (hk k hlt).2 (by rw [h1]; simpa using hasSub_iff.2 h2)

theorem disp_modes1 (t : List Str) : ModesAt (dispLines (dispTable1 ++ t)) 44 [(1, 3, 0)] :=
  ⟨[dispTable1[2]], c!"", t, rfl,
    .cons (modeLine_of (by decide) (by decide +kernel) (by decide +kernel) (by decide +kernel)
      (by decide +kernel)) .nil, blank_of (by decide)⟩

theorem disp_modes2 : ModesAt dispFile 48 [(1, 1, 100.5), (2, 3, 405.75)] :=
  ⟨[dispTable2[2], dispTable2[3]], c!"", [], rfl,
    .cons (modeLine_of (by decide) (by decide +kernel) (by decide +kernel) (by decide +kernel)
      (by decide +kernel)) (.cons (modeLine_of (by decide) (by decide +kernel) (by decide +kernel)
      (by decide +kernel) (by decide +kernel)) .nil), blank_of (by decide)⟩

theorem disp_tables : FirstTables dispFile [[(1, 3, 0)], [(1, 1, 100.5), (2, 3, 405.75)]] := by
  refine ⟨[42, 46], titles_of (by decide) (by decide +kernel) (by decide), le_rfl, ?_⟩
  intro i k t h1 h2
  match i, h1, h2 with
  | 0, h1, h2 => cases h1; cases h2; exact disp_modes1 _
  | 1, h1, h2 => cases h1; cases h2; exact disp_modes2

theorem cut_tables : AllTables dispCut [[(1, 3, 0)]] := by
  refine ⟨[42], titles_of (by decide) (by decide +kernel) (by decide), rfl, ?_⟩
  intro i k t h1 h2
  match i, h1, h2 with
  | 0, h1, h2 => cases h1; cases h2; exact disp_modes1 []

theorem dispE_det : dispE.det = ((2 : ℤ) : ℚ) := by
  simp [dispE, Matrix.det_fin_three]
  norm_num

theorem disp_super : (!![2, 3, 0; -2, 3, 0; 0, 0, 4] : Matrix (Fin 3) (Fin 3) ℚ) ≠ 0 := fun h => by
  have := congrFun (congrFun h 0) 0
  norm_num at this

theorem dispFile_text : IsText dispFile (dispFile.map (· ++ ['\n'])).flatten :=
  isText_join _ (by decide +kernel)

/-- The hypotheses of `C78_dispersion_partial` hold for this output. -/
example : ∃ r : PhononReader,
    (∀ fuel, 53 ≤ fuel → loadPhonon fuel (dispFile.map (· ++ ['\n'])).flatten = some (.ok r)) ∧
    r.completed = true ∧ r.phonons = [[0, 0, 0], [100.5, 405.75, 405.75]] := by
  obtain ⟨r, h1, h2, -, -, -, -, -, -, -, -, -, -, h3, -⟩ :=
    C78_dispersion_partial dispFile_text (dispersion (dispTable1 ++ dispTable2) (by decide +kernel) (by decide +kernel))
      (disp_contains _ (by decide +kernel)) dispE_det (by norm_num)
      (show (-400.5 : ℚ) ≠ 0 by norm_num) disp_super disp_tables rfl (List.cons_ne_nil _ _)
      (by decide)
  exact ⟨r, h1, h2, h3⟩

/-- The lattice vectors of the unit cell. -/
def dispL : Matrix (Fin 3) (Fin 3) ℚ := !![2, 0, 0; 0, 3, 0; 0, 0, 4]

/-- **C78 violated (lattice).**  A dispersion output whose unit cell has the lattice vectors `dispL`,
since the supercell is the expansion matrix times `dispL`; the reader returns others. -/
theorem C78_lattice_violated : ∃ (ls : List Str) (text : Str) (d : Dispersion ls) (L : Matrix (Fin 3) (Fin 3) ℚ)
    (r : PhononReader), IsText ls text ∧ IsDispersion ls ∧ d.superLattice = d.expansion * L ∧
    (∀ fuel, ls.length + 2 ≤ fuel → loadPhonon fuel text = some (.ok r)) ∧ r.cell.lattice ≠ L := by
  have hne : ¬ dispE * dispL = dispL * dispE := fun h => by
    have := congrFun (congrFun h 0) 1
    simp [dispE, dispL, Matrix.mul_apply, Fin.sum_univ_three] at this
  have hL : (!![2, 3, 0; -2, 3, 0; 0, 0, 4] : Matrix (Fin 3) (Fin 3) ℚ) = dispE * dispL := by
    ext i j
    fin_cases i <;> fin_cases j <;> simp [dispE, dispL, Matrix.mul_apply, Fin.sum_univ_three]
  have hL0 : dispL ≠ 0 := fun h => by
    have := congrFun (congrFun h 0) 0
    simp [dispL] at this
  obtain ⟨r, h1, h2⟩ := C78_lattice_partial dispFile_text
    (dispersion (dispTable1 ++ dispTable2) (by decide +kernel) (by decide +kernel))
      (disp_contains _ (by decide +kernel)) dispE_det (by norm_num)
      (show (-400.5 : ℚ) ≠ 0 by norm_num) hL hL0 disp_tables rfl (List.cons_ne_nil _ _)
      (by decide)
  exact ⟨dispFile, _, dispersion (dispTable1 ++ dispTable2) (by decide +kernel) (by decide +kernel), dispL, r,
    dispFile_text, disp_contains _ (by decide +kernel), hL, h1, fun h => hne (h2.1 h)⟩

/-- `C78_missing_violated` on a concrete output. -/
example : ∃ r : PhononReader, (∀ fuel, 48 ≤ fuel →
    loadPhonon fuel (dispCut.map (· ++ ['\n'])).flatten = some (.ok r)) ∧ r.completed = true ∧
    r.error = none ∧ r.phonons.length < r.mesh.weights.length :=
  C78_missing_violated (isText_join _ (by decide +kernel))
    (dispersion dispTable1 (by decide +kernel) (by decide +kernel)) (disp_contains _ (by decide +kernel))
    dispE_det (by norm_num) (show (-400.5 : ℚ) ≠ 0 by norm_num) disp_super cut_tables (by simp)
    (by decide) (by decide)

/-- A calculation on the supercell at the zone centre only: there is no table of k points. -/
def superFile : List Str :=
  (((dispLines dispTable1).set 2 []).set 18 []).set 19 []

/-- `C79_supercell_violated` on a concrete output. -/
example (fuel : ℕ) : loadPhonon fuel (superFile.map (· ++ ['\n'])).flatten = some (.error .typeError) := by
  refine C79_supercell_violated (sat := [(12, ![0, 0, 0]), (12, ![1 / 2, -1 / 2, 0])]) (uat := [(12, ![0, 0, 0])])
    (M := !![2, 3, 0; -2, 3, 0; 0, 0, 4]) (E := dispE) (isText_join superFile (by decide +kernel))
    (contains_of (by decide +kernel)) (contains_of (by decide +kernel))
    ⟨23, first_of (by decide +kernel), ⟨_, rfl, endsWith_of (by decide) (by decide +kernel)⟩, ?_,
      0, first_of (by decide +kernel), matrixAt_of (by decide +kernel)⟩
    ⟨3, first_of (by decide +kernel), ⟨_, rfl, endsWith_of (by decide) (by decide +kernel)⟩, ?_⟩
    ⟨14, first_of (by decide +kernel), labelledMatrixAt_of (by decide +kernel)⟩
    (by rw [dispE_det]; norm_num) (not_contains_of (by decide +kernel)) (not_contains_of (by decide +kernel)) fuel
  · intro i a ha
    match i, ha with
    | 0, ha =>
      cases ha
      exact ⟨_, rfl, atomLine_of (by decide) (by decide +kernel) (by decide +kernel)⟩
    | 1, ha =>
      cases ha
      exact ⟨_, rfl, atomLine_of (by decide) (by decide +kernel) (by decide +kernel)⟩
  · intro i a ha
    match i, ha with
    | 0, ha =>
      cases ha
      exact ⟨_, rfl, atomLine_of (by decide) (by decide +kernel) (by decide +kernel)⟩

end Verif.Interfaces
