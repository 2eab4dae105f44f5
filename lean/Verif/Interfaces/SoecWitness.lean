/-
Concrete outputs meeting the hypotheses of the theorems on ab initio outputs; they are shortened
versions of the ones in tests/test_soec_inpgen.py.
-/
import Verif.Interfaces.SoecProps

namespace Verif.Interfaces
open Verif.Py Verif.IO Verif.IO.Spec Spec

theorem total_iff {l : Str} : TotalHeader l ↔ hasSub soecRelaxed l = true := hasSub_iff.symm

theorem clamped_iff {l : Str} : ClampedHeader l ↔ hasSub soecClamped l = true := hasSub_iff.symm

/-- The total moduli of the test output. -/
def exampleTotal : Mat :=
  ![![1477.9089, 497.1477, 641.0720, -4.8160, 0, 0], ![497.1477, 1488.2954, 658.8937, -5.7622, 0, 0],
    ![641.0720, 658.8937, 1862.2622, 2.4759, 0, 0], ![-4.8160, -5.7622, 2.4759, 488.7576, 0, 0],
    ![0, 0, 0, 0, 452.9138, 0.4957], ![0, 0, 0, 0, 0.4957, 455.7293]]

/-- Its six lines. -/
def exampleRow : Fin 6 → Str :=
  ![c!" XX        1477.9089    497.1477    641.0720     -4.8160      0.0000     -0.0000",
    c!" YY         497.1477   1488.2954    658.8937     -5.7622      0.0000      0.0000",
    c!" ZZ         641.0720    658.8937   1862.2622      2.4759     -0.0000     -0.0000",
    c!" XY          -4.8160     -5.7622      2.4759    488.7576     -0.0000     -0.0000",
    c!" YZ           0.0000      0.0000      0.0000     -0.0000    452.9138      0.4957",
    c!" ZX          -0.0000     -0.0000     -0.0000      0.0000      0.4957    455.7293"]

theorem exampleRow_table (i : Fin 6) : ∃ label ts, Tokens (label :: ts) (exampleRow i) ∧
    label ≠ [] ∧ (∀ c ∈ label, c ∉ whitespace) ∧
    List.Forall₂ Numeral ts (List.ofFn (exampleTotal i)) := by
  have key : ∀ i : Fin 6, words (exampleRow i) =
      (words (exampleRow i)).headD [] :: (words (exampleRow i)).tail ∧
      (∀ c ∈ exampleRow i, isSpace c = true → c = ' ' ∨ c = '\t') := by decide +kernel
  have hp : ∀ i : Fin 6, ((words (exampleRow i)).tail).map parseFloat =
      (List.ofFn (exampleTotal i)).map some := by decide +kernel
  obtain ⟨h1, h2⟩ := tokens_words _ (key i).2
  rw [(key i).1] at h1 h2
  have hw := words_witness (key i).2 (key i).1
  refine ⟨_, _, h1, (hw.2 _ (by simp)).1, (hw.2 _ (by simp)).2, ?_⟩
  have hp := hp i
  have h3 : ∀ t ∈ (words (exampleRow i)).tail, IsToken t := fun t ht => h2 t (by simp [ht])
  generalize (words (exampleRow i)).tail = ts at hp h3
  generalize List.ofFn (exampleTotal i) = qs at hp
  clear h1 h2 hw
  induction ts generalizing qs with
  | nil => cases qs with
    | nil => exact .nil
    | cons => simp at hp
  | cons t ts ih => cases qs with
    | nil => simp at hp
    | cons q qs =>
      simp only [List.map_cons, List.cons.injEq] at hp
      exact .cons (parseFloat_token (h3 t (by simp)) hp.1)
        (ih (fun t ht => h3 t (by simp [ht])) qs hp.2)

/-- A table with its titles and rules. -/
def exampleBlock : List Str :=
  [c!" Direction    XX          YY          ZZ          XY          YZ          ZX",
    c!" ------------------------------------------------------------"] ++ List.ofFn exampleRow ++
  [c!" ------------------------------------------------------------"]

/-- An output with clamped-ion and total moduli. -/
def exampleOutcar : List Str :=
  [c!" vasp", c!"  SYMMETRIZED ELASTIC MODULI (kBar)", c!"", c!" ELASTIC MODULI CONTR FROM IONIC RELAXATION (kBar)",
    c!" TOTAL ELASTIC MODULI (kBar)"] ++ exampleBlock

theorem exampleOutcar_total : TotalOutput exampleOutcar exampleTotal := by
  refine ⟨exampleOutcar.take 4, c!" TOTAL ELASTIC MODULI (kBar)", exampleBlock, rfl, total_iff.2 (by decide),
    ?_, ?_, ⟨c!"  SYMMETRIZED ELASTIC MODULI (kBar)", by decide, clamped_iff.2 (by decide)⟩, ?_⟩
  · simp only [total_iff]; decide +kernel
  · simp only [total_iff]; decide +kernel
  · intro i
    obtain ⟨label, ts, h1, h2, h3, h4⟩ := exampleRow_table i
    exact ⟨exampleRow i, label, ts, by clear h1 h4; revert i; decide +kernel, h1, h2, h3, h4⟩

/-- An output with clamped-ion moduli only. -/
def exampleClamped : List Str :=
  [c!" vasp", c!"  SYMMETRIZED ELASTIC MODULI (kBar)"] ++ exampleBlock

theorem exampleClamped_clamped : ClampedOutput exampleClamped exampleTotal := by
  refine ⟨[c!" vasp"], c!"  SYMMETRIZED ELASTIC MODULI (kBar)", exampleBlock, rfl,
    clamped_iff.2 (by decide), ?_, ?_, ?_⟩
  · simp only [clamped_iff]; decide +kernel
  · simp only [total_iff]; decide +kernel
  · intro i
    obtain ⟨label, ts, h1, h2, h3, h4⟩ := exampleRow_table i
    exact ⟨exampleRow i, label, ts, by clear h1 h4; revert i; decide +kernel, h1, h2, h3, h4⟩

/-- Every list of lines without line ends is a text. -/
theorem isText_join (ls : List Str) (h : ∀ l ∈ ls, '\n' ∉ l) :
    IsText ls (ls.map (· ++ ['\n'])).flatten := ⟨h, .inl rfl⟩

example : IsText exampleOutcar (exampleOutcar.map (· ++ ['\n'])).flatten :=
  isText_join _ (by decide +kernel)

/-- The test output is read with `C44` and `C55` exchanged. -/
example (S : Mat) :
    (loadVasp (exampleOutcar.map (· ++ ['\n'])).flatten S).1 (voigt .yz) (voigt .yz) ≠
      exampleTotal (vasp .yz) (vasp .yz) / 10 := by
  rw [(C56_shear_violated (isText_join _ (by decide +kernel)) (.inl exampleOutcar_total) S).1]
  decide +kernel

/-- Two blocks of total moduli. -/
def exampleTwo : List Str := exampleOutcar ++ c!" TOTAL ELASTIC MODULI (kBar)" :: exampleBlock

example (S : Mat) : loadVasp (exampleTwo.map (· ++ ['\n'])).flatten S = (S, .error .indexError) := by
  refine C57_two_totals_violated (isText_join exampleTwo (by decide +kernel)) (a := exampleOutcar.take 4)
    (h1 := c!" TOTAL ELASTIC MODULI (kBar)") (b := exampleBlock)
    (h2 := c!" TOTAL ELASTIC MODULI (kBar)") (titles := exampleBlock.headD [])
    (rule := c!" ------------------------------------------------------------")
    (post := exampleBlock.drop 2) rfl (total_iff.2 (by decide)) (total_iff.2 (by decide)) ?_ ?_ ?_
    ⟨c!"  SYMMETRIZED ELASTIC MODULI (kBar)", by decide, clamped_iff.2 (by decide)⟩
    ⟨[' '], 60, by intro c hc; simp at hc; exact .inl hc, by decide⟩ S
  all_goals simp only [total_iff]; decide +kernel

example : ∀ l ∈ [c!" vasp", c!""], ¬ ClampedHeader l := by
  simp only [clamped_iff]; decide

/-- The moduli of the CRYSTAL test output. -/
def exampleCubic : Mat :=
  ![![300.744, 101.718, 101.718, 0, 0, 0], ![101.718, 300.744, 101.718, 0, 0, 0],
    ![101.718, 101.718, 300.744, 0, 0, 0], ![0, 0, 0, 169.055, 0, 0], ![0, 0, 0, 0, 169.055, 0],
    ![0, 0, 0, 0, 0, 169.055]]

/-- Their lines. -/
def exampleTriangle : Fin 6 → Str :=
  ![c!" |   300.744  101.718  101.718    0.000    0.000    0.000 |",
    c!" |            300.744  101.718    0.000    0.000    0.000 |",
    c!" |                     300.744    0.000    0.000    0.000 |",
    c!" |                              169.055    0.000    0.000 |",
    c!" |                                       169.055    0.000 |",
    c!" |                                                169.055 |"]

/-- A completed output. -/
def exampleCrystal : List Str :=
  [c!" ELASTCON OPTION", c!" PRIMITIVE CELL - CENTRING CODE 5/0 VOLUME= 9 - DENSITY  9.999 g/cm^3",
    c!" GEOMETRY NOW FULLY CONSISTENT WITH THE GROUP", c!"",
    c!" PRIMITIVE CELL - CENTRING CODE 5/0 VOLUME=    18.896862 - DENSITY  3.513 g/cm^3",
    c!" PRIMITIVE CELL - CENTRING CODE 5/0 VOLUME=    19 - DENSITY  3.4 g/cm^3",
    c!" FINAL RESULTS START",
    c!" SYMMETRIZED ELASTIC CONSTANTS FOR CUBIC        CASE, IN GPa", c!""] ++
  List.ofFn exampleTriangle

theorem exampleCrystal_output : CrystalOutput exampleCrystal exampleCubic := by
  refine ⟨⟨c!" ELASTCON OPTION", by decide, hasSub_iff.1 (by decide)⟩,
    ⟨c!" FINAL RESULTS START", by decide, hasSub_iff.1 (by decide)⟩, exampleCrystal.take 7,
    c!" SYMMETRIZED ELASTIC CONSTANTS FOR CUBIC        CASE, IN GPa", _, rfl,
    hasSub_iff.1 (by decide), ?_, fun i => ⟨exampleTriangle i, by revert i; decide +kernel,
      numbers_of (by revert i; decide +kernel) (by revert i; decide +kernel)⟩⟩
  simp only [← hasSub_iff]; decide +kernel

theorem exampleCrystal_density : Density exampleCrystal 3513 := by
  refine .inl ⟨c!" PRIMITIVE CELL - CENTRING CODE 5/0 VOLUME=    18.896862 - DENSITY  3.513 g/cm^3", 3.513,
    ⟨exampleCrystal.take 2, c!" GEOMETRY NOW FULLY CONSISTENT WITH THE GROUP", exampleCrystal.drop 3, rfl,
      hasSub_iff.1 (by decide), ?_,
      [c!" GEOMETRY NOW FULLY CONSISTENT WITH THE GROUP", c!""], exampleCrystal.drop 5, rfl, ?_,
      hasSub_iff.1 (by decide)⟩,
    ⟨[c!"PRIMITIVE", c!"CELL", c!"-", c!"CENTRING", c!"CODE", c!"5/0", c!"VOLUME=", c!"18.896862", c!"-",
      c!"DENSITY"], c!"3.513", c!"g/cm^3", words_witness (by decide) (by decide), ?_⟩, by norm_num⟩
  · simp only [← hasSub_iff]; decide +kernel
  · simp only [← hasSub_iff]; decide +kernel
  · exact parseFloat_token ⟨by decide, by decide⟩ (by decide +kernel)

example : Density [c!" ELASTCON OPTION"] 0 := by
  refine .inr ⟨?_, rfl⟩
  rintro ⟨p, a, c, post, e, h, -⟩
  have hc : c ∈ [c!" ELASTCON OPTION"] := by rw [e]; simp
  rw [List.mem_singleton.1 hc, ← hasSub_iff] at h
  exact absurd h (by decide)

/-- Reading the test output twice gives a matrix that is not symmetric. -/
example : ¬ IO.Spec.Symmetric (readAll [(exampleCrystal.map (· ++ ['\n'])).flatten,
    (exampleCrystal.map (· ++ ['\n'])).flatten]).stiffness := by
  rw [C58_twice_violated (isText_join _ (by decide +kernel)) exampleCrystal_output
    exampleCrystal_density]
  intro h
  exact absurd (h 0 1 (by decide)) (by decide +kernel)

example : ∀ l ∈ [c!" FINAL RESULTS START"], ¬ c!"ELASTCON OPTION" <:+: l := by
  simp only [← hasSub_iff]; decide

end Verif.Interfaces
