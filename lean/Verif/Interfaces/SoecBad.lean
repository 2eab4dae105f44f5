/-
C57, C76: a table of elastic moduli with a word that is not a number.
-/
import Verif.Interfaces.SoecWitness
import Verif.Interfaces.CrystalLemmas

namespace Verif.Interfaces
open Verif.Py Verif.IO Verif.IO.Spec Spec

/-! ### Specification -/

namespace Spec

/-- Line by line and from left to right, `(i, j)` comes before `(a, b)`. -/
def Before (p q : Fin 6 × Fin 6) : Prop := p.1 < q.1 ∨ p.1 = q.1 ∧ p.2 < q.2

instance (p q : Fin 6 × Fin 6) : Decidable (Before p q) := inferInstanceAs (Decidable (_ ∨ _))

/-- The first word of a table that is not a number stands in row `a`, column `b`; `shown` tells which entries are printed. -/
def FirstBad (W : Fin 6 → Fin 6 → Str) (shown : Fin 6 → Fin 6 → Prop) (a b : Fin 6) : Prop :=
  shown a b ∧ parseFloat (W a b) = none ∧ ∀ i j, shown i j → Before (i, j) (a, b) → ∃ q, Numeral (W i j) q

/-- A VASP output with one block of total moduli, whose table consists of the words `W`. -/
def TotalWords (ls : List Str) (W : Fin 6 → Fin 6 → Str) : Prop :=
  ∃ pre h post, ls = pre ++ h :: post ∧ TotalHeader h ∧ (∀ l ∈ pre, ¬ TotalHeader l) ∧
    (∀ l ∈ post, ¬ TotalHeader l) ∧ (∃ l ∈ ls, ClampedHeader l) ∧
    ∀ i : Fin 6, ∃ l label, ls[pre.length + 3 + (i : ℕ)]? = some l ∧ Words (label :: List.ofFn (W i)) l

/-- A completed CRYSTAL run for elastic constants whose triangular table consists of the words `W`. -/
def CrystalWords (ls : List Str) (W : Fin 6 → Fin 6 → Str) : Prop :=
  (∃ l ∈ ls, c!"ELASTCON OPTION" <:+: l) ∧ (∃ l ∈ ls, c!"FINAL RESULTS START" <:+: l) ∧
  ∃ pre h post, ls = pre ++ h :: post ∧ c!"SYMMETRIZED ELASTIC CONSTANTS" <:+: h ∧
    (∀ l ∈ pre, ¬ c!"SYMMETRIZED ELASTIC CONSTANTS" <:+: l) ∧
    ∀ i : Fin 6, ∃ l, ls[pre.length + 2 + (i : ℕ)]? = some l ∧
      Words ((List.ofFn (W i)).drop i) (l.filter (· ≠ '|'))

end Spec

/-! ### Proofs -/

theorem fill_bad {tok : Fin 6 → Fin 6 → Option Str} {scale : ℚ} {L1 L2 : List (Fin 6 × Fin 6)} {a b : Fin 6} {t : Str}
    (h : ∀ p ∈ L1, ∃ t q, tok p.1 p.2 = some t ∧ parseFloat t = some q) (ht : tok a b = some t) (hb : parseFloat t = none)
    (S : Mat) : ∃ S', fill tok scale (L1 ++ (a, b) :: L2) S = (S', .ok (some (a, b))) := by
  induction L1 generalizing S with
  | nil => exact ⟨S, by simp [fill, ht, hb]⟩
  | cons p L1 ih =>
    obtain ⟨i, j⟩ := p
    obtain ⟨t', q, h1, h2⟩ := h (i, j) (by simp)
    simp only at h1 h2
    rw [List.cons_append, fill, h1]
    simp only [h2]
    exact ih (fun q hq => h q (by simp [hq])) _

theorem allCells_sorted : allCells.Pairwise Before := by decide +kernel

theorem cells_split {cells : List (Fin 6 × Fin 6)} (hs : cells.Pairwise Before) {p : Fin 6 × Fin 6} (hp : p ∈ cells) :
    ∃ L1 L2, cells = L1 ++ p :: L2 ∧ ∀ q ∈ L1, q ∈ cells ∧ Before q p := by
  obtain ⟨L1, L2, rfl⟩ := List.append_of_mem hp
  exact ⟨L1, L2, rfl, fun q hq => ⟨by simp [hq], (List.pairwise_append.1 hs).2.2 q hq p (by simp)⟩⟩

theorem fill_first {tok : Fin 6 → Fin 6 → Option Str} {scale : ℚ} {cells : List (Fin 6 × Fin 6)}
    {W : Fin 6 → Fin 6 → Str} {shown : Fin 6 → Fin 6 → Prop} {a b : Fin 6} (hs : cells.Pairwise Before)
    (hc : ∀ p, p ∈ cells ↔ shown p.1 p.2) (ht : ∀ i j, shown i j → tok i j = some (W i j)) (h : FirstBad W shown a b)
    (S : Mat) : ∃ S', fill tok scale cells S = (S', .ok (some (a, b))) := by
  obtain ⟨h1, h2, h3⟩ := h
  obtain ⟨L1, L2, e, hL⟩ := cells_split hs ((hc (a, b)).2 h1)
  rw [e]
  refine fill_bad (fun p hp => ?_) (ht a b h1) h2 S
  obtain ⟨hm, hbf⟩ := hL p hp
  have := (hc p).1 hm
  obtain ⟨q, hq⟩ := h3 p.1 p.2 this hbf
  exact ⟨_, q, ht _ _ this, parseFloat_numeral hq⟩

/-- **C57 (bad word).**  When the table of total moduli of a VASP output holds words that are not numbers (asterisks for a number
too large for its columns), the file is refused, and the message names the row and the column of the first of them. -/
theorem C57_element {ls : List Str} {text : Str} {W : Fin 6 → Fin 6 → Str} {a b : Fin 6} (hf : IsText ls text)
    (h : TotalWords ls W) (hb : FirstBad W (fun _ _ => True) a b) (S : Mat) :
    (loadVasp text S).2 = .ok ⟨false, some (.element a b)⟩ := by
  obtain ⟨pre, h, post, rfl, hh, h1, h2, ⟨l, hl, hc⟩, ht⟩ := h
  have hs : vaspStart (pre ++ h :: post) = .ok (pre.length + 3) := by
    rw [vaspStart, List.foldl_append, List.foldl_cons]
    obtain ⟨a1, -⟩ := scan_plain pre h1 ⟨0, none, none⟩
    obtain ⟨-, b2⟩ := scan_total hh (pre.foldl scanLine ⟨0, none, none⟩)
    obtain ⟨-, c2⟩ := scan_plain post h2 (scanLine (pre.foldl scanLine ⟨0, none, none⟩) h)
    simp only [c2, b2, a1, Nat.zero_add]
  have hv : isVasp (pre ++ h :: post) = true := List.any_eq_true.2 ⟨l, hl, hasSub_iff.2 hc⟩
  obtain ⟨S', e⟩ := fill_first (scale := 10) (cells := allCells) (tok := vaspWord (pre ++ h :: post) (pre.length + 3))
    allCells_sorted (fun p => ⟨fun _ => trivial, fun _ => mem_allCells p⟩) (fun i j _ => by
      obtain ⟨l, label, hl, hw⟩ := ht i
      rw [vaspWord, add_comm, hl, Option.bind_some, words_tokens hw.1 (words_tokens' hw), List.getElem?_cons_succ,
        List.getElem?_ofFn, dif_pos j.isLt]) hb S
  rw [loadVasp_text hf, vaspLines, if_pos hv, hs]
  simp only [e]

/-- **C76 (bad word).**  The same for the triangular table of a CRYSTAL output with a readable density. -/
theorem C76_element {ls : List Str} {text : Str} {W : Fin 6 → Fin 6 → Str} {rho : ℚ} {a b : Fin 6} (hf : IsText ls text)
    (h : CrystalWords ls W) (hd : Density ls rho) (hb : FirstBad W (fun i j => i ≤ j) a b) (d : CrystalData) :
    (loadCrystal text d).2 = .ok ⟨false, some (.element a b)⟩ := by
  obtain ⟨⟨l1, hl1, ho⟩, ⟨l2, hl2, hc⟩, pre, hd', post, rfl, hh, hp, ht⟩ := h
  have a1 : (pre ++ hd' :: post).any (hasSub soecOption) = true :=
    List.any_eq_true.2 ⟨l1, hl1, hasSub_iff.2 ho⟩
  have a2 : (pre ++ hd' :: post).any (hasSub soecCompleted) = true :=
    List.any_eq_true.2 ⟨l2, hl2, hasSub_iff.2 hc⟩
  obtain ⟨S', e⟩ := fill_first (scale := 1) (cells := upperCells)
    (tok := crystalWord (pre ++ hd' :: post) (pre.length + 2))
    (allCells_sorted.filter _) mem_upperCells (fun i j hij => by
      obtain ⟨l, hl, hw⟩ := ht i
      rw [crystalWord, add_comm, hl, Option.bind_some, words_tokens hw.1 (words_tokens' hw), List.getElem?_drop,
        Nat.add_sub_cancel' hij, List.getElem?_ofFn, dif_pos j.isLt]) hb d.stiffness
  rw [loadCrystal_text hf, crystalLines, a1, a2, density_ok hd, crystalStart_first hh hp]
  simp only [Bool.not_true, if_false, Bool.false_eq_true, e]

/-! ### Concrete cases -/

/-- A table with a number too large for its columns. -/
def starRow : Fin 6 → Str :=
  ![c!" XX        1477.9089    497.1477    641.0720     -4.8160      0.0000     -0.0000",
    c!" YY         497.1477   1488.2954    658.8937     -5.7622      0.0000      0.0000",
    c!" ZZ         641.0720    658.8937  **********      2.4759     -0.0000     -0.0000",
    c!" XY          -4.8160     -5.7622      2.4759    488.7576     -0.0000     -0.0000",
    c!" YZ           0.0000      0.0000      0.0000     -0.0000  **********      0.4957",
    c!" ZX          -0.0000     -0.0000     -0.0000      0.0000      0.4957    455.7293"]

/-- The output with that table. -/
def starOutcar : List Str :=
  [c!"  SYMMETRIZED ELASTIC MODULI (kBar)", c!" TOTAL ELASTIC MODULI (kBar)", c!"", c!""] ++ List.ofFn starRow

/-- Its words. -/
def starWord (i j : Fin 6) : Str := (words (starRow i)).getD (j + 1) []

theorem starWords : TotalWords starOutcar starWord := by
  refine ⟨starOutcar.take 1, c!" TOTAL ELASTIC MODULI (kBar)", starOutcar.drop 2, by decide +kernel, hasSub_iff.1 (by decide),
    ?_, ?_, ⟨c!"  SYMMETRIZED ELASTIC MODULI (kBar)", by decide, hasSub_iff.1 (by decide)⟩, fun i => ?_⟩
  · intro l hl h
    exact absurd (hasSub_iff.2 h) ((by decide +kernel : ∀ l ∈ starOutcar.take 1, ¬ hasSub soecRelaxed l = true) l hl)
  · intro l hl h
    exact absurd (hasSub_iff.2 h) ((by decide +kernel : ∀ l ∈ starOutcar.drop 2, ¬ hasSub soecRelaxed l = true) l hl)
  · refine ⟨starRow i, (words (starRow i)).headD [], by revert i; decide +kernel, words_witness ?_ ?_⟩ <;>
      (revert i; decide +kernel)

theorem star_bad : FirstBad starWord (fun _ _ => True) 2 2 := by
  refine ⟨trivial, by decide +kernel, fun i j _ h => ?_⟩
  have h1 : ∀ i j, Before (i, j) (2, 2) → (parseFloat (starWord i j)).isSome = true := by decide +kernel
  obtain ⟨q, hq⟩ := Option.isSome_iff_exists.1 (h1 i j h)
  have h2 : ∀ i j, starWord i j ≠ [] ∧ ∀ c ∈ starWord i j, isSpace c = false := by decide +kernel
  exact ⟨q, parseFloat_token (h2 i j) hq⟩

example (S : Mat) := C57_element (isText_join starOutcar (by decide +kernel)) starWords star_bad S

/-- A triangular table with a number too large for its columns. -/
def starTriangle : Fin 6 → Str :=
  ![c!" |   300.744  101.718  101.718    0.000    0.000    0.000 |",
    c!" |            300.744  ********    0.000    0.000    0.000 |",
    c!" |                     300.744    0.000    0.000    0.000 |",
    c!" |                              169.055    0.000    0.000 |",
    c!" |                                       169.055    0.000 |",
    c!" |                                                169.055 |"]

/-- The output with that table. -/
def starCrystal : List Str :=
  [c!" ELASTCON OPTION", c!" SYMMETRIZED ELASTIC CONSTANTS", c!""] ++ List.ofFn starTriangle ++ [c!" FINAL RESULTS START"]

/-- Its words. -/
def starEntry (i j : Fin 6) : Str := (words ((starTriangle i).filter (· ≠ '|'))).getD (j - i) []

theorem starEntries : CrystalWords starCrystal starEntry := by
  refine ⟨⟨_, List.mem_cons_self, hasSub_iff.1 (by decide)⟩,
    ⟨c!" FINAL RESULTS START", by decide, hasSub_iff.1 (by decide)⟩,
    starCrystal.take 1, c!" SYMMETRIZED ELASTIC CONSTANTS", starCrystal.drop 2, by decide +kernel, hasSub_iff.1 (by decide),
    ?_, fun i => ?_⟩
  · intro l hl h
    exact absurd (hasSub_iff.2 h) ((by decide +kernel : ∀ l ∈ starCrystal.take 1, ¬ hasSub soecEc l = true) l hl)
  · refine ⟨starTriangle i, by revert i; decide +kernel, words_witness ?_ ?_⟩ <;> (revert i; decide +kernel)

theorem starEntry_bad : FirstBad starEntry (fun i j => i ≤ j) 1 2 := by
  refine ⟨by decide, by decide +kernel, fun i j h0 h => ?_⟩
  have h1 : ∀ i j, i ≤ j → Before (i, j) (1, 2) →
      (parseFloat (starEntry i j)).isSome = true ∧ starEntry i j ≠ [] ∧ ∀ c ∈ starEntry i j, isSpace c = false := by
    decide +kernel
  obtain ⟨a, b⟩ := h1 i j h0 h
  obtain ⟨q, hq⟩ := Option.isSome_iff_exists.1 a
  exact ⟨q, parseFloat_token b hq⟩

theorem starDensity : Density starCrystal 0 := by
  refine .inr ⟨?_, rfl⟩
  rintro ⟨p, a, c, post, e, hc, -⟩
  have hm : c ∈ starCrystal := by rw [e]; simp
  exact absurd (hasSub_iff.2 hc) ((by decide +kernel : ∀ l ∈ starCrystal, ¬ hasSub geometryConsistent l = true) c hm)

example (d : CrystalData) := C76_element (isText_join starCrystal (by decide +kernel)) starEntries starDensity starEntry_bad d

end Verif.Interfaces
