/-
C56, C57, C58, C76: elastic moduli and density read from ab initio outputs.
-/
import Verif.IO.EoSProps
import Verif.IO.SoecProps
import Verif.Interfaces.SoecLemmas

namespace Verif.Interfaces
open Verif.Py Verif.IO Verif.IO.Spec

/-! ### Specification -/

namespace Spec

/-- The six components of strain. -/
inductive Comp | xx | yy | zz | yz | xz | xy
  deriving DecidableEq

/-- Voigt's order: 1 = xx, 2 = yy, 3 = zz, 4 = yz, 5 = xz, 6 = xy. -/
def voigt : Comp → Fin 6
  | .xx => 0 | .yy => 1 | .zz => 2 | .yz => 3 | .xz => 4 | .xy => 5

/-- The order of rows and columns in VASP's tables: XX YY ZZ XY YZ ZX. -/
def vasp : Comp → Fin 6
  | .xx => 0 | .yy => 1 | .zz => 2 | .xy => 3 | .yz => 4 | .xz => 5

/-- The components `yz` and `xz` exchanged. -/
def exchange : Comp → Comp
  | .yz => .xz | .xz => .yz | c => c

/-- The table `m` (in kBar) printed from line `k` on: six lines, each a label and six numbers. -/
def VaspTable (ls : List Str) (k : ℕ) (m : Mat) : Prop :=
  ∀ i : Fin 6, ∃ l label ts, ls[k + (i : ℕ)]? = some l ∧ Tokens (label :: ts) l ∧
    label ≠ [] ∧ (∀ c ∈ label, c ∉ whitespace) ∧ List.Forall₂ Numeral ts (List.ofFn (m i))

/-- A header of the total (relaxed-ion) moduli. -/
def TotalHeader (l : Str) : Prop := c!"TOTAL ELASTIC MODULI (kBar)" <:+: l

/-- A header of the clamped-ion moduli. -/
def ClampedHeader (l : Str) : Prop := c!"SYMMETRIZED ELASTIC MODULI (kBar)" <:+: l

/-- A VASP output with the clamped-ion moduli and one block of total moduli, which hold `m`: the
table starts three lines below its header (column titles and a rule in between). -/
def TotalOutput (ls : List Str) (m : Mat) : Prop :=
  ∃ pre h post, ls = pre ++ h :: post ∧ TotalHeader h ∧ (∀ l ∈ pre, ¬ TotalHeader l) ∧
    (∀ l ∈ post, ¬ TotalHeader l) ∧ (∃ l ∈ ls, ClampedHeader l) ∧ VaspTable ls (pre.length + 3) m

/-- A VASP output without total moduli; the last block of clamped-ion moduli holds `m`. -/
def ClampedOutput (ls : List Str) (m : Mat) : Prop :=
  ∃ pre h post, ls = pre ++ h :: post ∧ ClampedHeader h ∧ (∀ l ∈ post, ¬ ClampedHeader l) ∧
    (∀ l ∈ ls, ¬ TotalHeader l) ∧ VaspTable ls (pre.length + 3) m

/-- A line of CRYSTAL's triangular table: numbers, with vertical bars anywhere. -/
def BarNumbers (qs : List ℚ) (l : Str) : Prop := Numbers qs (l.filter (· ≠ '|'))

/-- A completed CRYSTAL run for elastic constants which prints the upper triangle of `m`: the table
starts two lines below the first header. -/
def CrystalOutput (ls : List Str) (m : Mat) : Prop :=
  (∃ l ∈ ls, c!"ELASTCON OPTION" <:+: l) ∧ (∃ l ∈ ls, c!"FINAL RESULTS START" <:+: l) ∧
  ∃ pre h post, ls = pre ++ h :: post ∧ c!"SYMMETRIZED ELASTIC CONSTANTS" <:+: h ∧
    (∀ l ∈ pre, ¬ c!"SYMMETRIZED ELASTIC CONSTANTS" <:+: l) ∧
    ∀ i : Fin 6, ∃ l, ls[pre.length + 2 + (i : ℕ)]? = some l ∧
      BarNumbers (rowNumbers .upper m i) l

/-- The line that describes the primitive cell of the input geometry: the first one at or after the
message that the geometry is consistent with the group. -/
def CellLine (ls : List Str) (p : Str) : Prop :=
  ∃ a c post, ls = a ++ c :: post ∧ c!"GEOMETRY NOW FULLY CONSISTENT WITH THE GROUP" <:+: c ∧
    (∀ l ∈ a, ¬ c!"GEOMETRY NOW FULLY CONSISTENT WITH THE GROUP" <:+: l) ∧
    ∃ b rest, c :: post = b ++ p :: rest ∧ (∀ l ∈ b, ¬ c!"PRIMITIVE CELL - " <:+: l) ∧
      c!"PRIMITIVE CELL - " <:+: p

/-- The density printed in a line: its last but one word. -/
def PrintedDensity (p : Str) (q : ℚ) : Prop :=
  ∃ ws t unit, Words (ws ++ [t, unit]) p ∧ Numeral t q

/-- The density of an output in kg/m³ (the line gives g/cm³), zero when there is no such line. -/
def Density (ls : List Str) (rho : ℚ) : Prop :=
  (∃ p q, CellLine ls p ∧ PrintedDensity p q ∧ rho = 1000 * q) ∨ (¬ ∃ p, CellLine ls p) ∧ rho = 0

end Spec
open Spec

/-! ### VASP -/

theorem vaspTable_word {ls : List Str} {k : ℕ} {m : Mat} (h : VaspTable ls k m) (i j : Fin 6) :
    ∃ t, vaspWord ls k i j = some t ∧ parseFloat t = some (m i j) := by
  obtain ⟨l, label, ts, hl, ht, hn, hw, hf⟩ := h i
  have hlt : IsToken label := by
    refine ⟨hn, fun c hc => ?_⟩
    have := hw c hc
    simp only [whitespace, List.mem_cons, List.not_mem_nil, or_false, not_or] at this
    simp [isSpace, this]
  have e : words l = label :: ts := words_tokens ht fun t ht => by
    rcases List.mem_cons.1 ht with rfl | ht
    · exact hlt
    · exact tokens_numerals hf t ht
  have hlen : ts.length = 6 := by rw [hf.length_eq]; simp
  have hj : (j : ℕ) < ts.length := by rw [hlen]; exact j.isLt
  refine ⟨ts[j], ?_, ?_⟩
  · rw [vaspWord, add_comm, hl]
    simp [e, hj]
  · have := List.Forall₂.get hf hj (by simp)
    have h2 := parseFloat_numeral this
    rw [List.get_eq_getElem, List.get_eq_getElem, List.getElem_ofFn] at h2
    exact h2

theorem vaspLines_table {ls : List Str} {k : ℕ} {m : Mat} (hv : isVasp ls = true)
    (hk : vaspStart ls = .ok k) (h : VaspTable ls k m) (S : Mat) :
    vaspLines ls S = (fun i j => m (Equiv.swap 3 5 i) (Equiv.swap 3 5 j) / 10, .ok ⟨true, none⟩) := by
  rw [vaspLines, if_pos hv, hk]
  simp only
  rw [fill_ok (m := m) allCells fun p _ => vaspTable_word h p.1 p.2]
  simp [mem_allCells]

theorem total_start {ls : List Str} {m : Mat} (h : TotalOutput ls m) :
    ∃ k, isVasp ls = true ∧ vaspStart ls = .ok k ∧ VaspTable ls k m := by
  obtain ⟨pre, h, post, rfl, hh, h1, h2, ⟨l, hl, hc⟩, ht⟩ := h
  refine ⟨pre.length + 3, List.any_eq_true.2 ⟨l, hl, hasSub_iff.2 hc⟩, ?_, ht⟩
  rw [vaspStart, List.foldl_append, List.foldl_cons]
  obtain ⟨a1, -⟩ := scan_plain pre h1 ⟨0, none, none⟩
  obtain ⟨-, b2⟩ := scan_total hh (pre.foldl scanLine ⟨0, none, none⟩)
  obtain ⟨-, c2⟩ := scan_plain post h2 (scanLine (pre.foldl scanLine ⟨0, none, none⟩) h)
  simp only [c2, b2, a1, Nat.zero_add]

theorem scan_clamped (ls : List Str) (h : ∀ l ∈ ls, ¬ ClampedHeader l) (s : Scan) :
    (ls.foldl scanLine s).clamped = s.clamped := by
  induction ls generalizing s with
  | nil => rfl
  | cons l ls ih =>
    have h0 : hasSub soecClamped l = false := by
      rw [Bool.eq_false_iff, Ne, hasSub_iff]; exact h l (by simp)
    rw [List.foldl_cons, ih fun x hx => h x (by simp [hx])]
    by_cases hc : hasSub soecRelaxed l = true <;> simp [scanLine, h0, hc]

theorem clamped_start {ls : List Str} {m : Mat} (h : ClampedOutput ls m) :
    ∃ k, isVasp ls = true ∧ vaspStart ls = .ok k ∧ VaspTable ls k m := by
  obtain ⟨pre, h, post, rfl, hh, h1, h2, ht⟩ := h
  refine ⟨pre.length + 3, List.any_eq_true.2 ⟨h, by simp, hasSub_iff.2 hh⟩, ?_, ht⟩
  obtain ⟨a1, a2⟩ := scan_plain pre (fun l hl => h2 l (by simp [hl])) ⟨0, none, none⟩
  have hr : ((pre ++ h :: post).foldl scanLine ⟨0, none, none⟩).relaxed = none :=
    (scan_plain _ h2 _).2
  have hcl : ((pre ++ h :: post).foldl scanLine ⟨0, none, none⟩).clamped =
      some (pre.length + 3) := by
    rw [List.foldl_append, List.foldl_cons, scan_clamped post h1]
    have h0 : hasSub soecRelaxed h = false := by
      rw [Bool.eq_false_iff, Ne, hasSub_iff]; exact h2 h (by simp)
    have h3 : hasSub soecClamped h = true := hasSub_iff.2 hh
    simp [scanLine, h0, h3, a1]
  rw [vaspStart]
  simp only [hr, hcl]

/-- C57: the numbers returned are those of the total moduli when the output contains one block of
them, otherwise those of the (last) clamped-ion block, whatever was read before.  (Their order is
the subject of C56.)  Missing: outputs with several blocks of total moduli
(`C57_two_totals_violated`). -/
theorem C57_rows_partial {ls : List Str} {text : Str} {m : Mat} (hf : IsText ls text)
    (h : TotalOutput ls m ∨ ClampedOutput ls m) (S : Mat) :
    ∃ S', loadVasp text S = (S', .ok ⟨true, none⟩) ∧
      ∃ π : Equiv.Perm (Fin 6), ∀ i j, S' i j = m (π i) (π j) / 10 := by
  have : ∃ k, isVasp ls = true ∧ vaspStart ls = .ok k ∧ VaspTable ls k m :=
    h.elim total_start clamped_start
  obtain ⟨k, h1, h2, h3⟩ := this
  rw [loadVasp_text hf, vaspLines_table h1 h2 h3]
  exact ⟨_, rfl, Equiv.swap 3 5, fun i j => rfl⟩

/-- C57: an output without elastic moduli is refused with an error, and nothing is changed. -/
theorem C57_refused {ls : List Str} {text : Str} (hf : IsText ls text)
    (h : ∀ l ∈ ls, ¬ ClampedHeader l) (S : Mat) :
    loadVasp text S = (S, .ok ⟨false, some .notOutput⟩) := by
  have : isVasp ls = false := by
    rw [Bool.eq_false_iff]
    intro hv
    obtain ⟨l, hl, hc⟩ := List.any_eq_true.1 hv
    exact h l hl (hasSub_iff.1 hc)
  rw [loadVasp_text hf, vaspLines, if_neg (by simp [this])]

/-- C57 fails for outputs with two blocks of total moduli (for example two ionic steps): the line
counter skips the first header, the rule above the second table is taken for its first row, and the
reader raises IndexError. -/
theorem C57_two_totals_violated {ls a b post : List Str} {h1 h2 titles rule : Str} {text : Str}
    (hf : IsText ls text) (e : ls = a ++ h1 :: (b ++ h2 :: titles :: rule :: post))
    (hh1 : TotalHeader h1) (hh2 : TotalHeader h2) (ha : ∀ l ∈ a, ¬ TotalHeader l)
    (hb : ∀ l ∈ b, ¬ TotalHeader l) (hp : ∀ l ∈ titles :: rule :: post, ¬ TotalHeader l)
    (hc : ∃ l ∈ ls, ClampedHeader l) (hr : ∃ g d, Blank g ∧ rule = g ++ List.replicate d '-')
    (S : Mat) : loadVasp text S = (S, .error .indexError) := by
  obtain ⟨l, hl, hc⟩ := hc
  have hv : isVasp ls = true := List.any_eq_true.2 ⟨l, hl, hasSub_iff.2 hc⟩
  have hs : vaspStart ls = .ok (a.length + b.length + 3) := by
    rw [e, vaspStart, List.foldl_append, List.foldl_cons, List.foldl_append, List.foldl_cons]
    obtain ⟨a1, -⟩ := scan_plain a ha ⟨0, none, none⟩
    set s1 := a.foldl scanLine ⟨0, none, none⟩
    obtain ⟨b1, -⟩ := scan_total hh1 s1
    set s2 := scanLine s1 h1
    obtain ⟨c1, -⟩ := scan_plain b hb s2
    set s3 := b.foldl scanLine s2
    obtain ⟨-, d2⟩ := scan_total hh2 s3
    obtain ⟨-, f2⟩ := scan_plain _ hp (scanLine s3 h2)
    simp only [f2, d2, c1, b1, a1, Nat.zero_add]
  have hw : words rule = [] ∨ ∃ t, words rule = [t] := by
    obtain ⟨g, d, hg, rfl⟩ := hr
    rw [words_spaces (blank_space hg)]
    cases d with
    | zero => exact .inl words_nil
    | succ d =>
      refine .inr ⟨_, words_plain (fun c hc => ?_) (by simp [List.replicate_succ])⟩
      rw [List.eq_of_mem_replicate hc]; decide
  have hrow : ls[a.length + b.length + 3]? = some rule := by
    rw [e, List.getElem?_append_right (by omega)]
    have : a.length + b.length + 3 - a.length = (b.length + 2) + 1 := by omega
    rw [this, List.getElem?_cons_succ, List.getElem?_append_right (by omega)]
    simp
  rw [loadVasp_text hf, vaspLines, if_pos hv, hs]
  have hc0 : allCells = (0, 0) :: allCells.tail := by decide
  have hnone : vaspWord ls (a.length + b.length + 3) 0 0 = none := by
    have : ((0 : Fin 6) : ℕ) + (a.length + b.length + 3) = a.length + b.length + 3 := by simp
    rw [vaspWord, this, hrow]
    rcases hw with hw | ⟨t, hw⟩ <;> simp [hw]
  simp only
  rw [hc0, fill, hnone]

/-- C56: the components without `yz` and `xz` stand where Voigt's notation wants them, in GPa.
Missing: `C56_shear_violated`. -/
theorem C56_components_partial {ls : List Str} {text : Str} {m : Mat} (hf : IsText ls text)
    (h : TotalOutput ls m ∨ ClampedOutput ls m) (S : Mat) {p q : Comp}
    (hp : p ≠ .yz ∧ p ≠ .xz) (hq : q ≠ .yz ∧ q ≠ .xz) :
    (loadVasp text S).1 (voigt p) (voigt q) = m (vasp p) (vasp q) / 10 := by
  have : ∃ k, isVasp ls = true ∧ vaspStart ls = .ok k ∧ VaspTable ls k m :=
    h.elim total_start clamped_start
  obtain ⟨k, h1, h2, h3⟩ := this
  rw [loadVasp_text hf, vaspLines_table h1 h2 h3]
  have key : ∀ p : Comp, p ≠ .yz ∧ p ≠ .xz → Equiv.swap 3 5 (voigt p) = vasp p := by
    intro p hp
    cases p <;> first | decide | exact absurd rfl hp.1 | exact absurd rfl hp.2
  simp only [key p hp, key q hq]

/-- C56 fails: the rows and columns of `yz` and `xz` are exchanged.  The result is right exactly
when the moduli do not change under that exchange. -/
theorem C56_shear_violated {ls : List Str} {text : Str} {m : Mat} (hf : IsText ls text)
    (h : TotalOutput ls m ∨ ClampedOutput ls m) (S : Mat) :
    (∀ p q, (loadVasp text S).1 (voigt p) (voigt q) = m (vasp (exchange p)) (vasp (exchange q)) / 10) ∧
    ((∀ p q, (loadVasp text S).1 (voigt p) (voigt q) = m (vasp p) (vasp q) / 10) ↔
      ∀ p q, m (vasp (exchange p)) (vasp (exchange q)) = m (vasp p) (vasp q)) := by
  have : ∃ k, isVasp ls = true ∧ vaspStart ls = .ok k ∧ VaspTable ls k m :=
    h.elim total_start clamped_start
  obtain ⟨k, h1, h2, h3⟩ := this
  rw [loadVasp_text hf, vaspLines_table h1 h2 h3]
  have key : ∀ p : Comp, Equiv.swap 3 5 (voigt p) = vasp (exchange p) := by
    intro p; cases p <;> decide
  refine ⟨fun p q => by simp only [key], ?_⟩
  simp only [key]
  refine forall_congr' fun p => forall_congr' fun q => ?_
  rw [div_left_inj' (by norm_num)]

/-! ### CRYSTAL -/

theorem crystalStart_first {pre post : List Str} {h : Str} (hh : soecEc <:+: h)
    (hp : ∀ l ∈ pre, ¬ soecEc <:+: l) : crystalStart (pre ++ h :: post) = pre.length + 2 := by
  induction pre with
  | nil => simp [crystalStart, (hasSub_iff.2 hh : hasSub soecEc h = true)]
  | cons l pre ih =>
    have h0 : hasSub soecEc l = false := by
      rw [Bool.eq_false_iff, Ne, hasSub_iff]; exact hp l (by simp)
    rw [List.cons_append, crystalStart, if_neg (by simp [h0]), ih fun x hx => hp x (by simp [hx]),
      List.length_cons, Nat.add_right_comm]

theorem crystal_word {ls : List Str} {k : ℕ} {m : Mat}
    (h : ∀ i : Fin 6, ∃ l, ls[k + (i : ℕ)]? = some l ∧ BarNumbers (rowNumbers .upper m i) l) (i j : Fin 6)
    (hij : i ≤ j) : ∃ t, crystalWord ls k i j = some t ∧ parseFloat t = some (m i j) := by
  obtain ⟨l, hl, ts, ht, hf⟩ := h i
  have e : words (l.filter (· ≠ '|')) = ts := words_tokens ht (tokens_numerals hf)
  have hlen : ts.length = 6 - i.val := by rw [hf.length_eq]; simp [rowNumbers]
  have hj : (j : ℕ) - i < ts.length := by
    rw [hlen]; have := j.isLt; omega
  refine ⟨ts[(j : ℕ) - i], ?_, ?_⟩
  · rw [crystalWord, add_comm, hl]
    simp only [Option.bind_some, e]
    simp [hj]
  · have := List.Forall₂.get hf hj (by rw [← hf.length_eq]; exact hj)
    have h2 := parseFloat_numeral this
    simp only [List.get_eq_getElem, rowNumbers, List.getElem_drop, List.getElem_ofFn] at h2
    rw [h2]
    congr 2
    exact Fin.ext (by simp; omega)

theorem density_before {a : List Str} (h : ∀ l ∈ a, ¬ geometryConsistent <:+: l) (rest : List Str) :
    crystalDensity false (a ++ rest) = crystalDensity false rest := by
  induction a with
  | nil => rfl
  | cons l a ih =>
    have h0 : hasSub geometryConsistent l = false := by
      rw [Bool.eq_false_iff, Ne, hasSub_iff]; exact h l (by simp)
    rw [List.cons_append, crystalDensity, if_neg (by simp [h0])]
    simp only [h0, Bool.or_self]
    exact ih fun x hx => h x (by simp [hx])

theorem density_between {b : List Str} (h : ∀ l ∈ b, ¬ primitiveCell <:+: l) (rest : List Str) :
    crystalDensity true (b ++ rest) = crystalDensity true rest := by
  induction b with
  | nil => rfl
  | cons l b ih =>
    have h0 : hasSub primitiveCell l = false := by
      rw [Bool.eq_false_iff, Ne, hasSub_iff]; exact h l (by simp)
    rw [List.cons_append, crystalDensity, if_neg (by simp [h0])]
    simp only [Bool.true_or]
    exact ih fun x hx => h x (by simp [hx])

theorem density_line {p : Str} {q : ℚ} {c : Bool} (hp : primitiveCell <:+: p)
    (hc : c = true ∨ geometryConsistent <:+: p) (hq : PrintedDensity p q) (rest : List Str) :
    crystalDensity c (p :: rest) = .ok (q * 1000) := by
  obtain ⟨ws, t, unit, hw, ht⟩ := hq
  have e := words_of hw
  have hcc : (c || hasSub geometryConsistent p) = true := by
    rcases hc with rfl | hc
    · rfl
    · simp [hasSub_iff.2 hc]
  rw [crystalDensity, if_pos ⟨hasSub_iff.2 hp, hcc⟩, e]
  simp [parseFloat_numeral ht]

theorem density_flag {c : Str} (h : geometryConsistent <:+: c) (rest : List Str) :
    crystalDensity false (c :: rest) = crystalDensity true (c :: rest) := by
  have h0 : hasSub geometryConsistent c = true := hasSub_iff.2 h
  simp only [crystalDensity, h0, Bool.or_true]

theorem density_ok {ls : List Str} {rho : ℚ} (h : Density ls rho) :
    crystalDensity false ls = .ok rho := by
  rcases h with ⟨p, q, ⟨a, c, post, rfl, h0, h1, b, rest, e, h2, h3⟩, hq, rfl⟩ | ⟨hno, rfl⟩
  · rw [density_before h1, density_flag h0, e, density_between h2, density_line h3 (.inl rfl) hq,
      mul_comm]
  · have key : ∀ ls : List Str, (∀ l ∈ ls, ¬ primitiveCell <:+: l) → crystalDensity true ls = .ok 0 := by
      intro ls hl
      have := density_between hl []
      rwa [List.append_nil] at this
    have hfirst : ∀ (P : Str → Prop) (ls : List Str), (∃ l ∈ ls, P l) →
        ∃ a c b, ls = a ++ c :: b ∧ P c ∧ ∀ l ∈ a, ¬ P l := by
      intro P ls
      induction ls with
      | nil => rintro ⟨l, hl, -⟩; cases hl
      | cons x ls ih =>
        rintro ⟨l, hl, hP⟩
        by_cases hx : P x
        · exact ⟨[], x, ls, rfl, hx, by simp⟩
        · have : ∃ l ∈ ls, P l := by
            rcases List.mem_cons.1 hl with rfl | hl
            · exact absurd hP hx
            · exact ⟨l, hl, hP⟩
          obtain ⟨a, c, b, rfl, h1, h2⟩ := ih this
          exact ⟨x :: a, c, b, rfl, h1, by
            intro l hl
            rcases List.mem_cons.1 hl with rfl | hl
            · exact hx
            · exact h2 l hl⟩
    by_cases hg : ∃ l ∈ ls, geometryConsistent <:+: l
    · obtain ⟨a, c, b, rfl, h1, h2⟩ := hfirst _ ls hg
      have hb : ∀ l ∈ c :: b, ¬ primitiveCell <:+: l := by
        intro l hl hlp
        obtain ⟨x, p, y, e, h3, h4⟩ := hfirst _ (c :: b) ⟨l, hl, hlp⟩
        exact hno ⟨p, a, c, b, rfl, h1, h2, x, y, e, h4, h3⟩
      rw [density_before h2, density_flag h1, key _ hb]
    · push Not at hg
      have := density_before hg []
      rwa [List.append_nil] at this

/-- Reading a CRYSTAL output: the upper triangle is the printed one, the numbers below the diagonal
are the printed ones added to what the class held before. -/
theorem loadCrystal_ok {ls : List Str} {text : Str} {m : Mat} {rho : ℚ} (hf : IsText ls text)
    (h : CrystalOutput ls m) (hd : Density ls rho) (d : CrystalData) :
    loadCrystal text d = (⟨fun i j => if i ≤ j then m i j else d.stiffness i j + m j i, rho⟩,
      .ok ⟨true, none⟩) := by
  obtain ⟨⟨l1, hl1, ho⟩, ⟨l2, hl2, hc⟩, pre, hd', post, rfl, hh, hp, ht⟩ := h
  have a1 : (pre ++ hd' :: post).any (hasSub soecOption) = true :=
    List.any_eq_true.2 ⟨l1, hl1, hasSub_iff.2 ho⟩
  have a2 : (pre ++ hd' :: post).any (hasSub soecCompleted) = true :=
    List.any_eq_true.2 ⟨l2, hl2, hasSub_iff.2 hc⟩
  rw [loadCrystal_text hf, crystalLines, a1, a2, density_ok hd, crystalStart_first hh hp]
  simp only [Bool.not_true, if_false, Bool.false_eq_true]
  rw [fill_ok (m := m) upperCells fun p hp => crystal_word ht p.1 p.2 ((mem_upperCells p).1 hp)]
  simp only [mem_upperCells, div_one]
  congr 2
  funext i j
  have ij : (1 ≤ (i : ℤ) - j) ↔ ¬ i ≤ j := by
    rw [not_le, Fin.lt_def]; omega
  simp only [triu, ij]
  by_cases h1 : i ≤ j
  · simp [h1]
  · simp [h1, le_of_lt (not_le.1 h1)]

/-- C58: the first CRYSTAL output read by a process gives the symmetric matrix with the printed
upper triangle.  Missing: `C58_history_violated`. -/
theorem C58_symmetric_partial {ls : List Str} {text : Str} {m : Mat} {rho : ℚ} (hf : IsText ls text)
    (h : CrystalOutput ls m) (hd : Density ls rho) :
    ∃ d, loadCrystal text .initial = (d, .ok ⟨true, none⟩) ∧
      (∀ i j, i ≤ j → d.stiffness i j = m i j) ∧ IO.Spec.Symmetric d.stiffness := by
  refine ⟨_, loadCrystal_ok hf h hd _, fun i j hij => by simp [hij], fun i j => ?_⟩
  by_cases h1 : i ≤ j
  · by_cases h2 : j ≤ i
    · rw [le_antisymm h1 h2]
    · simp [h1, h2, CrystalData.initial]
  · have h2 : j ≤ i := le_of_lt (not_le.1 h1)
    simp [h1, h2, CrystalData.initial]

/-- The matrix found after reading several outputs, one after the other. -/
def readAll (texts : List Str) : CrystalData :=
  texts.foldl (fun d t => (loadCrystal t d).1) .initial

/-- C58 fails from the second output on: the elements below the diagonal add up over all the outputs
read by the process, those above belong to the last one. -/
theorem C58_history_violated {files : List (Str × List Str × Mat × ℚ)} {text : Str} {ls : List Str}
    {m : Mat} {rho : ℚ} (hall : ∀ f ∈ files, IsText f.2.1 f.1 ∧ CrystalOutput f.2.1 f.2.2.1 ∧
      Density f.2.1 f.2.2.2) (hf : IsText ls text) (h : CrystalOutput ls m) (hd : Density ls rho)
    {i j : Fin 6} (hij : i < j) :
    (readAll (files.map (·.1) ++ [text])).stiffness i j = m i j ∧
    (readAll (files.map (·.1) ++ [text])).stiffness j i =
      (files.map fun f => f.2.2.1 i j).sum + m i j := by
  have key : ∀ (files : List (Str × List Str × Mat × ℚ)) (d : CrystalData),
      (∀ f ∈ files, IsText f.2.1 f.1 ∧ CrystalOutput f.2.1 f.2.2.1 ∧ Density f.2.1 f.2.2.2) →
      ((files.map (·.1)).foldl (fun d t => (loadCrystal t d).1) d).stiffness j i =
        d.stiffness j i + (files.map fun f => f.2.2.1 i j).sum := by
    intro files
    induction files with
    | nil => intro d _; simp
    | cons f files ih =>
      intro d hd
      obtain ⟨h1, h2, h3⟩ := hd f (by simp)
      rw [List.map_cons, List.foldl_cons, ih _ fun x hx => hd x (by simp [hx]),
        loadCrystal_ok h1 h2 h3, List.map_cons, List.sum_cons]
      simp only [if_neg (not_le.2 hij)]
      ring
  rw [readAll, List.foldl_append, List.foldl_cons, List.foldl_nil, loadCrystal_ok hf h hd]
  refine ⟨if_pos hij.le, ?_⟩
  simp only [if_neg (not_le.2 hij)]
  rw [key files _ hall]
  simp [CrystalData.initial]

/-- In particular, reading the same output twice spoils every matrix with a non-zero element off the
diagonal. -/
theorem C58_twice_violated {ls : List Str} {text : Str} {m : Mat} {rho : ℚ} (hf : IsText ls text)
    (h : CrystalOutput ls m) (hd : Density ls rho) :
    IO.Spec.Symmetric (readAll [text, text]).stiffness ↔ ∀ i j, i < j → m i j = 0 := by
  have key := fun {i j : Fin 6} (hij : i < j) => C58_history_violated (files := [(text, ls, m, rho)])
    (by simpa using ⟨hf, h, hd⟩) hf h hd hij
  simp only [List.map_cons, List.map_nil, List.singleton_append, List.sum_cons, List.sum_nil,
    add_zero] at key
  constructor
  · intro hs i j hij
    have := hs i j
    rw [(key hij).1, (key hij).2] at this
    linarith
  · intro hz i j
    rcases lt_trichotomy i j with hij | rfl | hij
    · rw [(key hij).1, (key hij).2, hz i j hij, add_zero]
    · rfl
    · rw [(key hij).1, (key hij).2, hz j i hij, add_zero]

/-! ### C76 density -/

/-- C76: the density is the one printed for the input geometry, in kg/m³, whatever was read before;
it is zero when the output does not describe the primitive cell. -/
theorem C76_density {ls : List Str} {text : Str} {m : Mat} {rho : ℚ} (hf : IsText ls text)
    (h : CrystalOutput ls m) (hd : Density ls rho) (d : CrystalData) :
    (loadCrystal text d).1.density = rho := by
  rw [loadCrystal_ok hf h hd]

/-- Outputs of other or unfinished calculations are refused with an error; nothing is changed. -/
theorem C76_refused {ls : List Str} {text : Str} (hf : IsText ls text) (d : CrystalData)
    (h : (∀ l ∈ ls, ¬ c!"ELASTCON OPTION" <:+: l) ∨ ∀ l ∈ ls, ¬ c!"FINAL RESULTS START" <:+: l) :
    ∃ e, loadCrystal text d = (d, .ok ⟨false, some e⟩) := by
  have key : ∀ p : Str, (∀ l ∈ ls, ¬ p <:+: l) → ls.any (hasSub p) = false := by
    intro p hp
    rw [Bool.eq_false_iff]
    intro hv
    obtain ⟨l, hl, hc⟩ := List.any_eq_true.1 hv
    exact hp l hl (hasSub_iff.1 hc)
  rw [loadCrystal_text hf, crystalLines]
  rcases h with h | h
  · rw [key soecOption h]
    exact ⟨_, rfl⟩
  · by_cases h1 : ls.any (hasSub soecOption) = true
    · rw [h1, key soecCompleted h]
      exact ⟨_, rfl⟩
    · rw [Bool.not_eq_true] at h1
      rw [h1]
      exact ⟨_, rfl⟩

end Verif.Interfaces
