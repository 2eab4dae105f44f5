/-
The elastic input reader and writer: C47, C48 (elastic files) and C49.
-/
import Verif.IO.SoecLemmas
import Verif.IO.Witness

namespace Verif.IO
open Verif.Py Spec

namespace Spec

/-- A title line: its first visible character is not a digit. -/
def Title (l : Str) : Prop := ∃ g c t, Blank g ∧ c ∉ digits ∧ c ∉ [' ', '\t', '\n', '\r', '\x0b', '\x0c'] ∧
  l = g ++ c :: t

/-- A line whose first visible character is a digit. -/
def StartsWithDigit (l : Str) : Prop := ∃ g c t, Blank g ∧ c ∈ digits ∧ l = g ++ c :: t

/-- The rows of the full matrix, of its upper triangle and of its lower triangle. -/
inductive Layout | full | upper | lower
  deriving DecidableEq

/-- The numbers of row `i` in a layout. -/
def rowNumbers (y : Layout) (C : Mat) (i : Fin 6) : List ℚ :=
  match y with
  | .full => List.ofFn (C i)
  | .upper => (List.ofFn (C i)).drop i
  | .lower => (List.ofFn (C i)).take (i + 1)

/-- The lines of an elastic input: optional title, six rows, optional density line. -/
def SoecLines (y : Layout) (C : Mat) (title : Option Str) (density : Option ℚ) (ls : List Str) :
    Prop :=
  ∃ tl rows dl, ls = tl ++ List.ofFn rows ++ dl ∧
    (match title with
      | some t => Title t ∧ tl = [t]
      | none => tl = [] ∧ StartsWithDigit (rows 0)) ∧
    (∀ i, Numbers (rowNumbers y C i) (rows i)) ∧
    (match density with
      | some q => ∃ l more, Numbers (q :: more) l ∧ dl = [l]
      | none => dl = [])

/-- A symmetric matrix. -/
def Symmetric (C : Mat) : Prop := ∀ i j, C i j = C j i

end Spec

theorem title_space {c : Char} (h : c ∉ [' ', '\t', '\n', '\r', '\x0b', '\x0c']) : isSpace c = false := by
  simp only [List.mem_cons, List.not_mem_nil, or_false, not_or] at h
  simp [isSpace, h]

theorem ofFn_getD {n : ℕ} (f : Fin n → ℚ) (k : ℕ) (h : k < n) : (List.ofFn f).getD k 0 = f ⟨k, h⟩ := by
  rw [List.getD_eq_getElem?_getD, List.getElem?_eq_getElem (by simpa using h)]
  simp

theorem ofFn_getD_row (f : Mat) (i : Fin 6) (z : Fin 6 → ℚ) : (List.ofFn f).getD i z = f i := by
  rw [List.getD_eq_getElem?_getD, List.getElem?_ofFn, dif_pos i.isLt]
  rfl

theorem numbers_ne_nil {q : ℚ} {qs : List ℚ} {l : Str} (h : Numbers (q :: qs) l) : l ≠ [] := by
  rintro rfl
  have := numbers_words h (.inl rfl)
  rw [words_nil] at this
  cases this

theorem rowNumbers_length (y : Layout) (C : Mat) (i : Fin 6) :
    (rowNumbers y C i).length = match y with
      | .full => 6 | .upper => 6 - i.val | .lower => i.val + 1 := by
  have := i.isLt
  cases y <;> simp [rowNumbers]
  omega

theorem rowNumbers_ne_nil (y : Layout) (C : Mat) (i : Fin 6) : rowNumbers y C i ≠ [] := by
  intro h
  have h1 := rowNumbers_length y C i
  rw [h] at h1
  have := i.isLt
  cases y <;> simp at h1 <;> omega

/-- The matrix as filled, before completion. -/
def filled (y : Layout) (C : Mat) : Mat := fun i j =>
  match y with
  | .full => C i j
  | .upper => if i ≤ j then C i j else 0
  | .lower => if h : 5 - i.val ≤ j.val then C i ⟨j.val - (5 - i.val), by omega⟩ else 0

theorem fillRow_layout {y : Layout} {C : Mat} {i : Fin 6} {l r : Str}
    (h : Numbers (rowNumbers y C i) l) (hr : IsRaw r l) : fillRow r = .ok (filled y C i) := by
  have hl := rowNumbers_length y C i
  have hi := i.isLt
  rw [fillRow_ok (numbers_words h hr) (by cases y <;> simp only at hl <;> omega)]
  congr 1
  funext j
  have hj := j.isLt
  cases y
  · simp only at hl
    simp only [hl, filled, Nat.sub_self, Nat.zero_le, if_true, Nat.sub_zero]
    exact ofFn_getD (C i) j.val hj
  · simp only at hl
    simp only [hl, filled]
    rw [show 6 - (6 - i.val) = i.val by omega]
    by_cases c : i.val ≤ j.val
    · rw [if_pos c, if_pos (by exact c)]
      simp only [rowNumbers, List.getD_eq_getElem?_getD, List.getElem?_drop]
      rw [show i.val + (j.val - i.val) = j.val by omega, ← List.getD_eq_getElem?_getD]
      exact ofFn_getD (C i) j.val hj
    · rw [if_neg c, if_neg (by exact c)]
  · simp only at hl
    simp only [hl, filled]
    rw [show 6 - (i.val + 1) = 5 - i.val by omega]
    by_cases c : 5 - i.val ≤ j.val
    · rw [if_pos c, dif_pos c]
      simp only [rowNumbers, List.getD_eq_getElem?_getD]
      rw [List.getElem?_take_of_lt (by omega), ← List.getD_eq_getElem?_getD]
      exact ofFn_getD (C i) _ (by omega)
    · rw [if_neg c, dif_neg c]

theorem length_layout {y : Layout} {C : Mat} {i : Fin 6} {l : Str}
    (h : Numbers (rowNumbers y C i) l) : (words l).length = (rowNumbers y C i).length :=
  (numbers_words h (.inl rfl)).length_eq

/-- The form found by the reader. -/
def formOf : Layout → List ℕ
  | .full => [6, 6, 6, 6, 6, 6]
  | .upper => [6, 5, 4, 3, 2, 1]
  | .lower => [1, 2, 3, 4, 5, 6]

theorem form_layout {y : Layout} {C : Mat} {rows : Fin 6 → Str}
    (h : ∀ i, Numbers (rowNumbers y C i) (rows i)) :
    ((List.ofFn rows).map fun l => (words l).length) = formOf y := by
  have e : ∀ i, (words (rows i)).length = _ := fun i =>
    (length_layout (h i)).trans (rowNumbers_length y C i)
  rw [List.map_ofFn]
  have : (fun l => (words l).length) ∘ rows = fun i => (words (rows i)).length := rfl
  rw [this]
  simp only [e]
  cases y <;> rfl

/-- Reading any file in one of the three layouts. -/
theorem load_layout {y : Layout} {C : Mat} {title : Option Str} {density : Option ℚ}
    {ls : List Str} {text : Str} (h : SoecLines y C title density ls) (hf : IsFile ls text)
    (d : SoecData) :
    loadSoec text d =
      (let d := match title with | some t => { d with job := rstrip t } | none => d
       let m := complete (formOf y) (filled y C)
       if asymmetric m then (d, .ok ⟨false, some .notSymmetric⟩)
       else ({ d with stiffness := some m, density := density.getD d.density }, .ok ⟨true, none⟩)) := by
  obtain ⟨tl, rows, dl, rfl, ht, hrows, hd⟩ := h
  have hrl : (List.ofFn rows).length = 6 := by simp
  have hcons : List.ofFn rows ≠ [] := by intro e; rw [e] at hrl; simp at hrl
  have hne : tl ++ List.ofFn rows ++ dl ≠ [] := by
    intro e
    have := congrArg List.length e
    simp at this
  have hlast : (tl ++ List.ofFn rows ++ dl).getLast hne ≠ [] := by
    cases density with
    | some q =>
      obtain ⟨l, more, hl, rfl⟩ := hd
      simp only [List.getLast_append_singleton]
      exact numbers_ne_nil hl
    | none =>
      subst hd
      simp only [List.append_nil]
      rw [List.getLast_append_of_ne_nil _ hcons]
      have : (List.ofFn rows).getLast hcons ∈ List.ofFn rows := List.getLast_mem _
      obtain ⟨i, e⟩ := List.mem_ofFn.1 this
      rw [← e]
      have h0 := hrows i
      cases hq : rowNumbers y C i with
      | nil => exact absurd hq (rowNumbers_ne_nil y C i)
      | cons q qs => rw [hq] at h0; exact numbers_ne_nil h0
  have hv : List.Forall₂ (fun l v => ∀ r, IsRaw r l → fillRow r = .ok v) (List.ofFn rows)
      (List.ofFn (filled y C)) := by
    rw [List.ofFn_eq_map, List.ofFn_eq_map, List.forall₂_map_left_iff, List.forall₂_map_right_iff]
    exact List.forall₂_same.2 fun i _ r hr => fillRow_layout (hrows i) hr
  have hmat : (fun (i j : Fin 6) => (List.ofFn (filled y C)).getD i (fun _ => 0) j) = filled y C := by
    funext i j
    rw [ofFn_getD_row]
  have hdens : ∀ d : SoecData, readDensity dl[0]? d =
      ({ d with density := density.getD d.density }, .ok ⟨true, none⟩) := by
    intro d
    cases density with
    | none => subst hd; rfl
    | some q =>
      obtain ⟨l, more, hl, rfl⟩ := hd
      have hw := numbers_words hl (.inl rfl)
      cases hwl : words l with
      | nil => rw [hwl] at hw; cases hw
      | cons t ts =>
        rw [hwl] at hw
        rcases List.forall₂_cons.1 hw with ⟨h1, -⟩
        simp [readDensity, hwl, h1]
  cases title with
  | some t =>
    obtain ⟨⟨g, c, t', hg, hc, hsp, rfl⟩, rfl⟩ := ht
    have hcd : isDigit c = false := by
      cases hh : isDigit c with
      | false => rfl
      | true => exact absurd (mem_digits.2 hh) hc
    have e1 : ([g ++ c :: t'] ++ List.ofFn rows ++ dl).drop 1 = List.ofFn rows ++ dl := rfl
    have e2 : (([g ++ c :: t'] ++ List.ofFn rows ++ dl).drop 1).take 6 = List.ofFn rows := by
      rw [e1, List.take_append_of_le_length (by omega), List.take_of_length_le (by omega)]
    have e3 : ([g ++ c :: t'] ++ List.ofFn rows ++ dl)[1 + 6]? = dl[0]? := by
      rw [List.getElem?_append_right (by simp)]
      simp
    have := load_file hf hne hlast (g := g) (t := t') (c := c) rfl hg (title_space hsp)
      (start := 1) (by rw [hcd]; rfl) (by simp) (vs := List.ofFn (filled y C)) (by rw [e2]; exact hv) d
    rw [this]
    simp only [e2, e3, form_layout hrows, hmat, hdens, hcd]
    rfl
  | none =>
    obtain ⟨rfl, ⟨g, c, t', hg, hc, hrow⟩⟩ := ht
    have hcd : isDigit c = true := mem_digits.1 hc
    have hsp : isSpace c = false := digit_not_space hc
    have e2 : (([] ++ List.ofFn rows ++ dl).drop 0).take 6 = List.ofFn rows := by
      rw [List.drop_zero, List.nil_append, List.take_append_of_le_length (by omega),
        List.take_of_length_le (by omega)]
    have e3 : ([] ++ List.ofFn rows ++ dl)[0 + 6]? = dl[0]? := by
      rw [List.getElem?_append_right (by simp)]
      simp
    have hhead : ([] ++ List.ofFn rows ++ dl).head hne = g ++ c :: t' := by
      rw [← hrow]
      simp [List.ofFn_succ]
    have := load_file hf hne hlast hhead hg hsp
      (start := 0) (by rw [hcd]; rfl) (by simp) (vs := List.ofFn (filled y C)) (by rw [e2]; exact hv) d
    rw [this]
    simp only [e2, e3, form_layout hrows, hmat, hdens, hcd]
    rfl

theorem complete_full (C : Mat) : complete (formOf .full) (filled .full C) = C := by
  rw [complete, if_neg (by decide), if_neg (by decide)]
  rfl

theorem complete_upper {C : Mat} (hC : Symmetric C) :
    complete (formOf .upper) (filled .upper C) = C := by
  simp only [complete]
  rw [if_neg (by decide), if_pos (by decide)]
  funext i j
  simp only [filled, triu]
  rcases lt_trichotomy i j with h | rfl | h
  · have h' : i.val < j.val := h
    rw [if_pos h.le, if_neg (by omega), add_zero]
  · rw [if_pos le_rfl, if_neg (by omega), add_zero]
  · have h' : j.val < i.val := h
    rw [if_neg (not_le.2 h), if_pos (by omega), if_pos h.le, zero_add, hC j i]

theorem not_asymmetric {C : Mat} (hC : Symmetric C) : ¬ asymmetric C := by
  unfold asymmetric
  rw [Finset.sum_eq_zero]
  · norm_num
  · intro i _
    refine Finset.sum_eq_zero fun j _ => ?_
    rw [hC i j]
    ring

/-- One large difference makes a matrix asymmetric. -/
theorem asymmetric_of {m : Mat} {i j : Fin 6} (h : 1 / 1000 < |m i j - m j i|) : asymmetric m := by
  unfold asymmetric
  have h1 : (m i j - m j i) ^ 2 ≤ ∑ i, ∑ j, (m i j - m j i) ^ 2 := by
    refine le_trans ?_ (Finset.single_le_sum (f := fun i => ∑ j, (m i j - m j i) ^ 2)
      (fun i _ => Finset.sum_nonneg fun j _ => sq_nonneg _) (Finset.mem_univ i))
    exact Finset.single_le_sum (f := fun j => (m i j - m j i) ^ 2) (fun j _ => sq_nonneg _)
      (Finset.mem_univ j)
  refine lt_of_lt_of_le ?_ h1
  rw [← sq_abs (m i j - m j i)]
  exact pow_lt_pow_left₀ h (by norm_num) (by norm_num)

/-! ### C47 -/

/-- C47 for the layouts the reader understands: every file holding the full symmetric matrix or its
upper triangle, with any title line or none, with any layout of blanks and numerals, is read
completely, and the stored matrix is the one written.  The density is the first number of the
seventh line when there is one.  Missing: the lower triangle (`C47_lower_violated`) and untitled
files whose first number carries a sign or starts with a point (`C47_sign_violated`). -/
theorem C47_matrix_partial {y : Layout} (hy : y ≠ .lower) {C : Mat} (hC : Symmetric C)
    {title : Option Str} {density : Option ℚ} {ls : List Str} {text : Str}
    (h : SoecLines y C title density ls) (hf : IsFile ls text) (d : SoecData) :
    ∃ d', loadSoec text d = (d', .ok ⟨true, none⟩) ∧ d'.stiffness = some C ∧
      (∀ q, density = some q → d'.density = q) ∧
      (∀ t, title = some t → (∃ g, (∀ c ∈ g, c ∈ [' ', '\t', '\n', '\r', '\x0b', '\x0c']) ∧
        t = d'.job ++ g)) := by
  have hm : complete (formOf y) (filled y C) = C := by
    cases y with
    | full => exact complete_full C
    | upper => exact complete_upper hC
    | lower => exact absurd rfl hy
  rw [load_layout h hf d]
  simp only [hm, if_neg (not_asymmetric hC)]
  refine ⟨_, rfl, rfl, ?_, ?_⟩
  · rintro q rfl; rfl
  · rintro t rfl
    refine ⟨(t.reverse.takeWhile isSpace).reverse, ?_, ?_⟩
    · intro c hc
      have := List.all_eq_true.1 List.all_takeWhile c (List.mem_reverse.1 hc)
      simp only [isSpace, Bool.or_eq_true, decide_eq_true_eq] at this
      simp only [List.mem_cons, List.not_mem_nil, or_false]
      tauto
    · simp only [rstrip]
      rw [← List.reverse_append, List.takeWhile_append_dropWhile, List.reverse_reverse]

/-- C47 fails for the lower triangle: every such file whose first modulus is larger than 0.001 is
refused as not symmetric, although the manual promises it. -/
theorem C47_lower_violated {C : Mat} (hpos : 1 / 1000 < C 0 0) {title : Option Str}
    {density : Option ℚ} {ls : List Str} {text : Str}
    (h : SoecLines .lower C title density ls) (hf : IsFile ls text) (d : SoecData) :
    (loadSoec text d).2 = .ok ⟨false, some .notSymmetric⟩ := by
  have ha : asymmetric (complete (formOf .lower) (filled .lower C)) := by
    refine asymmetric_of (i := 0) (j := 5) ?_
    have e : complete (formOf .lower) (filled .lower C) 0 5 -
        complete (formOf .lower) (filled .lower C) 5 0 = C 0 0 := by
      simp only [complete]
      rw [if_pos (by decide), if_neg (by decide)]
      have a : tril (filled .lower C) 1 5 0 = filled .lower C 5 0 := by
        simp [tril]
      have b : tril (filled .lower C) 1 0 5 = 0 := by
        simp [tril]
      rw [a, b]
      have c : filled .lower C 0 5 = C 0 0 := by
        simp [filled]
      rw [c]; ring
    rw [e]
    exact lt_of_lt_of_le hpos (le_abs_self _)
  rw [load_layout h hf d]
  simp only [if_pos ha]

/-- C47 fails for files without a title whose first number carries a sign (or starts with a point):
the row of numbers is taken as the title, the file is refused. -/
theorem C47_sign_violated {C : Mat} {y : Layout} {rows : Fin 6 → Str}
    (_hrows : ∀ i, Numbers (rowNumbers y C i) (rows i)) {g t : Str} {c : Char} (hg : Blank g)
    (hc : c = '-' ∨ c = '+' ∨ c = '.') (h0 : rows 0 = g ++ c :: t) {text : Str}
    (hlast : rows 5 ≠ [])
    (hf : IsFile (List.ofFn rows) text) (d : SoecData) :
    loadSoec text d = ({ d with job := rstrip (rows 0) }, .ok ⟨false, some .shape⟩) := by
  have hne : List.ofFn rows ≠ [] := by
    intro e; have := congrArg List.length e; simp at this
  have hlast' : (List.ofFn rows).getLast hne ≠ [] := by
    rw [List.getLast_ofFn]; exact hlast
  have hraw := readlines_file hf hne hlast'
  have hlen : (readlines text).length = 6 := by rw [hraw.length_eq]; simp
  have hd0 : IsRaw ((readlines text).headD []) (rows 0) := by
    have := raw_head hraw hne
    simpa [List.ofFn_succ] using this
  have hs : isSpace c = false ∧ isDigit c = false := by
    rcases hc with rfl | rfl | rfl <;> decide
  have hstrip : (strip ((readlines text).headD [])).head? = some c := by
    rw [h0] at hd0
    exact strip_head_raw hg hs.1 hd0
  unfold loadSoec
  simp only [hlen, hstrip, hs.2, rstrip_raw hd0]
  rfl

/-- C47 fails for other shapes: a row with seven numbers is accepted and its first number is
ignored.  Here the first row has an extra number `x` in front of the six of a symmetric matrix. -/
theorem C47_shape_violated {C : Mat} (hC : Symmetric C) (x : ℚ) {t : Str} (ht : Title t)
    {rows : Fin 6 → Str} (h0 : Numbers (x :: List.ofFn (C 0)) (rows 0))
    (hrows : ∀ i, i ≠ 0 → Numbers (List.ofFn (C i)) (rows i)) {text : Str}
    (hf : IsFile (t :: List.ofFn rows) text) (d : SoecData) :
    loadSoec text d =
      ({ d with job := rstrip t, stiffness := some C }, .ok ⟨true, none⟩) := by
  obtain ⟨g, c, t', hg, hc, hsp, rfl⟩ := ht
  have hcd : isDigit c = false := by
    cases hh : isDigit c with
    | false => rfl
    | true => exact absurd (mem_digits.2 hh) hc
  have hne : (g ++ c :: t') :: List.ofFn rows ≠ [] := by simp
  have hlast : ((g ++ c :: t') :: List.ofFn rows).getLast hne ≠ [] := by
    rw [List.getLast_cons (by intro e; have := congrArg List.length e; simp at this),
      List.getLast_ofFn]
    have := hrows 5 (by decide)
    rw [List.ofFn_succ] at this
    exact numbers_ne_nil this
  have hv : List.Forall₂ (fun l v => ∀ r, IsRaw r l → fillRow r = .ok v) (List.ofFn rows)
      (List.ofFn C) := by
    rw [List.ofFn_eq_map, List.ofFn_eq_map, List.forall₂_map_left_iff, List.forall₂_map_right_iff]
    refine List.forall₂_same.2 fun i _ r hr => ?_
    by_cases hi : i = 0
    · subst hi
      rw [fillRow_seven (numbers_words h0 hr) (by simp)]
      congr 1
      funext j
      exact ofFn_getD (C 0) j.val j.isLt
    · have := fillRow_layout (y := .full) (C := C) (i := i) (hrows i hi) hr
      exact this
  have hmat : (fun (i j : Fin 6) => (List.ofFn C).getD i (fun _ => 0) j) = C := by
    funext i j
    rw [ofFn_getD_row]
  have e2 : (((g ++ c :: t') :: List.ofFn rows).drop 1).take 6 = List.ofFn rows := by
    rw [List.drop_one, List.tail_cons, List.take_of_length_le (by simp)]
  have e3 : ((g ++ c :: t') :: List.ofFn rows)[1 + 6]? = none := by
    rw [List.getElem?_eq_none]; simp
  have hform : ((List.ofFn rows).map fun l => (words l).length) ≠ [6, 5, 4, 3, 2, 1] ∧
      ((List.ofFn rows).map fun l => (words l).length) ≠ [1, 2, 3, 4, 5, 6] := by
    have hw : (words (rows 0)).length = 7 := by
      rw [(numbers_words h0 (.inl rfl)).length_eq]; simp
    constructor <;>
    · intro e
      rw [List.ofFn_succ, List.map_cons, hw] at e
      simp at e
  have := load_file hf hne hlast (g := g) (t := t') (c := c) rfl hg (title_space hsp)
      (start := 1) (by rw [hcd]; rfl) (by simp) (vs := List.ofFn C) (by rw [e2]; exact hv) d
  rw [this]
  simp only [e2, e3, hmat, complete, if_neg hform.1, if_neg hform.2, if_neg (not_asymmetric hC), hcd]
  rfl

theorem readDensity_ok {l : Option Str} {d d' : SoecData} {o : Outcome SoecError}
    (h : readDensity l d = (d', .ok o)) : d'.stiffness = d.stiffness := by
  unfold readDensity at h
  split at h
  · simp only [Prod.mk.injEq] at h; rw [← h.1]
  · split at h
    · simp only [Prod.mk.injEq] at h; rw [← h.1]
    · split at h <;> simp only [Prod.mk.injEq] at h <;> rw [← h.1]

/-- C47, for every text: data reported as complete hold a matrix whose entries `ij` and `ji` differ
by at most 0.001, every one of the six rows consists of numerals only, and those rows exist.
Missing: `C47_shape_violated` shows that the number of entries is not checked. -/
theorem C47_completed_partial {text : Str} {d d' : SoecData}
    (h : loadSoec text d = (d', .ok ⟨true, none⟩)) :
    (∃ M, d'.stiffness = some M ∧ ∀ i j, |M i j - M j i| ≤ 1 / 1000) ∧
    ∃ start, (start = 0 ∨ start = 1) ∧ 6 + start ≤ (readlines text).length ∧
      ∀ r ∈ ((readlines text).drop start).take 6, ∀ ts, Tokens ts (rstrip r) →
        (∀ t ∈ ts, t ≠ [] ∧ ∀ c ∈ t, c ∉ [' ', '\t', '\n', '\r', '\x0b', '\x0c']) →
        ∀ t ∈ ts, ∃ q, Numeral t q := by
  unfold loadSoec at h
  simp only at h
  split at h
  · simp at h
  rename_i hlen
  split at h
  · simp at h
  rename_i c hc
  have hst : (if isDigit c then 0 else 1) = 0 ∨ (if isDigit c then 0 else 1) = 1 := by
    split <;> simp
  generalize (if isDigit c then 0 else 1) = start at h hst
  generalize (if isDigit c then d else { d with job := rstrip ((readlines text).headD []) }) = d0 at h
  split at h
  · simp at h
  rename_i hlen2
  split at h
  · rename_i e he
    split at h <;> simp at h
  rename_i rows hrows
  split at h
  · simp at h
  rename_i hsym
  constructor
  · refine ⟨_, readDensity_ok h, ?_⟩
    intro i j
    by_contra hcon
    exact hsym (asymmetric_of (not_le.1 hcon))
  · refine ⟨start, hst, not_lt.1 hlen2, ?_⟩
    intro r hr ts hts htok t ht
    have hfill : ∃ v, fillRow r = .ok v := by
      generalize ((readlines text).drop start).take 6 = L at hr hrows
      clear hlen hc hlen2 h hsym hst
      induction L generalizing rows with
      | nil => simp at hr
      | cons l L ih =>
        simp only [fillRows, bind, Except.bind] at hrows
        cases hl : fillRow l with
        | error e => rw [hl] at hrows; simp at hrows
        | ok v =>
          rw [hl] at hrows
          simp only at hrows
          rcases List.mem_cons.1 hr with rfl | hr
          · exact ⟨v, hl⟩
          · cases hL : fillRows L with
            | error e => rw [hL] at hrows; simp at hrows
            | ok vs => exact ih vs hr hL
    obtain ⟨v, hv⟩ := hfill
    have htoks : ∀ t ∈ ts, IsToken t := fun t ht =>
      ⟨(htok t ht).1, fun c hc => title_space ((htok t ht).2 c hc)⟩
    have hw : words r = ts := by
      have : words (rstrip r) = words r := by
        have e : r = rstrip r ++ (r.reverse.takeWhile isSpace).reverse := by
          rw [rstrip, ← List.reverse_append, List.takeWhile_append_dropWhile, List.reverse_reverse]
        conv_rhs => rw [e]
        have hsp : ∀ c ∈ (r.reverse.takeWhile isSpace).reverse, isSpace c = true := fun c hc =>
          List.all_eq_true.1 List.all_takeWhile c (List.mem_reverse.1 hc)
        generalize (r.reverse.takeWhile isSpace).reverse = g at hsp
        generalize rstrip r = a
        cases g with
        | nil => simp
        | cons x g =>
          rw [words_append (hsp x (by simp))]
          have : words g = [] := by
            have := words_spaces (b := []) (g := g) fun c hc => hsp c (by simp [hc])
            simpa [words_nil] using this
          rw [this, List.append_nil]
      rw [← this]
      exact words_tokens hts htoks
    unfold fillRow at hv
    rw [hw] at hv
    simp only at hv
    have key : ∀ (toks : List (Str × ℕ)) (n : ℕ) (row v : Fin 6 → ℚ),
        toks.foldlM (setEntry n) row = .ok v → ∀ p ∈ toks, ∃ q, parseFloat p.1 = some q := by
      intro toks
      induction toks with
      | nil => intro n row v _ p hp; simp at hp
      | cons p toks ih =>
        intro n row v h p' hp'
        rw [List.foldlM_cons] at h
        cases hs : setEntry n row p with
        | error e => rw [hs] at h; simp [bind, Except.bind] at h
        | ok row' =>
          rw [hs] at h
          rcases List.mem_cons.1 hp' with rfl | hp'
          · unfold setEntry at hs
            simp only at hs
            split at hs
            · simp at hs
            · split at hs
              · simp at hs
              · rename_i q hq; exact ⟨q, hq⟩
          · exact ih n row' v h p' hp'
    obtain ⟨k, hk, hkt⟩ := List.getElem_of_mem ht
    obtain ⟨q, hq⟩ := key _ _ _ _ hv (t, k) (by
      rw [List.mk_mem_zipIdx_iff_getElem?, List.getElem?_eq_getElem hk, hkt])
    exact ⟨q, parseFloat_token (htoks t ht) hq⟩

/-- C47: a file with fewer than six lines is an error and leaves the data alone. -/
theorem C47_short {ls : List Str} {text : Str} (hf : IsFile ls text) (hne : ls ≠ [])
    (hlast : ls.getLast hne ≠ []) (h : ls.length < 6) (d : SoecData) :
    loadSoec text d = (d, .ok ⟨false, some .tooShort⟩) := by
  have hraw := readlines_file hf hne hlast
  unfold loadSoec
  simp only [hraw.length_eq]
  rw [if_pos h]

/-- C47: a file with a valid matrix whose seventh line starts with a word that is not a number is
an error. -/
theorem C47_density {y : Layout} (hy : y ≠ .lower) {C : Mat} (hC : Symmetric C) {title : Str}
    (ht : Title title) {rows : Fin 6 → Str} (hrows : ∀ i, Numbers (rowNumbers y C i) (rows i))
    {l w : Str} {ws : List Str} (hl : Tokens (w :: ws) l)
    (htok : ∀ t ∈ w :: ws, t ≠ [] ∧ ∀ c ∈ t, c ∉ [' ', '\t', '\n', '\r', '\x0b', '\x0c'])
    (hw : ∀ q, ¬ Numeral w q) {text : Str} (hf : IsFile (title :: List.ofFn rows ++ [l]) text)
    (d : SoecData) : (loadSoec text d).2 = .ok ⟨false, some .density⟩ := by
  obtain ⟨g, c, t', hg, hc, hsp, rfl⟩ := ht
  have hrl : (List.ofFn rows).length = 6 := by simp
  have hcd : isDigit c = false := by
    cases hh : isDigit c with
    | false => rfl
    | true => exact absurd (mem_digits.2 hh) hc
  have htoks : ∀ t ∈ w :: ws, IsToken t := fun t h =>
    ⟨(htok t h).1, fun c hc => title_space ((htok t h).2 c hc)⟩
  have hwl := words_tokens hl htoks
  have hwn : parseFloat w = none := by
    cases hp : parseFloat w with
    | none => rfl
    | some q => exact absurd (parseFloat_token (htoks w (by simp)) hp) (hw q)
  have hne : (g ++ c :: t') :: List.ofFn rows ++ [l] ≠ [] := by simp
  have hlast : ((g ++ c :: t') :: List.ofFn rows ++ [l]).getLast hne ≠ [] := by
    rw [List.getLast_append_singleton]
    rintro rfl
    rw [words_nil] at hwl
    simp at hwl
  have e1 : ((g ++ c :: t') :: List.ofFn rows ++ [l]).drop 1 = List.ofFn rows ++ [l] := rfl
  have e2 : (((g ++ c :: t') :: List.ofFn rows ++ [l]).drop 1).take 6 = List.ofFn rows := by
    rw [e1, List.take_append_of_le_length (by omega), List.take_of_length_le (by omega)]
  have e3 : ((g ++ c :: t') :: List.ofFn rows ++ [l])[1 + 6]? = some l := by
    rw [List.getElem?_append_right (by simp)]
    simp
  have hv : List.Forall₂ (fun l v => ∀ r, IsRaw r l → fillRow r = .ok v) (List.ofFn rows)
      (List.ofFn (filled y C)) := by
    rw [List.ofFn_eq_map, List.ofFn_eq_map, List.forall₂_map_left_iff, List.forall₂_map_right_iff]
    exact List.forall₂_same.2 fun i _ r hr => fillRow_layout (hrows i) hr
  have hmat : (fun (i j : Fin 6) => (List.ofFn (filled y C)).getD i (fun _ => 0) j) = filled y C := by
    funext i j
    rw [ofFn_getD_row]
  have hm : complete (formOf y) (filled y C) = C := by
    cases y with
    | full => exact complete_full C
    | upper => exact complete_upper hC
    | lower => exact absurd rfl hy
  rw [load_file hf hne hlast (g := g) (t := t') (c := c) rfl hg (title_space hsp)
      (start := 1) (by rw [hcd]; rfl) (by simp) (vs := List.ofFn (filled y C)) (by rw [e2]; exact hv) d]
  simp only [e2, e3, form_layout hrows, hmat, hm, if_neg (not_asymmetric hC)]
  simp only [readDensity, hwl, List.head?_cons, hwn]

/-! ### C48, elastic files -/

/-- C48 for elastic files with a title and a density: what the reader returns does not depend on
what was read before. -/
theorem C48_soec_partial {y : Layout} (hy : y ≠ .lower) {C : Mat} (hC : Symmetric C) {t : Str}
    {q : ℚ} {ls : List Str} {text : Str} (h : SoecLines y C (some t) (some q) ls)
    (hf : IsFile ls text) (d₁ d₂ : SoecData) : loadSoec text d₁ = loadSoec text d₂ := by
  have hm : complete (formOf y) (filled y C) = C := by
    cases y with
    | full => exact complete_full C
    | upper => exact complete_upper hC
    | lower => exact absurd rfl hy
  rw [load_layout h hf d₁, load_layout h hf d₂]
  simp only [hm, if_neg (not_asymmetric hC)]
  rfl

/-- C48 fails for elastic files without a density line: the reader reports the density of whatever
file was read before. -/
theorem C48_soec_density_violated {y : Layout} (hy : y ≠ .lower) {C : Mat} (hC : Symmetric C)
    {t : Str} {ls : List Str} {text : Str} (h : SoecLines y C (some t) none ls)
    (hf : IsFile ls text) (d : SoecData) (q : ℚ) :
    (loadSoec text { d with density := q }).1.density = q ∧
    (loadSoec text { d with density := q }).2 = .ok ⟨true, none⟩ := by
  have hm : complete (formOf y) (filled y C) = C := by
    cases y with
    | full => exact complete_full C
    | upper => exact complete_upper hC
    | lower => exact absurd rfl hy
  rw [load_layout h hf]
  simp [hm, not_asymmetric hC]

/-- C48 fails for elastic files without a title: the reader reports the title of whatever file was
read before. -/
theorem C48_soec_title_violated {y : Layout} {C : Mat} {q : Option ℚ} {ls : List Str} {text : Str}
    (h : SoecLines y C none q ls) (hf : IsFile ls text) (d : SoecData) :
    (loadSoec text d).1.job = d.job := by
  rw [load_layout h hf]
  simp only
  split <;> rfl

/-! ### C49 -/

theorem writeSoec_lines (C : Mat) (density : ℚ) {title : Str} (ht : Title title) :
    SoecLines .full (fun i j => printed 4 (C i j)) (some title) (some (printed 1 density))
      ([title] ++ (List.finRange 6).map (fun i => writeRow (C i)) ++
        [alignRight 9 (formatFixed 1 density)]) := by
  refine ⟨[title], fun i => writeRow (C i), _, by rw [List.ofFn_eq_map], ⟨ht, rfl⟩, ?_,
    ⟨_, [], density_numbers density, rfl⟩⟩
  intro i
  exact writeRow_numbers (C i)

theorem writeSoec_file (C : Mat) (density : ℚ) {title : Str} (ht : '\n' ∉ title) :
    IsFile ([title] ++ (List.finRange 6).map (fun i => writeRow (C i)) ++
        [alignRight 9 (formatFixed 1 density)]) (writeSoec C density title) := by
  refine ⟨?_, .inl (joinLines_eq _)⟩
  intro l hl
  simp only [List.mem_append, List.mem_singleton, List.mem_map] at hl
  rcases hl with (rfl | ⟨i, -, rfl⟩) | rfl
  · exact ht
  · exact numbers_no_newline (writeRow_numbers _)
  · exact numbers_no_newline (density_numbers _)

/-- C49: the generated file is read back completely, whatever was read before: the title is the one
given, every modulus is the given one rounded to four decimals, the density the given one rounded to
one decimal; values that have no more decimals come back exactly.  Titles must start with a visible
character other than a digit and not end in white space; missing: other titles
(`C49_title_violated`). -/
theorem C49_roundtrip_partial {C : Mat} (hC : Symmetric C) (density : ℚ) {title : Str}
    (ht : Title title) (hnl : '\n' ∉ title)
    (hend : ∀ c, title.getLast? = some c → c ∉ [' ', '\t', '\n', '\r', '\x0b', '\x0c'])
    (d : SoecData) :
    ∃ M ρ, loadSoec (writeSoec C density title) d =
        ({ job := title, stiffness := some M, density := ρ }, .ok ⟨true, none⟩) ∧
      (∀ i j, Rounded 4 (C i j) (M i j) ∧ ((∃ n : ℤ, C i j = n / 10 ^ 4) → M i j = C i j)) ∧
      Rounded 1 density ρ ∧ ((∃ n : ℤ, density = n / 10 ^ 1) → ρ = density) := by
  refine ⟨fun i j => printed 4 (C i j), printed 1 density, ?_, ?_, printed_rounded _ _,
    printed_exact⟩
  · rw [load_layout (writeSoec_lines C density ht) (writeSoec_file C density hnl) d]
    have hS : Symmetric (fun i j => printed 4 (C i j)) := fun i j => by
      show printed 4 (C i j) = printed 4 (C j i)
      rw [hC i j]
    simp only [complete_full, if_neg (not_asymmetric hS)]
    have hjob : rstrip title = title := rstrip_eq fun c hc => title_space (hend c hc)
    simp [hjob]
  · exact fun i j => ⟨printed_rounded _ _, printed_exact⟩

/-- C49 fails for titles that start with a digit, such as `2H-MoS2`: if the title is one word and not
a number, the generated file is refused, whatever the moduli. -/
theorem C49_title_violated (C : Mat) (density : ℚ) {c : Char} {t : Str} (hc : c ∈ digits)
    (ht : ∀ x ∈ t, x ∉ [' ', '\t', '\n', '\r', '\x0b', '\x0c']) (hn : ¬ ∃ q, Numeral (c :: t) q)
    (d : SoecData) :
    loadSoec (writeSoec C density (c :: t)) d = (d, .ok ⟨false, some .notFloat⟩) := by
  have hcd : isDigit c = true := mem_digits.1 hc
  have hsp : isSpace c = false := digit_not_space hc
  have htok : IsToken (c :: t) := by
    refine ⟨by simp, ?_⟩
    intro x hx
    rcases List.mem_cons.1 hx with rfl | hx
    · exact hsp
    · exact title_space (ht x hx)
  have hnl : '\n' ∉ c :: t := fun h => absurd (htok.2 _ h) (by decide)
  set ls := [c :: t] ++ (List.finRange 6).map (fun i => writeRow (C i)) ++
    [alignRight 9 (formatFixed 1 density)] with hls
  have hf := writeSoec_file C density hnl
  rw [← hls] at hf
  have hne : ls ≠ [] := by simp [hls]
  have hlast : ls.getLast hne ≠ [] := by
    simp only [hls, List.getLast_append_singleton]
    exact numbers_ne_nil (density_numbers density)
  have hraw := readlines_file hf hne hlast
  have hhead := raw_head hraw hne
  have hlen : (readlines (writeSoec C density (c :: t))).length = 8 := by
    rw [hraw.length_eq]; simp [hls]
  unfold loadSoec
  simp only
  generalize readlines (writeSoec C density (c :: t)) = data at hraw hhead hlen ⊢
  have hh : ls.head hne = c :: t := rfl
  rw [hh] at hhead
  have hp : parseFloat (c :: t) = none := by
    cases h : parseFloat (c :: t) with
    | none => rfl
    | some q => exact absurd ⟨q, parseFloat_token htok h⟩ hn
  have hstrip : (strip (data.headD [])).head? = some c :=
    strip_head_raw (g := []) (t := t) (fun _ h => by simp at h) hsp hhead
  have hwords : words (data.headD []) = [c :: t] := by
    rw [words_raw hhead]
    exact words_tokens (.last (g := []) fun _ h => by simp at h) (by simpa using htok)
  have hrow : fillRow (data.headD []) = .error .valueError := by
    unfold fillRow
    rw [hwords]
    simp [setEntry, hp]
  cases hd : data with
  | nil => rw [hd] at hlen; simp at hlen
  | cons r data' =>
    rw [hd] at hstrip hrow hlen
    simp only [List.headD_cons] at hstrip hrow
    have hfill : fillRows (((r :: data').drop 0).take 6) = .error .valueError := by
      simp only [List.drop_zero, List.take_succ_cons, fillRows, hrow, bind, Except.bind]
    simp only [List.headD_cons, hstrip, hcd, if_true, hlen, hfill]
    rfl

/-! ### Concrete files meeting the hypotheses -/

/-- A symmetric matrix. -/
def exampleC : Mat :=
  ![![297.5, 95, 95, 0, 0, -1.5], ![95, 297.5, 95, 0, 0, 0], ![95, 95, 297.5, 0, 0, 0],
    ![0, 0, 0, 155, 0, 0], ![0, 0, 0, 0, 155, 0], ![-1.5, 0, 0, 0, 0, 155]]

theorem exampleC_symmetric : Spec.Symmetric exampleC := by unfold Spec.Symmetric; decide +kernel

theorem example_title : Title c!"  MgO periclase" :=
  ⟨c!"  ", 'M', c!"gO periclase", by intro c hc; simp at hc; exact .inl hc, by decide, by decide, rfl⟩

/-- The rows of the upper triangle. -/
def exampleRows : Fin 6 → Str :=
  ![c!"297.5 95 9.5e1 0 0 -1.5 ", c!"\t297.5 +95. 0 0 0", c!"297.5 0 0 0", c!" 155 .0 0", c!"155 0",
    c!"155"]

theorem exampleRows_upper (i : Fin 6) : Numbers (rowNumbers .upper exampleC i) (exampleRows i) :=
  numbers_of (by revert i; decide) (by revert i; decide +kernel)

example : SoecLines .upper exampleC none none (List.ofFn exampleRows) :=
  ⟨[], exampleRows, [], by simp, ⟨rfl, [], '2', c!"97.5 95 9.5e1 0 0 -1.5 ",
    by intro c hc; simp at hc, by decide, rfl⟩, exampleRows_upper, rfl⟩

example : IsFile ([c!"  MgO periclase"] ++ List.ofFn exampleRows ++ [c!" 3580 1"])
    c!"  MgO periclase\n297.5 95 9.5e1 0 0 -1.5 \n\t297.5 +95. 0 0 0\n297.5 0 0 0\n 155 .0 0\n155 0\n155\n 3580 1\n" :=
  ⟨by decide, .inr (by decide)⟩

example : SoecLines .upper exampleC (some c!"  MgO periclase") (some 3580)
    ([c!"  MgO periclase"] ++ List.ofFn exampleRows ++ [c!" 3580 1"]) :=
  ⟨_, exampleRows, _, rfl, ⟨example_title, rfl⟩, exampleRows_upper, c!" 3580 1", [1],
    numbers_of (by decide) (by decide +kernel), rfl⟩

/-- The rows of the lower triangle: the reader refuses them (`C47_lower_violated`). -/
def exampleLower : Fin 6 → Str :=
  ![c!"297.5", c!"95 297.5", c!"95 95 297.5", c!"0 0 0 155", c!"0 0 0 0 155", c!"-1.5 0 0 0 0 155"]

example : SoecLines .lower exampleC (some c!"  MgO periclase") none
    ([c!"  MgO periclase"] ++ List.ofFn exampleLower ++ []) :=
  ⟨_, exampleLower, _, rfl, ⟨example_title, rfl⟩,
    fun i => numbers_of (by revert i; decide) (by revert i; decide +kernel), rfl⟩

example : 1 / 1000 < exampleC 0 0 := by decide +kernel

example : Numbers (7 :: List.ofFn (exampleC 0)) c!"7 297.5 95 95 0 0 -1.5" :=
  numbers_of (by decide) (by decide +kernel)

example : ¬ ∃ q, Numeral c!"2H-MoS2" q := by
  rintro ⟨q, hq⟩
  have h := parseFloat_numeral hq
  have : parseFloat c!"2H-MoS2" = none := by decide +kernel
  rw [this] at h
  cases h

/-- A density line that is not a number (`C47_density`). -/
example (d : SoecData) (text : Str)
    (h : IsFile (c!"  MgO periclase" :: List.ofFn exampleRows ++ [c!" 2H-MoS2 1"]) text) :
    (loadSoec text d).2 = .ok ⟨false, some .density⟩ := by
  refine C47_density (y := .upper) (by decide) (C := exampleC) (by unfold Spec.Symmetric; decide +kernel)
    example_title exampleRows_upper (w := c!"2H-MoS2") (ws := [c!"1"])
    (.cons (g := c!" ") (by unfold Blank; decide) (.inl rfl) (.last (g := []) (by unfold Blank; decide))) (by decide) (fun q hq => ?_) h d
  have h := parseFloat_numeral hq
  have : parseFloat c!"2H-MoS2" = none := by decide +kernel
  rw [this] at h
  cases h

end Verif.IO
