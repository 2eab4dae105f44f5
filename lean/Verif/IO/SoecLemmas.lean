/-
Facts about the elastic reader and writer.
-/
import Verif.IO.Soec
import Verif.IO.TextLemmas

namespace Verif.IO
open Verif.Py Spec

theorem fill_aux {n : ℕ} {toks : List Str} {qs : List ℚ}
    (h : List.Forall₂ (fun t q => parseFloat t = some q) toks qs) :
    ∀ (s : ℕ) (row : Fin 6 → ℚ), n ≤ s + 6 → s + toks.length = n →
      (toks.zipIdx s).foldlM (setEntry n) row =
        .ok fun j => if s + 6 - n ≤ j.val then qs.getD (j.val - (s + 6 - n)) 0 else row j := by
  induction h with
  | nil =>
    intro s row h1 h2
    simp only [List.zipIdx_nil, List.foldlM_nil]
    congr 1
    funext j
    simp only [List.length_nil, Nat.add_zero] at h2
    have := j.isLt
    rw [if_neg (by omega)]
  | @cons t q toks qs ht _ ih =>
    intro s row h1 h2
    simp only [List.length_cons] at h2
    have hstep : setEntry n row (t, s) =
        .ok (Function.update row (Fin.ofNat 6 (s + 6 - n)) q) := by
      have e1 : ¬ (((s : ℕ) : ℤ) + (6 - (n : ℤ)) < -6 ∨ 6 ≤ ((s : ℕ) : ℤ) + (6 - (n : ℤ))) := by
        omega
      have e2 : (((s : ℕ) : ℤ) + (6 - (n : ℤ)) + 6).toNat = (s + 6 - n) + 6 := by omega
      have e3 : Fin.ofNat 6 ((s + 6 - n) + 6) = Fin.ofNat 6 (s + 6 - n) := by
        ext; simp [Fin.ofNat]
      simp only [setEntry, e1, if_false, ht, e2, e3]
    rw [List.zipIdx_cons, List.foldlM_cons, hstep]
    show List.foldlM (setEntry n) (Function.update row (Fin.ofNat 6 (s + 6 - n)) q)
      (toks.zipIdx (s + 1)) = _
    rw [ih (s + 1) _ (by omega) (by omega)]
    congr 1
    funext j
    have hj := j.isLt
    by_cases c1 : s + 1 + 6 - n ≤ j.val
    · rw [if_pos c1, if_pos (by omega)]
      rw [show j.val - (s + 6 - n) = (j.val - (s + 1 + 6 - n)) + 1 by omega]
      rfl
    · rw [if_neg c1]
      by_cases c2 : s + 6 - n = j.val
      · have : Fin.ofNat 6 (s + 6 - n) = j := by
          ext; simp only [Fin.ofNat]; omega
        rw [this, Function.update_self, if_pos (by omega), ← c2, Nat.sub_self]
        rfl
      · have : j ≠ Fin.ofNat 6 (s + 6 - n) := by
          intro e
          have := congrArg Fin.val e
          simp only [Fin.ofNat] at this
          omega
        rw [Function.update_of_ne this, if_neg (by omega)]

theorem fillRow_ok {r : Str} {qs : List ℚ}
    (h : List.Forall₂ (fun t q => parseFloat t = some q) (words r) qs) (hn : qs.length ≤ 6) :
    fillRow r = .ok fun j => if 6 - qs.length ≤ j.val then qs.getD (j.val - (6 - qs.length)) 0 else 0 := by
  have hl := h.length_eq
  have := fill_aux (n := (words r).length) h 0 (fun _ => 0) (by omega) (by omega)
  rw [fillRow, this, hl, Nat.zero_add]

/-- A row of seven numbers: the first is dropped. -/
theorem fillRow_seven {r : Str} {x : ℚ} {qs : List ℚ}
    (h : List.Forall₂ (fun t q => parseFloat t = some q) (words r) (x :: qs)) (hn : qs.length = 6) :
    fillRow r = .ok fun j => qs.getD j.val 0 := by
  have hl := h.length_eq
  cases hw : words r with
  | nil => rw [hw] at h; cases h
  | cons t toks =>
    rw [hw] at h hl
    simp only [List.length_cons] at hl
    rcases List.forall₂_cons.1 h with ⟨ht, hrest⟩
    have hs : setEntry 7 (fun _ => 0) (t, 0) = .ok (Function.update (fun _ => 0) 5 x) := by
      simp only [setEntry, ht]
      rw [if_neg (by norm_num)]
      rfl
    have hlen : (t :: toks).length = 7 := by simp only [List.length_cons]; omega
    simp only [fillRow, hw, hlen]
    rw [List.zipIdx_cons, List.foldlM_cons, hs]
    show List.foldlM (setEntry 7) (Function.update (fun _ => 0) 5 x) (toks.zipIdx (0 + 1)) = _
    rw [fill_aux hrest (0 + 1) _ (by norm_num) (by omega)]
    simp

theorem fillRows_ok {ls : List Str} {vs : List (Fin 6 → ℚ)}
    (h : List.Forall₂ (fun l v => fillRow l = .ok v) ls vs) : fillRows ls = .ok vs := by
  induction h with
  | nil => rfl
  | cons h _ ih => simp only [fillRows, h, ih, bind, Except.bind]

theorem getLast?_append_singleton {α : Type*} (l : List α) (a : α) :
    (l ++ [a]).getLast? = some a := by simp

theorem rstrip_head {c : Char} {t : Str} (h : isSpace c = false) :
    (rstrip (c :: t)).head? = some c := by
  rw [rstrip, List.reverse_cons, List.dropWhile_append]
  split
  · simp [List.dropWhile, h]
  · simp

theorem strip_head {g t : Str} {c : Char} (hg : ∀ x ∈ g, isSpace x = true) (h : isSpace c = false) :
    (strip (g ++ c :: t)).head? = some c := by
  rw [strip, lstrip, List.dropWhile_append_of_pos hg]
  rw [show (c :: t).dropWhile isSpace = c :: t by simp [List.dropWhile, h]]
  exact rstrip_head h

theorem strip_head_raw {g t r : Str} {c : Char} (hg : Blank g) (h : isSpace c = false)
    (hr : IsRaw r (g ++ c :: t)) : (strip r).head? = some c := by
  rcases hr with rfl | rfl
  · exact strip_head (blank_space hg) h
  · rw [List.append_assoc, List.cons_append]
    exact strip_head (blank_space hg) h

theorem readDensity_raw {r l : Str} (h : IsRaw r l) (d : SoecData) :
    readDensity (some r) d = readDensity (some l) d := by
  simp only [readDensity, words_raw h]

theorem raw_head {data ls : List Str} (h : List.Forall₂ IsRaw data ls) (hne : ls ≠ []) :
    IsRaw (data.headD []) (ls.head hne) := by
  cases h with
  | nil => exact absurd rfl hne
  | cons h _ => exact h

/-- What the reader does with a file whose title, rows and density lines are known. -/
theorem load_file {ls : List Str} {text : Str} (hf : IsFile ls text) (hne : ls ≠ [])
    (hlast : ls.getLast hne ≠ []) {g t : Str} {c : Char} (hhead : ls.head hne = g ++ c :: t)
    (hg : Blank g) (hc : isSpace c = false) {start : ℕ} (hs : start = if isDigit c then 0 else 1)
    (h6 : 6 + start ≤ ls.length) {vs : List (Fin 6 → ℚ)}
    (hv : List.Forall₂ (fun l v => ∀ r, IsRaw r l → fillRow r = .ok v) ((ls.drop start).take 6) vs)
    (d : SoecData) :
    loadSoec text d =
      (let d := if isDigit c then d else { d with job := rstrip (ls.head hne) }
       let m := complete (((ls.drop start).take 6).map fun l => (words l).length)
         (fun i j => vs.getD i (fun _ => 0) j)
       if asymmetric m then (d, .ok ⟨false, some .notSymmetric⟩)
       else readDensity ls[start + 6]? { d with stiffness := some m }) := by
  have hraw := readlines_file hf hne hlast
  set data := readlines text with hdata
  have hlen : data.length = ls.length := hraw.length_eq
  have hd0 : IsRaw (data.headD []) (ls.head hne) := raw_head hraw hne
  have hmat : List.Forall₂ IsRaw ((data.drop start).take 6) ((ls.drop start).take 6) :=
    List.forall₂_take 6 (List.forall₂_drop start hraw)
  have hfill : fillRows ((data.drop start).take 6) = .ok vs := by
    refine fillRows_ok ?_
    have : ∀ {a b : List Str} {v : List (Fin 6 → ℚ)}, List.Forall₂ IsRaw a b →
        List.Forall₂ (fun l v => ∀ r, IsRaw r l → fillRow r = .ok v) b v →
        List.Forall₂ (fun l v => fillRow l = .ok v) a v := by
      intro a b v h1
      induction h1 generalizing v with
      | nil => intro h2; cases h2; exact .nil
      | cons h _ ih => intro h2; cases h2 with
        | cons h' t' => exact .cons (h' _ h) (ih t')
    exact this hmat hv
  have hform : (((data.drop start).take 6).map fun l => (words l).length) =
      ((ls.drop start).take 6).map fun l => (words l).length := by
    have : ∀ {a b : List Str}, List.Forall₂ IsRaw a b →
        a.map (fun l => (words l).length) = b.map fun l => (words l).length := by
      intro a b h
      induction h with
      | nil => rfl
      | cons h _ ih => simp only [List.map_cons, ih, words_raw h]
    exact this hmat
  have hdens : ∀ d, readDensity data[start + 6]? d = readDensity ls[start + 6]? d := by
    intro d
    by_cases hlt : start + 6 < ls.length
    · rw [List.getElem?_eq_getElem (by omega : start + 6 < data.length),
        List.getElem?_eq_getElem hlt]
      exact readDensity_raw (hraw.get (by omega) hlt) d
    · rw [List.getElem?_eq_none (by omega), List.getElem?_eq_none (by omega)]
  have hstrip : (strip (data.headD [])).head? = some c := by
    rw [hhead] at hd0
    exact strip_head_raw hg hc hd0
  have hjob : rstrip (data.headD []) = rstrip (ls.head hne) := rstrip_raw hd0
  unfold loadSoec
  simp only [← hdata, hlen]
  rw [if_neg (by omega)]
  simp only [hstrip, ← hs]
  rw [if_neg (by omega)]
  simp only [hfill, hform, hdens, hjob]

/-! ### The writer -/

theorem joinLines_eq (ls : List Str) : joinLines ls = List.intercalate ['\n'] ls := by
  induction ls with
  | nil => rfl
  | cons l ls ih =>
    cases ls with
    | nil => simp [joinLines, List.intercalate]
    | cons m ls =>
      rw [joinLines, ih]
      · simp [List.intercalate, List.intersperse]
      · simp

theorem tokens_no_newline {ts : List Str} {l : Str} (h : Tokens ts l) (ht : ∀ t ∈ ts, IsToken t) :
    '\n' ∉ l := by
  have hb : ∀ {g : Str}, Blank g → '\n' ∉ g := by
    intro g hg h
    rcases hg _ h with h | h <;> exact absurd h (by decide)
  induction h with
  | nil hg => exact hb hg
  | @last g s hg =>
    rw [List.mem_append]
    rintro (h | h)
    · exact hb hg h
    · exact absurd ((ht s (by simp)).2 _ h) (by decide)
  | @cons g s c ts rest hg hc _ ih =>
    simp only [List.mem_append, List.mem_cons]
    rintro ((h | h) | h | h)
    · exact hb hg h
    · exact absurd ((ht s (by simp)).2 _ h) (by decide)
    · rcases hc with rfl | rfl <;> exact absurd h (by decide)
    · exact ih (fun t h => ht t (List.mem_cons_of_mem _ h)) h

theorem numbers_no_newline {qs : List ℚ} {l : Str} (h : Numbers qs l) : '\n' ∉ l := by
  obtain ⟨ts, ht, hf⟩ := h
  exact tokens_no_newline ht (tokens_numerals hf)

theorem blank_replicate (n : ℕ) : Blank (List.replicate n ' ') := by
  intro c hc
  exact .inl (List.eq_of_mem_replicate hc)

theorem blank_append {a b : Str} (ha : Blank a) (hb : Blank b) : Blank (a ++ b) := by
  intro c hc
  rcases List.mem_append.1 hc with h | h
  · exact ha c h
  · exact hb c h

/-- Formatted numbers are numerals preceded by blanks. -/
theorem alignSpaced (w d : ℕ) (x : ℚ) :
    ∃ g, Blank g ∧ alignRight w (formatSpaced d x) = g ++ formatFixed d x := by
  refine ⟨List.replicate (w - (formatSpaced d x).length) ' ' ++ if x < 0 then [] else [' '], ?_, ?_⟩
  · refine blank_append (blank_replicate _) ?_
    split
    · intro c hc; simp at hc
    · intro c hc; simp at hc; exact .inl hc
  · rw [alignRight, List.append_assoc]
    rfl

theorem numbers_cells (w d : ℕ) (xs : List ℚ) :
    Numbers (xs.map (printed d)) (xs.flatMap fun x => alignRight w (formatSpaced d x) ++ [' ']) := by
  refine ⟨xs.map (formatFixed d), ?_, ?_⟩
  · induction xs with
    | nil => exact .nil (by intro c hc; simp at hc)
    | cons x xs ih =>
      obtain ⟨g, hg, e⟩ := alignSpaced w d x
      rw [List.flatMap_cons, e, List.map_cons, List.append_assoc, List.append_assoc,
        ← List.append_assoc]
      exact .cons hg (.inl rfl) ih
  · rw [List.forall₂_map_left_iff, List.forall₂_map_right_iff]
    exact List.forall₂_same.2 fun x _ => formatFixed_numeral d x

theorem writeRow_numbers (row : Fin 6 → ℚ) :
    Numbers (List.ofFn fun j => printed 4 (row j)) (writeRow row) := by
  have := numbers_cells 11 4 ((List.finRange 6).map row)
  rw [List.flatMap_map, List.map_map] at this
  rw [List.ofFn_eq_map]
  exact this

theorem density_numbers (x : ℚ) : Numbers [printed 1 x] (alignRight 9 (formatFixed 1 x)) :=
  ⟨[formatFixed 1 x], .last (blank_replicate _), .cons (formatFixed_numeral 1 x) .nil⟩

end Verif.IO
