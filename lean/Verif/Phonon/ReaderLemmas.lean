/-
Lemmas about the reader of phonon inputs.
-/
import Verif.IO.NumberSound
import Verif.Interfaces.CrystalLemmas
import Verif.Phonon.Reader
import Verif.Phonon.Spec

namespace Verif.Phonon
open Verif.Py Verif.IO Verif.IO.Spec Verif.Interfaces Spec

theorem find_mem {key : Str} {v : Node} {l : List (Str × Node)} (h : (key, v) ∈ l)
    (hn : (l.map Prod.fst).Nodup) : find key l = some v := by
  induction l with
  | nil => simp at h
  | cons p rest ih =>
    obtain ⟨k, w⟩ := p
    simp only [List.map_cons, List.nodup_cons] at hn
    simp only [List.mem_cons] at h
    unfold find
    rcases h with h | h
    · obtain ⟨rfl, rfl⟩ := Prod.mk.inj h
      simp
    · have hk : k ≠ key := by
        rintro rfl
        exact hn.1 (List.mem_map.2 ⟨_, h, rfl⟩)
      rw [if_neg hk]
      exact ih h hn.2

theorem find_none {key : Str} {l : List (Str × Node)} (h : ∀ v, (key, v) ∉ l) : find key l = none := by
  induction l with
  | nil => rfl
  | cons p rest ih =>
    obtain ⟨k, w⟩ := p
    unfold find
    have hk : k ≠ key := by
      rintro rfl
      exact h w (by simp)
    rw [if_neg hk]
    exact ih fun v hv => h v (List.mem_cons_of_mem _ hv)

theorem get_entry {x v : Node} {key : Str} (h : Entry x key v) : get x key = .ok v := by
  obtain ⟨l, rfl, hm, hn⟩ := h
  simp [get, find_mem hm hn]

theorem itemFloat_gives {x : Node} {q : ℚ} (h : Gives x q) : itemFloat x = .ok (some q) := by
  rcases h with rfl | ⟨n, rfl, rfl⟩ | ⟨s, rfl, hs⟩
  · rfl
  · rfl
  · simp [itemFloat, toFloat, parseFloat_numeral hs, Except.map]

theorem each_gives {l : List Node} {qs : List ℚ} (h : List.Forall₂ Gives l qs) :
    each itemFloat l = .ok (qs.map some) := by
  induction h with
  | nil => rfl
  | cons hx _ ih => simp [each, itemFloat_gives hx, ih, Except.bind]

theorem gives_not_list {x : Node} {q : ℚ} (h : Gives x q) : npFloat x = .ok (.scalar (some q)) := by
  have hi := itemFloat_gives h
  rcases h with rfl | ⟨n, rfl, rfl⟩ | ⟨s, rfl, hs⟩ <;> simp only [npFloat, hi, Except.map]

theorem getFloat_gives {x : Node} {q : ℚ} (h : Gives x q) : getFloat x = .ok (.scalar (some q)) := by
  simp [getFloat, gives_not_list h]

/-- A text that NumPy takes for a number has one word. -/
theorem words_number {s : Str} {q : ℚ} (h : parseFloat s = some q) :
    ∃ t, words s = [t] ∧ parseFloat t = some q := by
  have hs := parseFloat_sound h
  have ht := numeral_token hs
  refine ⟨strip s, ?_, parseFloat_numeral hs⟩
  have e : s = s.takeWhile isSpace ++ (strip s ++ ((lstrip s).reverse.takeWhile isSpace).reverse) := by
    have h1 : lstrip s = strip s ++ ((lstrip s).reverse.takeWhile isSpace).reverse := by
      unfold strip rstrip
      rw [← List.reverse_append, List.takeWhile_append_dropWhile, List.reverse_reverse]
    conv_lhs => rw [← List.takeWhile_append_dropWhile (p := isSpace) (l := s)]
    rw [← h1]
    rfl
  rw [show words s = _ from congrArg words e,
    words_spaces (fun c hc => List.all_eq_true.1 List.all_takeWhile c hc)]
  generalize hg : ((lstrip s).reverse.takeWhile isSpace).reverse = g
  have hgs : ∀ c ∈ g, isSpace c = true := by
    intro c hc
    rw [← hg, List.mem_reverse] at hc
    exact List.all_eq_true.1 List.all_takeWhile c hc
  cases g with
  | nil => rw [List.append_nil, words_plain ht.2 ht.1]
  | cons c g =>
    rw [words_append (hgs c (by simp)), words_plain ht.2 ht.1]
    have := words_spaces (g := g) (b := []) (fun d hd => hgs d (List.mem_cons_of_mem _ hd))
    rw [List.append_nil] at this
    rw [this, words_nil]
    rfl

theorem each_toFloat {ts : List Str} {qs : List ℚ} (h : List.Forall₂ Numeral ts qs) :
    each toFloat ts = .ok qs := by
  induction h with
  | nil => rfl
  | cons hx _ ih => simp [each, toFloat, parseFloat_numeral hx, ih, Except.bind]

theorem numbers_each {qs : List ℚ} {line : Str} (h : Numbers qs line) :
    each toFloat (words line) = .ok qs := by
  obtain ⟨ts, ht, hn⟩ := h
  rw [words_tokens ht (tokens_numerals hn)]
  exact each_toFloat hn

theorem getFloat_givesList {x : Node} {qs : List ℚ} (h : GivesList x qs) :
    getFloat x = .ok (.vec (qs.map some)) := by
  rcases h with ⟨l, rfl, h⟩ | ⟨line, rfl, h⟩
  · simp [getFloat, npFloat, each_gives h, Except.map]
  · have hw := numbers_each h
    cases hp : parseFloat line with
    | none =>
      simp [getFloat, npFloat, each, itemFloat, toFloat, hp, Except.map, Except.bind, splitFirst, item,
        at_, hw]
    | some q =>
      obtain ⟨t, ht, hq⟩ := words_number hp
      rw [ht] at hw
      simp only [each, toFloat, hq, Except.bind, Except.ok.injEq] at hw
      subst hw
      simp [getFloat, npFloat, each, itemFloat, toFloat, hp, Except.map, Except.bind]

theorem fillBands_ok {n i : ℕ} : ∀ (fs : List Node) (rows : List (List Fl)) (j : ℕ)
    (m : List (List (List Fl))) (mi : List (List Fl)), m[i]? = some mi → j + rows.length ≤ mi.length →
    List.Forall₂ (fun f row => ((get f c!"frequency").bind getFloat).bind (broadcast n) = .ok row)
      fs rows →
    fillBands n i j fs m = .ok (m.set i (mi.take j ++ rows ++ mi.drop (j + rows.length))) := by
  intro fs rows j m mi hm hj h
  induction h generalizing j m mi with
  | nil =>
    obtain ⟨hi, rfl⟩ := List.getElem?_eq_some_iff.1 hm
    simp [fillBands]
  | @cons f row fs rows hf _ ih =>
    have hi : i < m.length := (List.getElem?_eq_some_iff.1 hm).1
    simp only [List.length_cons] at hj
    have hjl : j < mi.length := by omega
    unfold fillBands
    cases hg : (get f c!"frequency").bind getFloat with
    | error e => rw [hg] at hf; simp [Except.bind] at hf
    | ok a =>
      rw [hg] at hf
      have hb : broadcast n a = .ok row := hf
      simp only [Except.bind, at_, hm, List.getElem?_eq_getElem hjl, hb]
      rw [ih (j + 1) (m.set i (mi.set j row)) (mi.set j row) (by simp [hi])
        (by simp only [List.length_set]; omega)]
      congr 1
      rw [List.set_set]
      congr 1
      rw [List.take_set, List.drop_set_of_lt (by omega)]
      apply List.ext_getElem?
      intro k
      simp only [List.append_assoc, List.getElem?_append, List.length_set, List.length_take,
        List.length_cons, List.getElem?_drop]
      rw [show min (j + 1) mi.length = j + 1 from by omega, show min j mi.length = j from by omega]
      by_cases h1 : k < j
      · rw [if_pos (by omega), if_pos h1, List.getElem?_set_ne (by omega)]
        simp [h1, show k < j + 1 from by omega]
      · rw [if_neg h1]
        by_cases h2 : k = j
        · subst h2
          simp [hjl]
        · rw [if_neg (by omega)]
          by_cases h3 : k - (j + 1) < rows.length
          · rw [if_pos h3, if_pos (by omega)]
            obtain ⟨d, rfl⟩ : ∃ d, k = j + 1 + d := ⟨k - (j + 1), by omega⟩
            rw [show j + 1 + d - (j + 1) = d from by omega, show j + 1 + d - j = d + 1 from by omega]
            rfl
          · rw [if_neg h3, if_neg (by omega)]
            congr 1
            omega

theorem fillPoints_ok {n b : ℕ} : ∀ (qs : List Node) (rows : List (List (List Fl)))
    (done : List (List (List Fl))) (rest : List (List (List Fl))),
    rest.length = rows.length → (∀ r ∈ rest, r.length = b) → (∀ r ∈ rows, r.length = b) →
    List.Forall₂ (fun q row => ∃ fs, (get q c!"band").bind iterate = .ok fs ∧
      List.Forall₂ (fun f x => ((get f c!"frequency").bind getFloat).bind (broadcast n) = .ok x)
        fs row) qs rows →
    fillPoints n done.length qs (done ++ rest) = .ok (done ++ rows) := by
  intro qs rows done rest hl hr hb h
  induction h generalizing done rest with
  | nil =>
    have : rest = [] := List.length_eq_zero_iff.1 (by simpa using hl)
    subst this
    simp [fillPoints]
  | @cons q row qs rows hq _ ih =>
    obtain ⟨fs, hfs, hf⟩ := hq
    cases rest with
    | nil => simp at hl
    | cons r rest =>
      unfold fillPoints
      have hrb : r.length = b := hr r (by simp)
      have hrow : row.length = b := hb row (by simp)
      rw [hfs]
      simp only [Except.bind]
      rw [fillBands_ok fs row 0 (done ++ r :: rest) r (by simp) (by omega) hf]
      simp only [List.take_zero, List.nil_append, Nat.zero_add]
      rw [List.drop_eq_nil_of_le (by omega), List.append_nil, List.set_append_right _ _ (le_refl _)]
      simp only [Nat.sub_self, List.set_cons_zero]
      have := ih (done ++ [row]) rest (by simpa using hl) (fun x hx => hr x (by simp [hx]))
        (fun x hx => hb x (by simp [hx]))
      simpa using this

theorem fillWeights_ok : ∀ (qs : List Node) (ws : List ℚ) (done rest : List Fl),
    rest.length = ws.length →
    List.Forall₂ (fun q w => (get q c!"weight").bind getFloat = .ok (.scalar (some w))) qs ws →
    fillWeights done.length qs (done ++ rest) = .ok (done ++ ws.map some) := by
  intro qs ws done rest hl h
  induction h generalizing done rest with
  | nil =>
    have : rest = [] := List.length_eq_zero_iff.1 (by simpa using hl)
    subst this
    simp [fillWeights]
  | @cons q w qs ws hq _ ih =>
    cases rest with
    | nil => simp at hl
    | cons r rest =>
      unfold fillWeights
      rw [hq]
      have h0 : (done ++ r :: rest)[done.length]? = some r := by simp
      simp only [Except.bind, at_, h0]
      rw [List.set_append_right _ _ (le_refl _)]
      simp only [Nat.sub_self, List.set_cons_zero]
      have := ih (done ++ [some w]) rest (by simpa using hl)
      simpa using this

end Verif.Phonon
