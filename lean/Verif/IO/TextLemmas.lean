/-
Facts about the text operations: splitting, lines, numerals and formatting.
-/
import Verif.IO.Text
import Verif.IO.Spec

namespace Verif.IO
open Verif.Py Spec

/-! ### Splitting -/

theorem fields_ne_nil (p : Char → Bool) (s : Str) : fields p s ≠ [] := by
  cases s with
  | nil => simp [fields]
  | cons c cs =>
    unfold fields
    split
    · simp
    · split <;> simp

theorem fields_append (p : Char → Bool) (a b : Str) {c : Char} (hc : p c = true) :
    fields p (a ++ c :: b) = fields p a ++ fields p b := by
  induction a with
  | nil => simp [fields, hc]
  | cons x a ih =>
    by_cases hx : p x = true
    · simp [fields, hx, ih]
    · rw [List.cons_append, fields, if_neg hx, ih, fields, if_neg hx]
      cases h : fields p a with
      | nil => exact absurd h (fields_ne_nil p a)
      | cons f fs => rfl

theorem fields_plain (p : Char → Bool) {s : Str} (h : ∀ c ∈ s, p c = false) : fields p s = [s] := by
  induction s with
  | nil => rfl
  | cons c s ih =>
    rw [fields, if_neg (by simp [h c (by simp)]), ih (fun x hx => h x (List.mem_cons_of_mem _ hx))]

theorem words_append {a b : Str} {c : Char} (hc : isSpace c = true) :
    words (a ++ c :: b) = words a ++ words b := by
  rw [words, fields_append _ _ _ hc, List.filter_append]
  rfl

theorem words_nil : words [] = [] := by simp [words, fields]

theorem words_plain {s : Str} (h : ∀ c ∈ s, isSpace c = false) (hs : s ≠ []) : words s = [s] := by
  rw [words, fields_plain _ h]
  simp [hs]

theorem words_space_cons {c : Char} {b : Str} (hc : isSpace c = true) : words (c :: b) = words b := by
  have := words_append (a := []) (b := b) hc
  simpa [words_nil] using this

theorem words_spaces {g b : Str} (hg : ∀ c ∈ g, isSpace c = true) : words (g ++ b) = words b := by
  induction g with
  | nil => rfl
  | cons c g ih =>
    rw [List.cons_append, words_space_cons (hg c (by simp)),
      ih (fun x hx => hg x (List.mem_cons_of_mem _ hx))]

theorem words_newline (l : Str) : words (l ++ ['\n']) = words l := by
  rw [words_append (by decide), words_nil, List.append_nil]

/-- A token: not empty, no white space. -/
def IsToken (s : Str) : Prop := s ≠ [] ∧ ∀ c ∈ s, isSpace c = false

theorem blank_space {g : Str} (hg : Blank g) : ∀ c ∈ g, isSpace c = true := by
  intro c hc
  rcases hg c hc with rfl | rfl <;> decide

theorem words_tokens {ts : List Str} {l : Str} (h : Tokens ts l) (ht : ∀ t ∈ ts, IsToken t) :
    words l = ts := by
  induction h with
  | @nil g hg =>
    have := words_spaces (b := []) (blank_space hg)
    simpa [words_nil] using this
  | @last g s hg =>
    rw [words_spaces (blank_space hg)]
    exact words_plain (ht s (by simp)).2 (ht s (by simp)).1
  | @cons g s c ts rest hg hc _ ih =>
    rw [List.append_assoc, words_spaces (blank_space hg),
      words_append (by rcases hc with rfl | rfl <;> decide),
      words_plain (ht s (by simp)).2 (ht s (by simp)).1,
      ih (fun t h => ht t (List.mem_cons_of_mem _ h))]
    rfl

/-! ### Lines -/

theorem readlines_line {l : Str} (h : '\n' ∉ l) (rest : Str) :
    readlines (l ++ '\n' :: rest) = (l ++ ['\n']) :: readlines rest := by
  induction l with
  | nil => simp [readlines]
  | cons c l ih =>
    have hc : c ≠ '\n' := fun e => h (by simp [e])
    rw [List.cons_append, readlines, if_neg hc, ih (fun e => h (List.mem_cons_of_mem _ e))]
    rfl

theorem readlines_last {l : Str} (h : '\n' ∉ l) (hl : l ≠ []) : readlines l = [l] := by
  induction l with
  | nil => exact absurd rfl hl
  | cons c l ih =>
    have hc : c ≠ '\n' := fun e => h (by simp [e])
    rw [readlines, if_neg hc]
    cases l with
    | nil => simp [readlines]
    | cons d l => rw [ih (fun e => h (List.mem_cons_of_mem _ e)) (by simp)]

/-- `r` is line `l` as `readlines` returns it. -/
def IsRaw (r l : Str) : Prop := r = l ∨ r = l ++ ['\n']

theorem readlines_file {ls : List Str} {text : Str} (h : IsFile ls text) (hne : ls ≠ [])
    (hlast : ls.getLast hne ≠ []) : List.Forall₂ IsRaw (readlines text) ls := by
  obtain ⟨hn, ht⟩ := h
  induction ls generalizing text with
  | nil => exact absurd rfl hne
  | cons l ls ih =>
    have hl : '\n' ∉ l := hn l (by simp)
    cases ls with
    | nil =>
      have hl0 : l ≠ [] := by simpa using hlast
      rcases ht with rfl | rfl
      · rw [show List.intercalate ['\n'] [l] = l by simp [List.intercalate]]
        rw [readlines_last hl hl0]
        exact .cons (.inl rfl) .nil
      · rw [show List.intercalate ['\n'] [l] = l by simp [List.intercalate]]
        rw [readlines_line hl]
        exact .cons (.inr rfl) .nil
    | cons m ls =>
      have e : List.intercalate ['\n'] (l :: m :: ls) =
          l ++ '\n' :: List.intercalate ['\n'] (m :: ls) := by
        simp [List.intercalate, List.intersperse]
      have hl' : (m :: ls).getLast (by simp) ≠ [] := by
        rw [List.getLast_cons (by simp)] at hlast
        exact hlast
      have ih' := fun t => ih (text := t) (by simp) hl'
        (fun x hx => hn x (List.mem_cons_of_mem _ hx))
      rcases ht with rfl | rfl
      · rw [e, readlines_line hl]
        exact .cons (.inr rfl) (ih' _ (.inl rfl))
      · rw [e, List.append_assoc, List.cons_append, readlines_line hl]
        exact .cons (.inr rfl) (ih' _ (.inr rfl))

theorem words_raw {r l : Str} (h : IsRaw r l) : words r = words l := by
  rcases h with rfl | rfl
  · rfl
  · exact words_newline l

theorem rstrip_append {l g : Str} (hg : ∀ c ∈ g, isSpace c = true) : rstrip (l ++ g) = rstrip l := by
  rw [rstrip, List.reverse_append, List.dropWhile_append_of_pos (by simpa using hg)]
  rfl

theorem rstrip_raw {r l : Str} (h : IsRaw r l) : rstrip r = rstrip l := by
  rcases h with rfl | rfl
  · rfl
  · exact rstrip_append (by simp; decide)

theorem rstrip_eq {l : Str} (h : ∀ c, l.getLast? = some c → isSpace c = false) : rstrip l = l := by
  rw [rstrip]
  rcases List.eq_nil_or_concat l with rfl | ⟨l, c, rfl⟩
  · rfl
  · have := h c (by simp)
    simp [List.dropWhile, this]

theorem strip_token {s : Str} (h : IsToken s) : strip s = s := by
  have h1 : lstrip s = s := by
    cases s with
    | nil => rfl
    | cons c s => simp [lstrip, List.dropWhile, h.2 c (by simp)]
  rw [strip, h1]
  exact rstrip_eq fun c hc => h.2 c (List.mem_of_getLast? hc)

/-! ### Digits -/

theorem mem_digits {c : Char} : c ∈ digits ↔ isDigit c = true := by
  constructor
  · intro h
    simp only [digits, List.mem_cons, List.not_mem_nil, or_false] at h
    rcases h with rfl | rfl | rfl | rfl | rfl | rfl | rfl | rfl | rfl | rfl <;> decide
  · intro h
    simp only [isDigit, Bool.and_eq_true, decide_eq_true_eq] at h
    have h1 : 48 ≤ c.toNat := h.1
    have h2 : c.toNat ≤ 57 := h.2
    have h3 : c = Char.ofNat c.toNat := (Char.ofNat_toNat c).symm
    rw [h3]
    generalize c.toNat = n at h1 h2
    interval_cases n <;> decide

theorem idxOf_digits {c : Char} (h : c ∈ digits) : digits.idxOf c = digitVal c := by
  simp only [digits, List.mem_cons, List.not_mem_nil, or_false] at h
  rcases h with rfl | rfl | rfl | rfl | rfl | rfl | rfl | rfl | rfl | rfl <;> decide

theorem digit_not_space {c : Char} (h : c ∈ digits) : isSpace c = false := by
  simp only [digits, List.mem_cons, List.not_mem_nil, or_false] at h
  rcases h with rfl | rfl | rfl | rfl | rfl | rfl | rfl | rfl | rfl | rfl <;> decide

theorem natOf_eq {s : Str} (h : Digits s) : natOf s = digitsVal s := by
  unfold natOf digitsVal
  rw [List.foldl_map]
  generalize 0 = n
  induction s generalizing n with
  | nil => rfl
  | cons c s ih =>
    rw [List.foldl_cons, List.foldl_cons, idxOf_digits (h c (by simp)), Nat.mul_comm n 10]
    exact ih (fun x hx => h x (List.mem_cons_of_mem _ hx)) _

theorem digitsVal_foldl (s : Str) (n : ℕ) :
    s.foldl (fun n c => 10 * n + digitVal c) n = n * 10 ^ s.length + digitsVal s := by
  unfold digitsVal
  induction s generalizing n with
  | nil => simp
  | cons c s ih =>
    rw [List.foldl_cons, List.foldl_cons, ih, ih (10 * 0 + digitVal c)]
    simp only [List.length_cons]
    ring

theorem digitsVal_append (a b : Str) :
    digitsVal (a ++ b) = digitsVal a * 10 ^ b.length + digitsVal b := by
  rw [digitsVal, List.foldl_append, digitsVal_foldl]
  rfl

theorem takeWhile_digits {a rest : Str} (h : Digits a) (hr : ∀ c, rest.head? = some c → isDigit c = false) :
    (a ++ rest).takeWhile isDigit = a ∧ (a ++ rest).dropWhile isDigit = rest := by
  have h' : ∀ c ∈ a, isDigit c = true := fun c hc => mem_digits.1 (h c hc)
  have h1 : rest.takeWhile isDigit = [] ∧ rest.dropWhile isDigit = rest := by
    cases rest with
    | nil => simp
    | cons c r => simp [List.takeWhile, List.dropWhile, hr c rfl]
  constructor
  · rw [List.takeWhile_append_of_pos h', h1.1, List.append_nil]
  · rw [List.dropWhile_append_of_pos h', h1.2]

theorem takeSign_sign {s rest : Str} {f : ℤ} (h : Sign s f)
    (hr : ∀ c, rest.head? = some c → c ≠ '-' ∧ c ≠ '+') :
    takeSign (s ++ rest) = (decide (f < 0), rest) := by
  rcases h with ⟨rfl, rfl⟩ | ⟨rfl, rfl⟩ | ⟨rfl, rfl⟩
  · cases rest with
    | nil => rfl
    | cons c r =>
      have := hr c rfl
      simp only [List.nil_append]
      unfold takeSign
      split
      · rename_i h; cases h; exact absurd rfl this.1
      · rename_i h; cases h; exact absurd rfl this.2
      · simp
  · rfl
  · rfl

theorem digits_head {a : Str} (ha : Digits a) (hne : a ≠ []) (rest : Str) :
    ∀ c, (a ++ rest).head? = some c → c ∈ digits := by
  intro c hc
  cases a with
  | nil => exact absurd rfl hne
  | cons d a =>
    simp only [List.cons_append, List.head?_cons, Option.some.injEq] at hc
    subst hc
    exact ha d (by simp)

theorem digit_not_sign {c : Char} (h : c ∈ digits) : c ≠ '-' ∧ c ≠ '+' := by
  simp only [digits, List.mem_cons, List.not_mem_nil, or_false] at h
  rcases h with rfl | rfl | rfl | rfl | rfl | rfl | rfl | rfl | rfl | rfl <;> decide

theorem parseExp_ok {x : Str} {e : ℤ} (h : Exponent x e) : parseExp x = some e := by
  rcases h with ⟨rfl, rfl⟩ | ⟨c, sgn, f, ds, hc, hs, hd, hne, rfl, rfl⟩
  · rfl
  · have ht : takeSign (sgn ++ ds) = (decide (f < 0), ds) := by
      refine takeSign_sign hs fun c hc => digit_not_sign ?_
      have := digits_head hd hne [] c (by simpa using hc)
      exact this
    have hall : ds.all isDigit = true := by
      simp only [List.all_eq_true]
      exact fun c hc => mem_digits.1 (hd c hc)
    rw [List.cons_append, parseExp, if_pos hc]
    simp only [ht, hne, hall, ne_eq, not_false_eq_true, and_self, if_true]
    rw [natOf_eq hd]
    rcases hs with ⟨-, rfl⟩ | ⟨-, rfl⟩ | ⟨-, rfl⟩ <;> simp

theorem exponent_head {x : Str} {e : ℤ} (h : Exponent x e) :
    ∀ c, x.head? = some c → c = 'e' ∨ c = 'E' := by
  intro c hc
  rcases h with ⟨rfl, rfl⟩ | ⟨c', sgn, f, ds, hc', hs, hd, hne, rfl, rfl⟩
  · simp at hc
  · simp only [List.cons_append, List.head?_cons, Option.some.injEq] at hc
    rw [← hc]; exact hc'

theorem exponent_stop {x : Str} {e : ℤ} (h : Exponent x e) :
    (∀ c, x.head? = some c → isDigit c = false) ∧ takeFraction x = ([], x) := by
  have hx := exponent_head h
  constructor
  · intro c hc
    rcases hx c hc with rfl | rfl <;> decide
  · unfold takeFraction
    split
    · rename_i t
      rcases hx '.' rfl with h | h <;> exact absurd h (by decide)
    · rfl

theorem parseUnsigned_ok {m x : Str} {a : ℚ} {e : ℤ} (hm : Mantissa m a) (hx : Exponent x e) :
    parseUnsigned (m ++ x) = some (a * 10 ^ e) := by
  obtain ⟨hx1, hx2⟩ := exponent_stop hx
  rcases hm with ⟨d, hd, hne, rfl, rfl⟩ | ⟨d, b, hd, hb, hne, rfl, rfl⟩
  · obtain ⟨t1, t2⟩ := takeWhile_digits hd hx1
    simp only [parseUnsigned, t1, t2, hx2, List.append_nil, hne, if_false, parseExp_ok hx,
      List.length_nil, Nat.cast_zero, sub_zero, natOf_eq hd]
  · obtain ⟨t1, t2⟩ := takeWhile_digits (rest := '.' :: (b ++ x)) hd (by
      intro c hc
      simp only [List.head?_cons, Option.some.injEq] at hc
      subst hc
      decide)
    obtain ⟨s1, s2⟩ := takeWhile_digits hb hx1
    rw [List.append_assoc, List.cons_append]
    simp only [parseUnsigned, t1, t2, takeFraction, s1, s2, hne, if_false, parseExp_ok hx,
      digitsVal_append, natOf_eq hd, natOf_eq hb]
    congr 1
    rw [zpow_sub₀ (by norm_num), zpow_natCast]
    push_cast
    field_simp

theorem mantissa_head {m : Str} {a : ℚ} (h : Mantissa m a) (rest : Str) :
    ∃ c, (m ++ rest).head? = some c ∧ (c ∈ digits ∨ c = '.') := by
  rcases h with ⟨d, hd, hne, rfl, rfl⟩ | ⟨d, b, hd, hb, hne, rfl, rfl⟩
  · cases m with
    | nil => exact absurd rfl hne
    | cons c d => exact ⟨c, rfl, .inl (hd c (by simp))⟩
  · cases d with
    | nil => exact ⟨'.', rfl, .inr rfl⟩
    | cons c d => exact ⟨c, rfl, .inl (hd c (by simp))⟩

theorem dot_not_sign {c : Char} (h : c ∈ digits ∨ c = '.') : c ≠ '-' ∧ c ≠ '+' := by
  rcases h with h | rfl
  · exact digit_not_sign h
  · decide

theorem numeral_token {s : Str} {q : ℚ} (h : Numeral s q) : IsToken s := by
  obtain ⟨sgn, f, m, a, x, e, hs, hm, hx, rfl, rfl⟩ := h
  constructor
  · obtain ⟨c, hc, -⟩ := mantissa_head hm x
    intro h
    rw [List.append_assoc] at h
    rw [(List.append_eq_nil_iff.1 h).2] at hc
    simp at hc
  · intro c hc
    rw [List.append_assoc] at hc
    simp only [List.mem_append] at hc
    rcases hc with hc | hc | hc
    · rcases hs with ⟨rfl, -⟩ | ⟨rfl, -⟩ | ⟨rfl, -⟩ <;> simp at hc <;> subst hc <;> decide
    · rcases hm with ⟨d, hd, hne, rfl, rfl⟩ | ⟨d, b, hd, hb, hne, rfl, rfl⟩
      · exact digit_not_space (hd c hc)
      · simp only [List.mem_append, List.mem_cons] at hc
        rcases hc with hc | rfl | hc
        · exact digit_not_space (hd c hc)
        · decide
        · exact digit_not_space (hb c hc)
    · rcases hx with ⟨rfl, -⟩ | ⟨c', sgn', f', ds, hc', hs', hd, hne, rfl, rfl⟩
      · simp at hc
      · simp only [List.cons_append, List.mem_cons, List.mem_append] at hc
        rcases hc with rfl | hc | hc
        · rcases hc' with rfl | rfl <;> decide
        · rcases hs' with ⟨rfl, -⟩ | ⟨rfl, -⟩ | ⟨rfl, -⟩ <;> simp at hc <;> subst hc <;> decide
        · exact digit_not_space (hd c hc)

/-- Every decimal numeral is converted to the number it denotes. -/
theorem parseFloat_numeral {s : Str} {q : ℚ} (h : Numeral s q) : parseFloat s = some q := by
  have ht := numeral_token h
  obtain ⟨sgn, f, m, a, x, e, hs, hm, hx, rfl, rfl⟩ := h
  rw [parseFloat, strip_token ht]
  rw [List.append_assoc, takeSign_sign hs (fun c hc => by
    obtain ⟨c', h1, h2⟩ := mantissa_head hm x
    rw [h1] at hc
    cases hc
    exact dot_not_sign h2)]
  simp only [parseUnsigned_ok hm hx]
  rcases hs with ⟨-, rfl⟩ | ⟨-, rfl⟩ | ⟨-, rfl⟩ <;> simp

theorem tokens_numerals {ts : List Str} {qs : List ℚ} (h : List.Forall₂ Numeral ts qs) :
    ∀ t ∈ ts, IsToken t := by
  intro t ht
  induction h with
  | nil => simp at ht
  | cons h _ ih =>
    rcases List.mem_cons.1 ht with rfl | ht
    · exact numeral_token h
    · exact ih ht

/-- The tokens of a line of numbers, as `split` and `float` see them. -/
theorem numbers_words {qs : List ℚ} {r l : Str} (h : Numbers qs l) (hr : IsRaw r l) :
    List.Forall₂ (fun t q => parseFloat t = some q) (words r) qs := by
  obtain ⟨ts, ht, hf⟩ := h
  rw [words_raw hr, words_tokens ht (tokens_numerals hf)]
  exact hf.imp fun _ _ h => parseFloat_numeral h

/-! ### Formatting -/

theorem digitChar_spec {n : ℕ} (h : n < 10) : digitChar n ∈ digits ∧ digitVal (digitChar n) = n := by
  interval_cases n <;> decide

theorem showNat_spec (n : ℕ) : Digits (showNat n) ∧ showNat n ≠ [] ∧ digitsVal (showNat n) = n := by
  induction n using Nat.strong_induction_on with
  | _ n ih =>
    rw [showNat]
    by_cases h : n < 10
    · rw [dif_pos h]
      obtain ⟨h1, h2⟩ := digitChar_spec h
      refine ⟨by simpa [Digits] using h1, by simp, by simp [digitsVal, h2]⟩
    · rw [dif_neg h]
      obtain ⟨i1, i2, i3⟩ := ih (n / 10) (by omega)
      obtain ⟨h1, h2⟩ := digitChar_spec (Nat.mod_lt n (by norm_num : 0 < 10))
      refine ⟨?_, by simp, ?_⟩
      · intro c hc
        simp only [List.mem_append, List.mem_singleton] at hc
        rcases hc with hc | rfl
        · exact i1 c hc
        · exact h1
      · rw [digitsVal_append, i3]
        simp [digitsVal, h2]
        omega

theorem lastDigits_spec (d n : ℕ) :
    Digits (lastDigits d n) ∧ (lastDigits d n).length = d ∧ digitsVal (lastDigits d n) = n % 10 ^ d := by
  induction d generalizing n with
  | zero => exact ⟨by simp [lastDigits, Digits], rfl, by simp [lastDigits, digitsVal, Nat.mod_one]⟩
  | succ d ih =>
    obtain ⟨i1, i2, i3⟩ := ih (n / 10)
    obtain ⟨h1, h2⟩ := digitChar_spec (Nat.mod_lt n (by norm_num : 0 < 10))
    refine ⟨?_, by simp [lastDigits, i2], ?_⟩
    · intro c hc
      simp only [lastDigits, List.mem_append, List.mem_singleton] at hc
      rcases hc with hc | rfl
      · exact i1 c hc
      · exact h1
    · rw [lastDigits, digitsVal_append, i3]
      simp only [digitsVal, List.foldl_cons, List.foldl_nil, h2, List.length_singleton, pow_one,
        Nat.mul_zero, Nat.zero_add]
      rw [pow_succ, Nat.mul_comm (10 ^ d) 10, Nat.mod_mul]
      ring

/-- `y` is `x` rounded to `d` decimals. -/
def Spec.Rounded (d : ℕ) (x y : ℚ) : Prop :=
  (∃ n : ℤ, y = n / 10 ^ d) ∧ |y - x| ≤ 1 / (2 * 10 ^ d)

theorem roundHalfEven_spec (q : ℚ) : |(roundHalfEven q : ℚ) - q| ≤ 1 / 2 := by
  have h1 := Int.floor_le q
  have h2 := Int.lt_floor_add_one q
  unfold roundHalfEven
  simp only
  split_ifs <;> push_cast <;> rw [abs_le] <;> constructor <;> linarith

theorem roundHalfEven_int (n : ℤ) : roundHalfEven n = n := by simp [roundHalfEven]

theorem roundHalfEven_nonneg {q : ℚ} (h : 0 ≤ q) : 0 ≤ roundHalfEven q := by
  have h1 : 0 ≤ ⌊q⌋ := Int.floor_nonneg.2 h
  unfold roundHalfEven
  simp only
  split_ifs <;> omega

/-- The value printed by `formatFixed`. -/
def printed (d : ℕ) (x : ℚ) : ℚ :=
  (if x < 0 then -1 else 1) * ((roundHalfEven (|x| * 10 ^ d)).toNat / 10 ^ d)

theorem printed_rounded (d : ℕ) (x : ℚ) : Spec.Rounded d x (printed d x) := by
  have hp : (0 : ℚ) < 10 ^ d := by positivity
  set r := roundHalfEven (|x| * 10 ^ d) with hr
  have h0 : 0 ≤ r := roundHalfEven_nonneg (by positivity)
  have hc : ((r.toNat : ℕ) : ℚ) = r := by
    have : ((r.toNat : ℕ) : ℤ) = r := Int.toNat_of_nonneg h0
    exact_mod_cast this
  have hb := roundHalfEven_spec (|x| * 10 ^ d)
  rw [← hr] at hb
  have hpr : printed d x = (if x < 0 then -1 else 1) * (r / 10 ^ d) := by
    rw [printed, ← hr, hc]
  constructor
  · rw [hpr]
    split
    · exact ⟨-r, by push_cast; ring⟩
    · exact ⟨r, by ring⟩
  · rw [hpr]
    have key : abs ((r : ℚ) / 10 ^ d - |x|) ≤ 1 / (2 * 10 ^ d) := by
      have e : (r : ℚ) / 10 ^ d - |x| = (r - |x| * 10 ^ d) / 10 ^ d := by field_simp
      rw [e, abs_div, abs_of_pos hp, div_le_div_iff₀ hp (by positivity)]
      nlinarith
    split
    · rename_i hx
      rw [abs_of_neg hx] at key
      rw [← abs_neg]
      convert key using 2
      ring
    · rename_i hx
      rw [abs_of_nonneg (not_lt.1 hx)] at key
      rwa [one_mul]

theorem printed_exact {d : ℕ} {x : ℚ} (h : ∃ n : ℤ, x = n / 10 ^ d) : printed d x = x := by
  obtain ⟨n, rfl⟩ := h
  have hp : (0 : ℚ) < 10 ^ d := by positivity
  have e : |(n : ℚ) / 10 ^ d| * 10 ^ d = ((|n| : ℤ) : ℚ) := by
    rw [abs_div, abs_of_pos hp]
    field_simp
    simp
  rw [printed, e, roundHalfEven_int]
  have hc : (((|n|).toNat : ℕ) : ℚ) = |(n : ℚ)| := by
    have : (((|n|).toNat : ℕ) : ℤ) = |n| := Int.toNat_of_nonneg (abs_nonneg n)
    have h2 : (((|n|).toNat : ℕ) : ℚ) = ((|n| : ℤ) : ℚ) := by exact_mod_cast this
    rw [h2]
    simp
  rw [hc]
  split
  · rename_i h
    have : (n : ℚ) < 0 := by
      by_contra hc
      exact absurd h (not_lt.2 (div_nonneg (not_lt.1 hc) hp.le))
    rw [abs_of_neg this]
    ring
  · rename_i h
    have : (0 : ℚ) ≤ n := by
      by_contra hc
      exact h (div_neg_of_neg_of_pos (not_le.1 hc) hp)
    rw [abs_of_nonneg this, one_mul]

/-- A formatted number is a numeral for the rounded number. -/
theorem formatFixed_numeral (d : ℕ) (x : ℚ) : Numeral (formatFixed d x) (printed d x) := by
  set n := (roundHalfEven (|x| * 10 ^ d)).toNat with hn
  obtain ⟨s1, s2, s3⟩ := showNat_spec (n / 10 ^ d)
  obtain ⟨l1, l2, l3⟩ := lastDigits_spec d n
  refine ⟨if x < 0 then ['-'] else [], if x < 0 then -1 else 1,
    showNat (n / 10 ^ d) ++ '.' :: lastDigits d n, n / 10 ^ d, [], 0, ?_, ?_, .inl ⟨rfl, rfl⟩, ?_, ?_⟩
  · split
    · exact .inr (.inr ⟨rfl, rfl⟩)
    · exact .inl ⟨rfl, rfl⟩
  · refine .inr ⟨_, _, s1, l1, by simp [s2], rfl, ?_⟩
    rw [natOf_eq s1, natOf_eq l1, s3, l2, l3]
    have := Nat.div_add_mod n (10 ^ d)
    have h2 : (n : ℚ) = 10 ^ d * (n / 10 ^ d : ℕ) + (n % 10 ^ d : ℕ) := by exact_mod_cast this.symm
    have hp : (10 : ℚ) ^ d ≠ 0 := by positivity
    field_simp
    linarith
  · rw [formatFixed, ← hn, List.append_nil, List.append_assoc]
  · rw [printed, ← hn]
    split <;> simp

end Verif.IO
