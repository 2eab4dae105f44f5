/-
A text of the fragment of YAML denotes at most one tree.
-/
import Verif.Phonon.YamlLemmas

namespace Verif.Phonon
open Verif.Py Verif.IO.Spec Spec

/-! ### Splitting -/

/-- A list is split in one way only into elements with a property and a rest that starts without it. -/
theorem split_unique {α : Type} {P : α → Prop} {a t a' t' : List α} (h : a ++ t = a' ++ t')
    (ha : ∀ x ∈ a, P x) (ha' : ∀ x ∈ a', P x) (ht : ∀ x r, t = x :: r → ¬ P x)
    (ht' : ∀ x r, t' = x :: r → ¬ P x) : a = a' ∧ t = t' := by
  induction a generalizing a' with
  | nil =>
    cases a' with
    | nil => exact ⟨rfl, by simpa using h⟩
    | cons x r => exact absurd (ha' x (by simp)) (ht x (r ++ t') (by simpa using h))
  | cons x a ih =>
    cases a' with
    | nil => exact absurd (ha x (by simp)) (ht' x (a ++ t) (by simpa using h.symm))
    | cons y a' =>
      simp only [List.cons_append, List.cons.injEq] at h
      obtain ⟨rfl, h⟩ := h
      obtain ⟨rfl, rfl⟩ := ih h (fun z hz => ha z (by simp [hz])) (fun z hz => ha' z (by simp [hz]))
      exact ⟨rfl, rfl⟩

/-- No space at either end. -/
def Trimmed (s : Str) : Prop := s.head? ≠ some ' ' ∧ s.getLast? ≠ some ' '

/-- Without the spaces at both ends. -/
def trim (s : Str) : Str := ((s.dropWhile (· = ' ')).reverse.dropWhile (· = ' ')).reverse

theorem drop_spaces {a t : Str} (h : Spaces a) : (a ++ t).dropWhile (· = ' ') = t.dropWhile (· = ' ') := by
  induction a with
  | nil => rfl
  | cons c a ih =>
    rw [h c (by simp)]
    simpa using ih fun d hd => h d (by simp [hd])

theorem drop_head {t u : Str} (h : t.head? ≠ some ' ') (hu : t = [] → Spaces u) :
    (t ++ u).dropWhile (· = ' ') = if t = [] then [] else t ++ u := by
  cases t with
  | nil =>
    have := drop_spaces (t := []) (hu rfl)
    simpa using this
  | cons c t =>
    have : c ≠ ' ' := by simpa using h
    simp [this]

theorem trim_pad {a s b : Str} (ha : Spaces a) (hb : Spaces b) (h : Trimmed s) : trim (a ++ s ++ b) = s := by
  rw [trim, List.append_assoc, drop_spaces ha, drop_head h.1 fun _ => hb]
  split
  · simp_all
  · rename_i hs
    rw [List.reverse_append, drop_spaces (fun c hc => hb c (List.mem_reverse.1 hc))]
    have := drop_head (t := s.reverse) (u := []) (by simpa using h.2) (by simp [Spaces])
    simp only [List.append_nil, List.reverse_eq_nil_iff, hs, if_false] at this
    rw [this, List.reverse_reverse]

/-! ### Scalars -/

theorem digit_not {c : Char} (h : c ∈ digits) :
    c ∉ [' ', ',', '[', ']', ':', '#', '.', '+', '-', 'e', 'E'] ∧ c ∉ letters := by
  revert c; decide

theorem letter_not {c : Char} (h : c ∈ letters) :
    c ∉ [' ', ',', '[', ']', ':', '#', '.', '+', '-'] ∧ c ∉ digits := by
  revert c; decide

/-- The characters of scalars. -/
def Ordinary (c : Char) : Prop := c ∉ [',', '[', ']', ':', '#']

theorem ordinary_sign {s : Str} {f : ℤ} (h : Sign s f) : ∀ c ∈ s, Ordinary c := by
  rcases h with ⟨rfl, _⟩ | ⟨rfl, _⟩ | ⟨rfl, _⟩ <;> simp [Ordinary]

theorem ordinary_digits {s : Str} (h : Digits s) : ∀ c ∈ s, Ordinary c := by
  intro c hc
  have := (digit_not (h c hc)).1
  simp only [List.mem_cons, not_or] at this
  simp [Ordinary, this]

theorem ordinary_plain {s : Str} (h : Plain s) : ∀ c ∈ s, Ordinary c := by
  intro c hc
  rcases h.2.1 c hc with h | h | rfl | rfl | rfl
  · have := (letter_not h).1
    simp only [List.mem_cons, not_or] at this
    simp [Ordinary, this]
  · have := (digit_not h).1
    simp only [List.mem_cons, not_or] at this
    simp [Ordinary, this]
  all_goals simp [Ordinary]

theorem ordinary_exponent {s : Str} {e : ℤ} (h : FloatExponent s e) : ∀ c ∈ s, Ordinary c := by
  rcases h with ⟨rfl, _⟩ | ⟨c, sgn, f, ds, hc, _, hs, hd, _, rfl, _⟩
  · simp
  · intro d hd'
    simp only [List.cons_append, List.mem_cons, List.mem_append] at hd'
    rcases hd' with rfl | h | h
    · rcases hc with rfl | rfl <;> simp [Ordinary]
    · exact ordinary_sign hs d h
    · exact ordinary_digits hd d h

theorem ordinary_scalar {s : Str} {x : Node} (h : Scalar s x) : ∀ c ∈ s, Ordinary c := by
  intro c hc
  cases h with
  | null => simp at hc
  | int h1 h2 =>
    rcases List.mem_append.1 hc with h | h
    · exact ordinary_sign h1 c h
    · exact ordinary_digits h2 c h
  | float h1 h2 _ h4 h5 =>
    simp only [List.append_assoc, List.cons_append, List.mem_append, List.mem_cons] at hc
    rcases hc with h | h | rfl | h | h
    · exact ordinary_sign h1 c h
    · exact ordinary_digits h2 c h
    · simp [Ordinary]
    · exact ordinary_digits h4 c h
    · exact ordinary_exponent h5 c h
  | text h1 => exact ordinary_plain h1 c hc

theorem space_digits {s : Str} (h : Digits s) : ' ' ∉ s := fun hm => absurd (h _ hm) (by decide)

theorem space_sign {s : Str} {f : ℤ} (h : Sign s f) : ' ' ∉ s := by
  rcases h with ⟨rfl, _⟩ | ⟨rfl, _⟩ | ⟨rfl, _⟩ <;> decide

theorem trimmed_of {s : Str} (h : ' ' ∉ s) : Trimmed s :=
  ⟨fun e => h (List.mem_of_mem_head? (by rw [e]; rfl)), fun e => h (List.mem_of_getLast? e)⟩

theorem trimmed_scalar {s : Str} {x : Node} (h : Scalar s x) : Trimmed s := by
  cases h with
  | null => simp [Trimmed]
  | int h1 h2 => exact trimmed_of (by simp [space_sign h1, space_digits h2])
  | float h1 h2 _ h4 h5 =>
    refine trimmed_of ?_
    have : ∀ {y e}, FloatExponent y e → ' ' ∉ y := by
      intro y e hy
      rcases hy with ⟨rfl, _⟩ | ⟨c, sgn, f, ds, hc, _, hs, hd, _, rfl, _⟩
      · simp
      · rcases hc with rfl | rfl <;> simp [space_sign hs, space_digits hd]
    simp [space_sign h1, space_digits h2, space_digits h4, this h5]
  | text h1 =>
    obtain ⟨⟨c, r, rfl, hc⟩, -, hl, -⟩ := h1
    refine ⟨?_, hl⟩
    have := (letter_not hc).1
    simp only [List.mem_cons, not_or] at this
    simpa using this.1

/-- A sign in front of a digit. -/
theorem sign_unique {s s' t t' : Str} {f f' : ℤ} (h : s ++ t = s' ++ t') (hs : Sign s f) (hs' : Sign s' f')
    (ht : ∃ c r, t = c :: r ∧ c ∈ digits) (ht' : ∃ c r, t' = c :: r ∧ c ∈ digits) : f = f' ∧ t = t' := by
  obtain ⟨c, r, rfl, hc⟩ := ht
  obtain ⟨c', r', rfl, hc'⟩ := ht'
  have n1 := (digit_not hc).1
  have n2 := (digit_not hc').1
  simp only [List.mem_cons, not_or] at n1 n2
  rcases hs with ⟨rfl, rfl⟩ | ⟨rfl, rfl⟩ | ⟨rfl, rfl⟩ <;> rcases hs' with ⟨rfl, rfl⟩ | ⟨rfl, rfl⟩ | ⟨rfl, rfl⟩ <;>
    simp_all <;> (first | exact n2.2.2.2.2.2.2.2.1 h.1.symm | exact n2.2.2.2.2.2.2.2.2.1 h.1.symm)

theorem digits_head {s : Str} (h : Digits s) (h0 : s ≠ []) (t : Str) : ∃ c r, s ++ t = c :: r ∧ c ∈ digits := by
  cases s with
  | nil => exact absurd rfl h0
  | cons c r => exact ⟨c, r ++ t, rfl, h c (by simp)⟩

theorem exponent_unique {x : Str} {e e' : ℤ} (h : FloatExponent x e) (h' : FloatExponent x e') : e = e' := by
  rcases h with ⟨rfl, rfl⟩ | ⟨c, s, f, ds, hc, _, hs, hd, h0, rfl, rfl⟩ <;>
    rcases h' with ⟨hx, rfl⟩ | ⟨c', s', f', ds', hc', _, hs', hd', h0', hx, rfl⟩
  · rfl
  · simp at hx
  · simp at hx
  · simp only [List.cons_append, List.cons.injEq] at hx
    have h1 := digits_head hd h0 []
    have h2 := digits_head hd' h0' []
    simp only [List.append_nil] at h1 h2
    obtain ⟨rfl, rfl⟩ := sign_unique hx.2 hs hs' h1 h2
    rfl

theorem exponent_head {x : Str} {e : ℤ} (h : FloatExponent x e) : ∀ c r, x = c :: r → c ∉ digits := by
  rintro c r rfl
  rcases h with ⟨h, _⟩ | ⟨d, s, f, ds, hc, _, hs, hd, h0, h, _⟩
  · simp at h
  · simp only [List.cons_append, List.cons.injEq] at h
    rw [h.1]
    rcases hc with rfl | rfl <;> decide

theorem int_no_point {s ds : Str} {f : ℤ} (hs : Sign s f) (hd : Digits ds) : '.' ∉ s ++ ds := by
  have h1 : '.' ∉ s := by rcases hs with ⟨rfl, _⟩ | ⟨rfl, _⟩ | ⟨rfl, _⟩ <;> decide
  have h2 : '.' ∉ ds := fun hm => absurd (hd _ hm) (by decide)
  simp [h1, h2]

theorem plain_head {s : Str} (h : Plain s) {sg t : Str} {f : ℤ} (hs : Sign sg f) (ht : ∃ c r, t = c :: r ∧ c ∈ digits) :
    s ≠ sg ++ t := by
  obtain ⟨⟨c, r, rfl, hc⟩, -⟩ := h
  obtain ⟨d, u, rfl, hd⟩ := ht
  have h1 := (letter_not hc).1
  have h2 := (letter_not hc).2
  simp only [List.mem_cons, not_or] at h1
  rintro e
  rcases hs with ⟨rfl, _⟩ | ⟨rfl, _⟩ | ⟨rfl, _⟩
  · simp only [List.nil_append, List.cons.injEq] at e
    exact h2 (e.1 ▸ hd)
  all_goals
    simp only [List.cons_append, List.nil_append, List.cons.injEq] at e
    simp_all

theorem scalar_unique {s : Str} {x y : Node} (h : Scalar s x) (h' : Scalar s y) : x = y := by
  have hin : ∀ {a : Str}, Digits a → a ≠ [] → ∃ c r, a = c :: r ∧ c ∈ digits := fun {a} h1 h2 => by
    simpa using digits_head h1 h2 []
  generalize hs : s = s' at h'
  cases h with
  | null =>
    subst hs
    generalize he : ([] : Str) = e at h'
    cases h' with
    | null => rfl
    | int _ _ h3 => simp at he; exact absurd he.2.symm (by simpa using h3)
    | float => simp at he
    | text h1 => obtain ⟨⟨c, r, rfl, _⟩, _⟩ := h1; simp at he
  | int h1 h2 h3 h4 =>
    cases h' with
    | null => simp at hs; exact absurd hs.2 h3
    | int g1 g2 g3 g4 =>
      obtain ⟨rfl, rfl⟩ := sign_unique hs h1 g1 (hin h2 h3) (hin g2 g3)
      rfl
    | float g1 g2 g3 g4 g5 =>
      exact absurd (by rw [hs]; simp) (int_no_point h1 h2)
    | text g1 => exact absurd hs.symm (plain_head g1 h1 (hin h2 h3))
  | @float sg a b e f p h1 h2 h3 h4 h5 =>
    cases h' with
    | null => simp at hs
    | int g1 g2 g3 g4 => exact absurd (by rw [← hs]; simp) (int_no_point g1 g2)
    | @float sg' a' b' e' f' p' g1 g2 g3 g4 g5 =>
      simp only [List.append_assoc, List.cons_append] at hs
      obtain ⟨rfl, hs⟩ := sign_unique hs h1 g1 (digits_head h2 h3 _) (digits_head g2 g3 _)
      obtain ⟨rfl, hu⟩ := split_unique (P := (· ∈ digits)) hs h2 g2
        (by rintro x r e; simp only [List.cons.injEq] at e; rw [← e.1]; decide)
        (by rintro x r e; simp only [List.cons.injEq] at e; rw [← e.1]; decide)
      simp only [List.cons.injEq, true_and] at hu
      obtain ⟨rfl, rfl⟩ := split_unique (P := (· ∈ digits)) hu h4 g4 (exponent_head h5) (exponent_head g5)
      rw [exponent_unique h5 g5]
    | text g1 =>
      simp only [List.append_assoc, List.cons_append] at hs
      exact absurd hs.symm (plain_head g1 h1 (digits_head h2 h3 _))
  | text h1 =>
    cases h' with
    | null => obtain ⟨⟨c, r, rfl, _⟩, _⟩ := h1; simp at hs
    | int g1 g2 g3 g4 => exact absurd hs (plain_head h1 g1 (hin g2 g3))
    | float g1 g2 g3 g4 g5 =>
      simp only [List.append_assoc, List.cons_append] at hs
      exact absurd hs (plain_head h1 g1 (digits_head g2 g3 _))
    | text g1 => rw [hs]

/-! ### Values on one line -/

theorem ordinary_pad {a s b : Str} {x : Node} (ha : Spaces a) (hb : Spaces b) (h : Scalar s x) :
    ∀ c ∈ a ++ s ++ b, Ordinary c := by
  intro c hc
  simp only [List.mem_append] at hc
  rcases hc with (h1 | h1) | h1
  · rw [ha c h1]; simp [Ordinary]
  · exact ordinary_scalar h c h1
  · rw [hb c h1]; simp [Ordinary]

theorem pad_unique {a s b a' s' b' : Str} {x y : Node} (ha : Spaces a) (hb : Spaces b) (h : Scalar s x)
    (ha' : Spaces a') (hb' : Spaces b') (h' : Scalar s' y) (e : a ++ s ++ b = a' ++ s' ++ b') : x = y := by
  have h1 := trim_pad ha hb (trimmed_scalar h)
  rw [e, trim_pad ha' hb' (trimmed_scalar h')] at h1
  subst h1
  exact scalar_unique h h'

theorem flow_unique {s : Str} {xs ys : List Node} (h : FlowItems s xs) (h' : FlowItems s ys) : xs = ys := by
  have comma : ¬ Ordinary ',' := by simp [Ordinary]
  induction h generalizing ys with
  | one h1 h2 h3 h4 =>
    generalize hs : (_ ++ _ ++ _ : Str) = s at h'
    cases h' with
    | one g1 g2 g3 g4 => rw [pad_unique h1 h2 h4 g1 g2 g4 hs]
    | cons g1 g2 g3 g4 => exact absurd (ordinary_pad h1 h2 h4 ',' (by rw [hs]; simp)) comma
  | cons h1 h2 h3 h4 _ ih =>
    generalize hs : (_ ++ _ ++ _ ++ _ : Str) = s at h'
    cases h' with
    | one g1 g2 g3 g4 => exact absurd (ordinary_pad g1 g2 g4 ',' (by rw [← hs]; simp)) comma
    | cons g1 g2 g3 g4 g5 =>
      obtain ⟨e1, e2⟩ := split_unique (P := Ordinary) hs (ordinary_pad h1 h2 h4) (ordinary_pad g1 g2 g4)
        (by rintro x r e; simp only [List.cons.injEq] at e; rw [← e.1]; exact comma)
        (by rintro x r e; simp only [List.cons.injEq] at e; rw [← e.1]; exact comma)
      simp only [List.cons.injEq, true_and] at e2
      rw [pad_unique h1 h2 h4 g1 g2 g4 e1]
      subst e2
      rw [ih g5]

theorem value_unique {s : Str} {x y : Node} (h : Value s x) (h' : Value s y) : x = y := by
  have hb : ¬ Ordinary '[' := by simp [Ordinary]
  have ht : ∀ t : Str, Trimmed ('[' :: t ++ [']']) := fun t => by
    rw [Trimmed, List.getLast?_append]; simp
  have hr : ∀ a t b : Str, a ++ '[' :: t ++ ']' :: b = a ++ ('[' :: t ++ [']']) ++ b := by simp
  generalize hs : s = s' at h'
  cases h with
  | scalar h1 h2 h3 =>
    cases h' with
    | scalar g1 g2 g3 => exact pad_unique h1 h2 h3 g1 g2 g3 hs
    | flow g1 g2 g3 => exact absurd (ordinary_pad h1 h2 h3 '[' (by rw [hs]; simp)) hb
  | @flow a t b _ h1 h2 h3 =>
    cases h' with
    | scalar g1 g2 g3 => exact absurd (ordinary_pad g1 g2 g3 '[' (by rw [← hs]; simp)) hb
    | @flow a' t' b' _ g1 g2 g3 =>
      rw [hr, hr] at hs
      have e := trim_pad h1 h2 (ht t)
      rw [hs, trim_pad g1 g2 (ht t')] at e
      simp only [List.cons_append, List.cons.injEq, List.append_cancel_right_eq, true_and] at e
      subst e
      rw [flow_unique h3 g3]

theorem flow_chars {s : Str} {xs : List Node} (h : FlowItems s xs) : ':' ∉ s ∧ '#' ∉ s := by
  have o1 : ¬ Ordinary ':' := by simp [Ordinary]
  have o2 : ¬ Ordinary '#' := by simp [Ordinary]
  induction h with
  | one h1 h2 _ h3 => exact ⟨fun h => o1 (ordinary_pad h1 h2 h3 _ h), fun h => o2 (ordinary_pad h1 h2 h3 _ h)⟩
  | cons h1 h2 _ h3 _ ih =>
    have a := mt (ordinary_pad h1 h2 h3 ':') o1
    have b := mt (ordinary_pad h1 h2 h3 '#') o2
    simp only [List.mem_append, not_or] at a b
    simp [a, b, ih]

theorem value_chars {s : Str} {x : Node} (h : Value s x) : ':' ∉ s ∧ '#' ∉ s := by
  have o1 : ¬ Ordinary ':' := by simp [Ordinary]
  have o2 : ¬ Ordinary '#' := by simp [Ordinary]
  cases h with
  | scalar h1 h2 h3 => exact ⟨fun h => o1 (ordinary_pad h1 h2 h3 _ h), fun h => o2 (ordinary_pad h1 h2 h3 _ h)⟩
  | flow h1 h2 h3 =>
    have a : ∀ {t : Str}, Spaces t → ':' ∉ t ∧ '#' ∉ t := fun ht =>
      ⟨fun h => absurd (ht _ h) (by decide), fun h => absurd (ht _ h) (by decide)⟩
    simp [a h1, a h2, flow_chars h3]

/-! ### Lines -/

/-- The line has a character other than a space. -/
def visible (l : Str) : Bool := l.any (· ≠ ' ')

theorem visible_spaces {l : Str} (h : Spaces l) : visible l = false := by
  simpa [visible, Spaces] using h

theorem visible_key {n : ℕ} {k r : Str} (h : Key k) : visible (indent n ++ k ++ r) = true := by
  obtain ⟨⟨⟨c, t, rfl, hc⟩, -⟩, -⟩ := h
  have := (letter_not hc).1
  simp only [List.mem_cons, not_or] at this
  simp [visible, this]

theorem visible_dash {n : ℕ} {r : Str} : visible (indent n ++ '-' :: r) = true := by
  simp [visible]

mutual

/-- Empty lines do not matter. -/
theorem block_visible {n : ℕ} {ls : List Str} {es : List (Str × Node)} (h : Block n ls es) :
    Block n (ls.filter visible) es := by
  match h with
  | .nil => exact .nil
  | .empty h1 h2 =>
    rw [List.filter_cons_of_neg (by simp [visible_spaces h1])]
    exact block_visible h2
  | .entry h1 h2 h3 =>
    rw [List.filter_cons_of_pos (visible_key h1)]
    exact .entry h1 h2 (block_visible h3)
  | .sequence h1 h2 h3 =>
    rw [List.cons_append, List.filter_cons_of_pos (visible_key h1), List.filter_append]
    exact .sequence h1 (items_visible h2) (block_visible h3)

theorem items_visible {n : ℕ} {ls : List Str} {xs : List Node} (h : Items n ls xs) :
    Items n (ls.filter visible) xs := by
  match h with
  | .nil => exact .nil
  | .empty h1 h2 =>
    rw [List.filter_cons_of_neg (by simp [visible_spaces h1])]
    exact items_visible h2
  | .value h1 h2 =>
    rw [List.filter_cons_of_pos visible_dash]
    exact .value h1 (items_visible h2)
  | .mapping h1 h2 h3 h4 =>
    rw [List.cons_append, List.filter_cons_of_pos (by simp [visible]), List.filter_append]
    exact .mapping h1 h2 (block_visible h3) (items_visible h4)
  | .comment h1 h2 h3 =>
    rw [List.cons_append, List.filter_cons_of_pos visible_dash, List.filter_append]
    exact .comment h1 (block_visible h2) (items_visible h3)

end

mutual

/-- The lines of a mapping are indented. -/
theorem block_indent {n : ℕ} {ls : List Str} {es : List (Str × Node)} (h : Block n ls es) :
    ∀ l ∈ ls, visible l = true → ∃ r, l = indent n ++ r := by
  match h with
  | .nil => simp
  | .empty h1 h2 =>
    intro l hl hv
    rcases List.mem_cons.1 hl with rfl | hl
    · rw [visible_spaces h1] at hv; simp at hv
    · exact block_indent h2 l hl hv
  | .entry h1 h2 h3 =>
    intro l hl hv
    rcases List.mem_cons.1 hl with rfl | hl
    · exact ⟨_, by rw [List.append_assoc]⟩
    · exact block_indent h3 l hl hv
  | .sequence h1 h2 h3 =>
    intro l hl hv
    rw [List.cons_append] at hl
    rcases List.mem_cons.1 hl with rfl | hl
    · exact ⟨_, by rw [List.append_assoc]⟩
    · rcases List.mem_append.1 hl with hl | hl
      · rcases items_indent h2 l hl hv with ⟨r, h⟩ | ⟨r, h⟩ <;> exact ⟨_, h⟩
      · exact block_indent h3 l hl hv

/-- The lines of a sequence start with a hyphen or are indented further. -/
theorem items_indent {n : ℕ} {ls : List Str} {xs : List Node} (h : Items n ls xs) :
    ∀ l ∈ ls, visible l = true → (∃ r, l = indent n ++ '-' :: r) ∨ ∃ r, l = indent n ++ ' ' :: r := by
  have two : ∀ {l r : Str}, l = indent (n + 2) ++ r → ∃ r, l = indent n ++ ' ' :: r := fun {l r} h =>
    ⟨' ' :: r, by rw [h]; simp [indent, List.replicate_add]⟩
  match h with
  | .nil => simp
  | .empty h1 h2 =>
    intro l hl hv
    rcases List.mem_cons.1 hl with rfl | hl
    · rw [visible_spaces h1] at hv; simp at hv
    · exact items_indent h2 l hl hv
  | .value h1 h2 =>
    intro l hl hv
    rcases List.mem_cons.1 hl with rfl | hl
    · exact .inl ⟨_, rfl⟩
    · exact items_indent h2 l hl hv
  | .mapping h1 h2 h3 h4 =>
    intro l hl hv
    rw [List.cons_append] at hl
    rcases List.mem_cons.1 hl with rfl | hl
    · exact .inl ⟨_, by rw [List.append_assoc]; rfl⟩
    · rcases List.mem_append.1 hl with hl | hl
      · obtain ⟨r, h⟩ := block_indent h3 l hl hv
        exact .inr (two h)
      · exact items_indent h4 l hl hv
  | .comment h1 h2 h3 =>
    intro l hl hv
    rw [List.cons_append] at hl
    rcases List.mem_cons.1 hl with rfl | hl
    · exact .inl ⟨_, rfl⟩
    · rcases List.mem_append.1 hl with hl | hl
      · obtain ⟨r, h⟩ := block_indent h2 l hl hv
        exact .inr (two h)
      · exact items_indent h3 l hl hv

end

/-- What the first visible line of a mapping is. -/
theorem block_cons {n : ℕ} {l : Str} {ls : List Str} {es : List (Str × Node)} (h : Block n (l :: ls) es)
    (hv : visible l = true) :
    (∃ k v x es', l = indent n ++ k ++ ':' :: ' ' :: v ∧ Key k ∧ Value v x ∧ Block n ls es' ∧ es = (k, x) :: es') ∨
    ∃ k a b x xs es', l = indent n ++ k ++ [':'] ∧ Key k ∧ ls = a ++ b ∧ Items n a (x :: xs) ∧ Block n b es' ∧
      es = (k, .list (x :: xs)) :: es' := by
  generalize hl : l :: ls = m at h
  cases h with
  | nil => simp at hl
  | empty h1 h2 =>
    simp only [List.cons.injEq] at hl
    rw [hl.1, visible_spaces h1] at hv
    simp at hv
  | entry h1 h2 h3 =>
    simp only [List.cons.injEq] at hl
    obtain ⟨rfl, rfl⟩ := hl
    exact .inl ⟨_, _, _, _, rfl, h1, h2, h3, rfl⟩
  | sequence h1 h2 h3 =>
    simp only [List.cons_append, List.cons.injEq] at hl
    obtain ⟨rfl, rfl⟩ := hl
    exact .inr ⟨_, _, _, _, _, _, rfl, h1, rfl, h2, h3, rfl⟩

/-- What the first visible line of a sequence is. -/
theorem items_cons {n : ℕ} {l : Str} {ls : List Str} {ys : List Node} (h : Items n (l :: ls) ys)
    (hv : visible l = true) :
    (∃ v x xs, l = indent n ++ '-' :: ' ' :: v ∧ Value v x ∧ Items n ls xs ∧ ys = x :: xs) ∨
    (∃ k v x a b es xs, l = indent n ++ '-' :: ' ' :: k ++ ':' :: ' ' :: v ∧ Key k ∧ Value v x ∧ ls = a ++ b ∧
      Block (n + 2) a es ∧ Items n b xs ∧ ys = .map ((k, x) :: es) :: xs) ∨
    ∃ t a b es xs, l = indent n ++ '-' :: ' ' :: '#' :: t ∧ ls = a ++ b ∧ Block (n + 2) a es ∧ Items n b xs ∧
      ys = .map es :: xs := by
  generalize hl : l :: ls = m at h
  cases h with
  | nil => simp at hl
  | empty h1 h2 =>
    simp only [List.cons.injEq] at hl
    rw [hl.1, visible_spaces h1] at hv
    simp at hv
  | value h1 h2 =>
    simp only [List.cons.injEq] at hl
    obtain ⟨rfl, rfl⟩ := hl
    exact .inl ⟨_, _, _, rfl, h1, h2, rfl⟩
  | mapping h1 h2 h3 h4 =>
    simp only [List.cons_append, List.cons.injEq] at hl
    obtain ⟨rfl, rfl⟩ := hl
    exact .inr (.inl ⟨_, _, _, _, _, _, _, by simp, h1, h2, rfl, h3, h4, rfl⟩)
  | comment h1 h2 h3 =>
    simp only [List.cons_append, List.cons.injEq] at hl
    obtain ⟨rfl, rfl⟩ := hl
    exact .inr (.inr ⟨_, _, _, _, _, rfl, rfl, h2, h3, rfl⟩)

theorem key_chars {k : Str} (h : Key k) : ':' ∉ k := fun hm => absurd (ordinary_plain h.1 _ hm) (by simp [Ordinary])

theorem key_split {k k' r r' : Str} (h : Key k) (h' : Key k') (e : k ++ ':' :: r = k' ++ ':' :: r') :
    k = k' ∧ r = r' := by
  have := split_unique (P := (· ≠ ':')) e (fun c hc hd => key_chars h (hd ▸ hc)) (fun c hc hd => key_chars h' (hd ▸ hc))
    (by rintro x t e; simp only [List.cons.injEq] at e; exact not_not_intro e.1.symm)
    (by rintro x t e; simp only [List.cons.injEq] at e; exact not_not_intro e.1.symm)
  simpa using this

/-- A visible line of a sequence does not start a key of the mapping around it. -/
theorem items_not_key {n : ℕ} {ls : List Str} {xs : List Node} (h : Items n ls xs) :
    ∀ l ∈ ls, visible l = true → ¬ ∃ c r, l = indent n ++ c :: r ∧ c ∈ letters := by
  rintro l hl hv ⟨c, r, rfl, hc⟩
  have := (letter_not hc).1
  simp only [List.mem_cons, not_or] at this
  rcases items_indent h _ hl hv with ⟨r', e⟩ | ⟨r', e⟩ <;> simp at e <;> simp_all

theorem block_key {n : ℕ} {l : Str} {ls : List Str} {es : List (Str × Node)} (h : Block n (l :: ls) es)
    (hv : visible l = true) : ∃ c r, l = indent n ++ c :: r ∧ c ∈ letters := by
  rcases block_cons h hv with ⟨k, v, x, es', rfl, hk, -⟩ | ⟨k, a, b, x, xs, es', rfl, hk, -⟩ <;>
    obtain ⟨⟨⟨c, r, rfl, hc⟩, -⟩, -⟩ := hk <;> exact ⟨c, _, by simp; rfl, hc⟩

theorem items_dash {n : ℕ} {l : Str} {ls : List Str} {xs : List Node} (h : Items n (l :: ls) xs)
    (hv : visible l = true) : ¬ ∃ r, l = indent (n + 2) ++ r := by
  rintro ⟨r, hr⟩
  have : indent (n + 2) ++ r = indent n ++ ' ' :: ' ' :: r := by simp [indent, List.replicate_add]
  rw [this] at hr
  rcases items_cons h hv with ⟨v, x, xs, rfl, -⟩ | ⟨k, v, x, a, b, es, xs, rfl, -⟩ | ⟨t, a, b, es, xs, rfl, -⟩ <;>
    simp at hr

theorem lines_unique (N : ℕ) : ∀ (n : ℕ) (ls : List Str), ls.length ≤ N → (∀ l ∈ ls, visible l = true) →
    (∀ es es', Block n ls es → Block n ls es' → es = es') ∧ ∀ xs xs', Items n ls xs → Items n ls xs' → xs = xs' := by
  induction N with
  | zero =>
    intro n ls hl _
    obtain rfl : ls = [] := List.length_eq_zero_iff.1 (by omega)
    constructor
    · intro es es' h h'; cases h; cases h'; rfl
    · intro es es' h h'; cases h; cases h'; rfl
  | succ N ih =>
    intro n ls hl hv
    cases ls with
    | nil =>
      constructor
      · intro es es' h h'; cases h; cases h'; rfl
      · intro es es' h h'; cases h; cases h'; rfl
    | cons l ls =>
      have hvl := hv l (by simp)
      have hvs : ∀ m ∈ ls, visible m = true := fun m hm => hv m (by simp [hm])
      have hls : ls.length ≤ N := by simpa using hl
      constructor
      · intro es es' h h'
        rcases block_cons h hvl with ⟨k, v, x, e1, rfl, hk, hx, hb, rfl⟩ | ⟨k, a, b, x, xs, e1, rfl, hk, rfl, ha, hb, rfl⟩ <;>
          rcases block_cons h' hvl with ⟨k', v', x', e2, e, hk', hx', hb', rfl⟩ | ⟨k', a', b', x', xs', e2, e, hk', e', ha', hb', rfl⟩ <;>
          simp only [List.append_assoc, List.append_cancel_left_eq] at e <;>
          obtain ⟨rfl, e0⟩ := key_split hk hk' e
        · simp only [List.cons.injEq, true_and] at e0
          subst e0
          rw [value_unique hx hx', (ih n ls hls hvs).1 _ _ hb hb']
        · simp at e0
        · simp at e0
        · obtain ⟨rfl, rfl⟩ := split_unique (P := fun l => ¬ ∃ c r, l = indent n ++ c :: r ∧ c ∈ letters) e'
            (fun m hm => items_not_key ha m hm (hvs m (by simp [hm])))
            (fun m hm => items_not_key ha' m hm (hvs m (by rw [e']; simp [hm])))
            (by rintro m r rfl; exact not_not_intro (block_key hb (hvs m (by simp))))
            (by rintro m r rfl; exact not_not_intro (block_key hb' (hvs m (by rw [e']; simp))))
          simp only [List.length_append] at hls
          have i1 := (ih n a (by omega) (fun m hm => hvs m (by simp [hm]))).2 _ _ ha ha'
          have i2 := (ih n b (by omega) (fun m hm => hvs m (by simp [hm]))).1 _ _ hb hb'
          rw [i1, i2]
      · intro xs xs' h h'
        have split : ∀ {a b a' b' : List Str} {es es' : List (Str × Node)} {y y' : List Node}, ls = a ++ b → ls = a' ++ b' →
            Block (n + 2) a es → Block (n + 2) a' es' → Items n b y → Items n b' y' → es = es' ∧ y = y' := by
          intro a b a' b' es es' y y' e e' ha ha' hb hb'
          have hva : ∀ m ∈ a, visible m = true := fun m hm => hvs m (by rw [e]; simp [hm])
          have hvb : ∀ m ∈ b, visible m = true := fun m hm => hvs m (by rw [e]; simp [hm])
          have hva' : ∀ m ∈ a', visible m = true := fun m hm => hvs m (by rw [e']; simp [hm])
          have hvb' : ∀ m ∈ b', visible m = true := fun m hm => hvs m (by rw [e']; simp [hm])
          have hlen : a.length + b.length ≤ N := by rw [e] at hls; simpa using hls
          obtain ⟨rfl, rfl⟩ := split_unique (P := fun l => ∃ r, l = indent (n + 2) ++ r) (e.symm.trans e')
            (fun m hm => block_indent ha m hm (hva m hm)) (fun m hm => block_indent ha' m hm (hva' m hm))
            (by rintro m r rfl; exact items_dash hb (hvb m (by simp)))
            (by rintro m r rfl; exact items_dash hb' (hvb' m (by simp)))
          exact ⟨(ih _ _ (by omega) hva).1 _ _ ha ha', (ih _ _ (by omega) hvb).2 _ _ hb hb'⟩
        have letter : ∀ {k r t : Str}, Key k → k ++ r ≠ '#' :: t := by
          intro k r t hk e
          obtain ⟨⟨⟨c, u, rfl, hc⟩, -⟩, -⟩ := hk
          simp only [List.cons_append, List.cons.injEq] at e
          have := (letter_not hc).1
          rw [e.1] at this
          simp at this
        rcases items_cons h hvl with ⟨v, x, y, rfl, hx, hb, rfl⟩ | ⟨k, v, x, a, b, es, y, rfl, hk, hx, e1, ha, hb, rfl⟩ |
            ⟨t, a, b, es, y, rfl, e1, ha, hb, rfl⟩ <;>
          rcases items_cons h' hvl with ⟨v', x', y', e, hx', hb', rfl⟩ | ⟨k', v', x', a', b', es', y', e, hk', hx', e1', ha', hb', rfl⟩ |
            ⟨t', a', b', es', y', e, e1', ha', hb', rfl⟩ <;>
          simp only [List.append_assoc, List.append_cancel_left_eq, List.cons_append, List.cons.injEq, true_and] at e
        · subst e
          rw [value_unique hx hx', (ih n ls hls hvs).2 _ _ hb hb']
        · exact absurd (by rw [e]; simp) (value_chars hx).1
        · exact absurd (by rw [e]; simp) (value_chars hx).2
        · exact absurd (by rw [← e]; simp) (value_chars hx').1
        · obtain ⟨rfl, e0⟩ := key_split hk hk' e
          simp only [List.cons.injEq, true_and] at e0
          subst e0
          obtain ⟨rfl, rfl⟩ := split e1 e1' ha ha' hb hb'
          rw [value_unique hx hx']
        · exact absurd e (letter hk)
        · exact absurd (by rw [← e]; simp) (value_chars hx').2
        · exact absurd e.symm (letter hk')
        · obtain ⟨rfl, rfl⟩ := split e1 e1' ha ha' hb hb'
          rfl

theorem lines_of_text {ls ls' : List Str} (h : ∀ l ∈ ls, '\n' ∉ l) (h' : ∀ l ∈ ls', '\n' ∉ l)
    (e : List.intercalate ['\n'] ls = List.intercalate ['\n'] ls') : ls.filter visible = ls'.filter visible := by
  induction ls generalizing ls' with
  | nil =>
    match ls' with
    | [] => rfl
    | [l] => simp [List.intercalate] at e; subst e; rfl
    | l :: m :: r => simp [List.intercalate, List.intersperse] at e
  | cons l ls ih =>
    match ls, ls' with
    | [], [] => simp [List.intercalate] at e; subst e; rfl
    | [], [m] => simp [List.intercalate] at e; subst e; rfl
    | [], m :: m' :: r =>
      refine absurd ?_ (h l (by simp))
      have : l = m ++ '\n' :: List.intercalate ['\n'] (m' :: r) := by simpa [List.intercalate, List.intersperse] using e
      rw [this]; simp
    | m :: r, [] => simp [List.intercalate, List.intersperse] at e
    | m :: r, [l'] =>
      refine absurd ?_ (h' l' (by simp))
      have : l ++ '\n' :: List.intercalate ['\n'] (m :: r) = l' := by simpa [List.intercalate, List.intersperse] using e
      rw [← this]; simp
    | m :: r, l' :: m' :: r' =>
      have e : l ++ '\n' :: List.intercalate ['\n'] (m :: r) = l' ++ '\n' :: List.intercalate ['\n'] (m' :: r') := by
        simpa [List.intercalate, List.intersperse] using e
      obtain ⟨rfl, e0⟩ := split_unique (P := (· ≠ '\n')) e (fun c hc hd => h l (by simp) (hd ▸ hc))
        (fun c hc hd => h' l' (by simp) (hd ▸ hc))
        (by rintro x t e; simp only [List.cons.injEq] at e; exact not_not_intro e.1.symm)
        (by rintro x t e; simp only [List.cons.injEq] at e; exact not_not_intro e.1.symm)
      simp only [List.cons.injEq, true_and] at e0
      have := ih (fun x hx => h x (by simp [hx])) (fun x hx => h' x (by simp [List.mem_cons.1 hx])) e0
      rw [List.filter_cons, List.filter_cons (x := l) (xs := m' :: r'), this]

/-- C85: a text of the fragment denotes one tree only, so that what a generated input means does not depend on how it is
taken apart. -/
theorem C85_one_tree {text : Str} {x y : Node} (h : Denotes text x) (h' : Denotes text y) : x = y := by
  obtain ⟨ls, es, h1, rfl, h2, rfl⟩ := h
  obtain ⟨ls', es', h1', e, h2', rfl⟩ := h'
  have hb := block_visible h2
  have hb' := block_visible h2'
  rw [← lines_of_text h1 h1' e] at hb'
  rw [(lines_unique _ 0 _ le_rfl (fun l hl => (List.mem_filter.1 hl).2)).1 _ _ hb hb']

/-- A line of an input: the only tree is the mapping with the number of atoms. -/
example : ∀ y, Denotes c!"natom:   2" y → y = .map [(c!"natom", .int 2)] := by
  intro y hy
  have hk : Key c!"natom" := key_of (by decide) ⟨_, _, rfl, by decide⟩ (by decide)
  have hn : Scalar c!"2" (.int 2) := .int (sgn := []) (f := 1) (.inl ⟨rfl, rfl⟩) (by unfold Digits; decide) (by decide) (.inr (by decide))
  have hv : Value c!"  2" (.int 2) := .scalar (a := c!"  ") (b := []) (by unfold Spaces; decide) (by unfold Spaces; decide) hn
  exact C85_one_tree hy ⟨[c!"natom:   2"], [(c!"natom", .int 2)], by decide, rfl, .entry (n := 0) hk hv .nil, rfl⟩

end Verif.Phonon
