/-
The converse of `parseFloat_numeral`: whatever the model of `float(str)` accepts is a decimal
numeral of the returned value.
-/
import Verif.IO.TextLemmas

namespace Verif.IO
open Verif.Py Spec

theorem takeSign_spec (s : Str) :
    ∃ sgn f, Sign sgn f ∧ s = sgn ++ (takeSign s).2 ∧ f = if (takeSign s).1 then -1 else 1 := by
  unfold takeSign
  split
  · exact ⟨['-'], -1, .inr (.inr ⟨rfl, rfl⟩), rfl, rfl⟩
  · exact ⟨['+'], 1, .inr (.inl ⟨rfl, rfl⟩), rfl, rfl⟩
  · exact ⟨[], 1, .inl ⟨rfl, rfl⟩, rfl, rfl⟩

theorem digits_takeWhile (s : Str) : Digits (s.takeWhile isDigit) := by
  intro c hc
  exact mem_digits.2 (List.all_eq_true.1 List.all_takeWhile c hc)

theorem parseExp_sound {x : Str} {e : ℤ} (h : parseExp x = some e) : Exponent x e := by
  cases x with
  | nil => simp only [parseExp, Option.some.injEq] at h; exact .inl ⟨rfl, h.symm⟩
  | cons c t =>
    simp only [parseExp] at h
    split at h
    · rename_i hc
      split at h
      · rename_i hd
        obtain ⟨sgn, f, hs, ht, hf⟩ := takeSign_spec t
        have hD : Digits (takeSign t).2 := fun c hc =>
          mem_digits.2 (List.all_eq_true.1 hd.2 c hc)
        refine .inr ⟨c, sgn, f, (takeSign t).2, hc, hs, hD, hd.1, ?_, ?_⟩
        · rw [List.cons_append, ← ht]
        · rw [natOf_eq hD, hf]
          simp only [Option.some.injEq] at h
          rw [← h]
          split <;> simp
      · exact absurd h (by simp)
    · exact absurd h (by simp)

theorem parseUnsigned_sound {s : Str} {q : ℚ} (h : parseUnsigned s = some q) :
    ∃ m a x e, Mantissa m a ∧ Exponent x e ∧ s = m ++ x ∧ q = a * (10 : ℚ) ^ e := by
  have hsplit : s = s.takeWhile isDigit ++ s.dropWhile isDigit :=
    (List.takeWhile_append_dropWhile).symm
  have hd := digits_takeWhile s
  simp only [parseUnsigned] at h
  by_cases hdot : ∃ t, s.dropWhile isDigit = '.' :: t
  · obtain ⟨t, ht⟩ := hdot
    have hd2 := digits_takeWhile t
    have e1 : takeFraction (s.dropWhile isDigit) = (t.takeWhile isDigit, t.dropWhile isDigit) := by
      rw [ht]; rfl
    simp only [e1] at h
    split at h
    · exact absurd h (by simp)
    rename_i hne
    cases hx : parseExp (t.dropWhile isDigit) with
    | none => rw [hx] at h; exact absurd h (by simp)
    | some e =>
      simp only [hx, Option.some.injEq] at h
      refine ⟨_, _, _, e, .inr ⟨s.takeWhile isDigit, t.takeWhile isDigit, hd, hd2, hne, rfl, rfl⟩,
        parseExp_sound hx, ?_, ?_⟩
      · conv_lhs => rw [hsplit, ht, ← List.takeWhile_append_dropWhile (p := isDigit) (l := t)]
        simp
      · rw [← h, digitsVal_append, natOf_eq hd, natOf_eq hd2, zpow_sub₀ (by norm_num), zpow_natCast]
        push_cast
        field_simp
  · have e1 : takeFraction (s.dropWhile isDigit) = ([], s.dropWhile isDigit) := by
      unfold takeFraction
      split
      · rename_i t ht
        exact absurd ⟨t, ht⟩ hdot
      · rfl
    simp only [e1, List.append_nil] at h
    split at h
    · exact absurd h (by simp)
    rename_i hne
    cases hx : parseExp (s.dropWhile isDigit) with
    | none => rw [hx] at h; exact absurd h (by simp)
    | some e =>
      simp only [hx, Option.some.injEq] at h
      refine ⟨_, _, _, e, .inl ⟨s.takeWhile isDigit, hd, hne, rfl, rfl⟩, parseExp_sound hx, hsplit, ?_⟩
      rw [← h, natOf_eq hd]
      simp

/-- Whatever is accepted as a number is a numeral of the value returned. -/
theorem parseFloat_sound {s : Str} {q : ℚ} (h : parseFloat s = some q) : Numeral (strip s) q := by
  obtain ⟨sgn, f, hs, ht, hf⟩ := takeSign_spec (strip s)
  simp only [parseFloat] at h
  cases hu : parseUnsigned (takeSign (strip s)).2 with
  | none => rw [hu] at h; exact absurd h (by simp)
  | some r =>
    obtain ⟨m, a, x, e, hm, hx, e1, e2⟩ := parseUnsigned_sound hu
    simp only [hu, Option.some.injEq] at h
    refine ⟨sgn, f, m, a, x, e, hs, hm, hx, ?_, ?_⟩
    · rw [List.append_assoc, ← e1, ← ht]
    · rw [← h, hf, ← e2]
      split <;> simp

theorem parseFloat_token {t : Str} {q : ℚ} (ht : IsToken t) (h : parseFloat t = some q) :
    Numeral t q := by
  have := parseFloat_sound h
  rwa [strip_token ht] at this

end Verif.IO
