/- Lemmas for the lines `label = value(error)`. -/
import Mathlib.Data.List.Basic
import Verif.Report.Concise
import Verif.Report.ConciseSpec

namespace Verif.Report
open Verif.Py Verif.IO Verif.IO.Spec Verif.Report.Spec

/-! ### reading is unique -/

theorem split_at {c : Char} : ∀ {x y r s : Str}, c ∉ x → c ∉ y → x ++ c :: r = y ++ c :: s →
    x = y ∧ r = s
  | [], [], _, _, _, _, h => ⟨rfl, by simpa using h⟩
  | [], d :: y, _, _, _, hy, h => by
    simp only [List.nil_append, List.cons_append, List.cons.injEq] at h
    exact absurd (h.1 ▸ List.mem_cons_self) hy
  | d :: x, [], _, _, hx, _, h => by
    simp only [List.nil_append, List.cons_append, List.cons.injEq] at h
    exact absurd (h.1 ▸ List.mem_cons_self) hx
  | d :: x, e :: y, _, _, hx, hy, h => by
    simp only [List.cons_append, List.cons.injEq] at h
    obtain ⟨h1, h2⟩ := split_at (fun hm => hx (List.mem_cons_of_mem _ hm))
      (fun hm => hy (List.mem_cons_of_mem _ hm)) h.2
    exact ⟨by rw [h.1, h1], h2⟩

theorem sign_chars {sgn : Str} {f : ℤ} (h : Sign sgn f) : ∀ c ∈ sgn, c = '+' ∨ c = '-' := by
  rcases h with ⟨rfl, _⟩ | ⟨rfl, _⟩ | ⟨rfl, _⟩ <;> simp

theorem digit_ne {c : Char} (h : c ∈ digits) : c ≠ '(' ∧ c ≠ '.' ∧ c ≠ '+' ∧ c ≠ '-' ∧ c ≠ ')' := by
  simp only [digits, List.mem_cons, List.not_mem_nil, or_false] at h
  rcases h with rfl | rfl | rfl | rfl | rfl | rfl | rfl | rfl | rfl | rfl <;> decide

theorem sign_split {s s' a a' : Str} {f f' : ℤ} (hs : Sign s f) (hs' : Sign s' f')
    (ha : Digits a) (hne : a ≠ []) (ha' : Digits a') (hne' : a' ≠ []) {r r' : Str}
    (h : s ++ a ++ r = s' ++ a' ++ r') : f = f' ∧ s = s' := by
  obtain ⟨c, l, rfl⟩ := List.exists_cons_of_ne_nil hne
  obtain ⟨c', l', rfl⟩ := List.exists_cons_of_ne_nil hne'
  have hc := digit_ne (ha c (by simp))
  have hc' := digit_ne (ha' c' (by simp))
  rcases hs with ⟨rfl, rfl⟩ | ⟨rfl, rfl⟩ | ⟨rfl, rfl⟩ <;>
    rcases hs' with ⟨rfl, rfl⟩ | ⟨rfl, rfl⟩ | ⟨rfl, rfl⟩ <;>
    simp only [List.nil_append, List.cons_append, List.cons.injEq] at h <;>
    first
      | exact ⟨rfl, rfl⟩
      | exact absurd h.1 (by decide)
      | exact absurd h.1 hc.2.2.1
      | exact absurd h.1 hc.2.2.2.1
      | exact absurd h.1.symm hc'.2.2.1
      | exact absurd h.1.symm hc'.2.2.2.1

theorem readsAs_unique {label s : Str} {v u v' u' : ℚ} (h : ReadsAs label s v u)
    (h' : ReadsAs label s v' u') : v = v' ∧ u = u' := by
  obtain ⟨sgn, f, a, b, e, hs, ha, hne, hb, he, hene, rfl, rfl, rfl⟩ := h
  obtain ⟨sgn', f', a', b', e', hs', ha', hne', hb', he', hene', heq, rfl, rfl⟩ := h'
  simp only [List.append_assoc, List.append_cancel_left_eq, List.cons_append, List.nil_append] at heq
  have n1 : ∀ {sgn a b : Str} {f : ℤ}, Sign sgn f → Digits a → Digits b →
      '(' ∉ sgn ++ (a ++ (if b = [] then [] else '.' :: b)) := by
    intro sgn a b f hs ha hb hm
    simp only [List.mem_append] at hm
    rcases hm with hm | hm | hm
    · rcases sign_chars hs _ hm with h | h <;> exact absurd h (by decide)
    · exact (digit_ne (ha _ hm)).1 rfl
    · split at hm
      · cases hm
      · rcases List.mem_cons.1 hm with h | h
        · exact absurd h (by decide)
        · exact (digit_ne (hb _ h)).1 rfl
  have heq' : (sgn ++ (a ++ (if b = [] then [] else '.' :: b))) ++ '(' :: (e ++ [')']) =
      (sgn' ++ (a' ++ (if b' = [] then [] else '.' :: b'))) ++ '(' :: (e' ++ [')']) := by
    simpa using heq
  obtain ⟨hX, hE⟩ := split_at (n1 hs ha hb) (n1 hs' ha' hb') heq'
  have hee : e = e' := by simpa using hE
  obtain ⟨rfl, rfl⟩ := sign_split hs hs' ha hne ha' hne'
    (r := if b = [] then [] else '.' :: b) (r' := if b' = [] then [] else '.' :: b') (by simpa using hX)
  have hX2 : a ++ (if b = [] then [] else '.' :: b) = a' ++ (if b' = [] then [] else '.' :: b') := by
    simpa using hX
  have hd : ∀ {x : Str}, Digits x → '.' ∉ x := fun hx hm => (digit_ne (hx _ hm)).2.1 rfl
  have hab : a = a' ∧ b = b' := by
    by_cases h1 : b = [] <;> by_cases h2 : b' = []
    · simp only [h1, h2, if_true, List.append_nil] at hX2
      exact ⟨hX2, by rw [h1, h2]⟩
    · exfalso
      rw [if_pos h1, if_neg h2, List.append_nil] at hX2
      exact hd ha (by rw [hX2]; simp)
    · exfalso
      rw [if_neg h1, if_pos h2, List.append_nil] at hX2
      exact hd ha' (by rw [← hX2]; simp)
    · rw [if_neg h1, if_neg h2] at hX2
      exact split_at (hd ha) (hd ha') hX2
  obtain ⟨rfl, rfl⟩ := hab
  subst hee
  exact ⟨rfl, rfl⟩

/-! ### dropping zeros -/

theorem dropZeros_spec (d n : ℕ) :
    ((dropZeros d n).2 : ℚ) / 10 ^ (dropZeros d n).1 = n / 10 ^ d ∧ (dropZeros d n).1 ≤ d ∧
      (1 ≤ d → 1 ≤ (dropZeros d n).1) ∧
      ((d ≤ 1 ∨ n % 10 ≠ 0) → (dropZeros d n).1 = d ∧ (dropZeros d n).2 = n) ∧
      (2 ≤ d → n % 10 = 0 → (dropZeros d n).1 < d) := by
  induction d using Nat.strong_induction_on generalizing n with
  | _ d ih =>
    match d with
    | 0 => simp [dropZeros]
    | 1 => simp [dropZeros]
    | d + 2 =>
      rw [dropZeros]
      split
      · rename_i h0
        obtain ⟨h1, h2, h3, h4, h5⟩ := ih (d + 1) (by omega) (n / 10)
        refine ⟨?_, by omega, fun _ => h3 (by omega), ?_, fun _ _ => by omega⟩
        · rw [h1]
          have hn : (n : ℚ) = 10 * (n / 10 : ℕ) := by
            have : n = 10 * (n / 10) := by omega
            exact_mod_cast this
          rw [hn, pow_succ 10 (d + 1)]
          field_simp
        · rintro (h | h)
          · omega
          · exact absurd h0 h
      · rename_i h0
        exact ⟨rfl, le_rfl, fun _ => by simp, fun _ => ⟨rfl, rfl⟩, fun _ h => absurd h h0⟩

end Verif.Report
