/-
Lines made of padded cells.
-/
import Verif.Export.TableLemmas
import Verif.Report.Text

noncomputable section

namespace Verif.Report
open Verif.Py Verif.IO Verif.IO.Spec Verif.Phonon Verif.Export

/-- A token with blanks on both sides. -/
def Cell (t s : Str) : Prop := ∃ g h, Blank g ∧ Blank h ∧ s = g ++ t ++ h

theorem cell_self (t : Str) : Cell t t := ⟨[], [], blank_nil, blank_nil, by simp⟩

theorem cell_center (w : ℕ) (t : Str) : Cell t (center w t) := center_spec w t

theorem cell_before {g t s : Str} (hg : Blank g) (h : Cell t s) : Cell t (g ++ s) := by
  obtain ⟨a, b, ha, hb, rfl⟩ := h
  exact ⟨g ++ a, b, blank_append hg ha, hb, by simp⟩

theorem cell_after {g t s : Str} (hg : Blank g) (h : Cell t s) : Cell t (s ++ g) := by
  obtain ⟨a, b, ha, hb, rfl⟩ := h
  exact ⟨a, b ++ g, ha, blank_append hb hg, by simp⟩

theorem cell_padded {t s : Str} (h : Cell t s) (w : ℕ) : Cell t (center w s) := by
  obtain ⟨a, b, ha, hb, e⟩ := center_spec w s
  rw [e]
  exact cell_after hb (cell_before ha h)

theorem cell_right {t s : Str} (h : Cell t s) (w : ℕ) : Cell t (alignRight w s) :=
  cell_before (blank_replicate _) h

theorem cell_left (t : Str) (w : ℕ) : Cell t (alignLeft w t) := cell_after (blank_replicate _) (cell_self t)

theorem cell_spaced (d : ℕ) (x : ℚ) : Cell (formatFixed d x) (formatSpaced d x) := by
  refine cell_before ?_ (cell_self _)
  split
  · exact blank_nil
  · exact blank_space_one

theorem cell_sciSpaced (d : ℕ) (x : ℚ) : Cell (sciLower d x) (sciSpaced d x) := by
  refine cell_before ?_ (cell_self _)
  split
  · exact blank_nil
  · exact blank_space_one

theorem tokens_last {t s : Str} (h : Cell t s) : Tokens [t] s := by
  obtain ⟨g, b, hg, hb, rfl⟩ := h
  cases b with
  | nil => simpa using Tokens.last hg
  | cons c b => exact .cons hg (hb c (by simp)) (.nil fun x hx => hb x (by simp [hx]))

theorem tokens_next {t s rest : Str} {ts : List Str} (h : Cell t s) (hr : Tokens ts rest) :
    Tokens (t :: ts) (s ++ ' ' :: rest) := by
  obtain ⟨g, b, hg, hb, rfl⟩ := h
  cases b with
  | nil => simpa using Tokens.cons hg (.inl rfl) hr
  | cons c b =>
    have hb' : Blank (b ++ [' ']) :=
      blank_append (fun x hx => hb x (List.mem_cons_of_mem _ hx)) blank_space_one
    have := Tokens.cons (s := t) hg (hb c (by simp)) (tokens_pad hb' hr)
    simpa using this

/-- `'{:.de}'` writes a numeral. -/
theorem sciLower_numeral (d : ℕ) (x : ℚ) : Numeral (sciLower d x) (printedSci d x) := by
  obtain ⟨s1, s2, s3⟩ := showNat_spec ((sciParts d x).1 / 10 ^ d)
  obtain ⟨l1, l2, l3⟩ := lastDigits_spec d (sciParts d x).1
  have hx : Exponent ('e' :: (showExp (sciParts d x).2).tail) (sciParts d x).2 := by
    rcases showExp_spec (sciParts d x).2 with h | ⟨c, sgn, f, ds, h1, _, h2, h3, h4, h5, h6⟩
    · simp [showExp] at h
    · exact .inr ⟨'e', sgn, f, ds, .inl rfl, h2, h3, h4, by rw [h5]; rfl, h6⟩
  refine ⟨if x < 0 then ['-'] else [], if x < 0 then -1 else 1,
    showNat ((sciParts d x).1 / 10 ^ d) ++ '.' :: lastDigits d (sciParts d x).1, _, _, _, ?_,
    .inr ⟨_, _, s1, l1, by simp [s2], rfl, rfl⟩, hx, ?_, ?_⟩
  · split
    · exact .inr (.inr ⟨rfl, rfl⟩)
    · exact .inl ⟨rfl, rfl⟩
  · simp only [sciLower, List.append_assoc]
  · rw [natOf_parts, printedSci]
    split <;> simp

end Verif.Report
