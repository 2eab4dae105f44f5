/-
Reading a concrete line: tools to exhibit files that meet the specifications.
-/
import Verif.IO.NumberSound

namespace Verif.IO
open Verif.Py Spec

/-- A line whose only white space is blanks consists of its words. -/
theorem tokens_words (l : Str) (h : ∀ c ∈ l, isSpace c = true → c = ' ' ∨ c = '\t') :
    Tokens (words l) l ∧ ∀ t ∈ words l, IsToken t := by
  induction hn : l.length using Nat.strong_induction_on generalizing l with
  | _ n ih =>
    set g := l.takeWhile isSpace with hg
    set r := l.dropWhile isSpace with hr
    have e : l = g ++ r := List.takeWhile_append_dropWhile.symm
    have hgs : ∀ c ∈ g, isSpace c = true := fun c hc => List.all_eq_true.1 List.all_takeWhile c hc
    have hgb : Blank g := fun c hc => h c (by rw [e]; simp [hc]) (hgs c hc)
    have hw : words l = words r := by rw [e]; exact words_spaces hgs
    cases hr0 : r with
    | nil =>
      rw [hw, hr0, words_nil]
      rw [hr0, List.append_nil] at e
      rw [e]
      exact ⟨.nil hgb, by simp⟩
    | cons x r' =>
      have hx : isSpace x = false := by
        have := List.head?_dropWhile_not isSpace l
        rw [← hr, hr0] at this
        simpa using this
      set s := r.takeWhile (fun c => !isSpace c) with hs
      set q := r.dropWhile (fun c => !isSpace c) with hq
      have e2 : r = s ++ q := List.takeWhile_append_dropWhile.symm
      have hst : IsToken s := by
        refine ⟨by rw [hs, hr0]; simp [hx], fun c hc => ?_⟩
        have := List.all_eq_true.1 List.all_takeWhile c hc
        simpa using this
      cases hq0 : q with
      | nil =>
        rw [hq0, List.append_nil] at e2
        have hws : words l = [s] := by
          rw [hw, e2, words_plain hst.2 hst.1]
        rw [hws]
        refine ⟨?_, by simpa using hst⟩
        rw [e, e2]
        exact .last hgb
      | cons c q' =>
        have hc : isSpace c = true := by
          have := List.head?_dropWhile_not (fun c => !isSpace c) r
          rw [← hq, hq0] at this
          simpa using this
        rw [hq0] at e2
        have hlt : q'.length < n := by
          rw [← hn, e, e2]; simp; omega
        obtain ⟨i1, i2⟩ := ih q'.length hlt q' (fun y hy => h y (by rw [e, e2]; simp [hy])) rfl
        have hws : words l = s :: words q' := by
          rw [hw, e2, words_append hc, words_plain hst.2 hst.1]; rfl
        rw [hws]
        refine ⟨?_, ?_⟩
        · rw [e, e2, ← List.append_assoc]
          exact .cons hgb (h c (by rw [e, e2]; simp) hc) i1
        · intro t ht
          rcases List.mem_cons.1 ht with rfl | ht
          · exact hst
          · exact i2 t ht

/-- A line of numbers, by computation. -/
theorem numbers_of {l : Str} {qs : List ℚ}
    (h : ∀ c ∈ l, isSpace c = true → c = ' ' ∨ c = '\t')
    (hq : (words l).map parseFloat = qs.map some) : Numbers qs l := by
  obtain ⟨h1, h2⟩ := tokens_words l h
  refine ⟨words l, h1, ?_⟩
  generalize words l = ts at hq h2
  clear h1
  induction ts generalizing qs with
  | nil => cases qs with
    | nil => exact .nil
    | cons => simp at hq
  | cons t ts ih => cases qs with
    | nil => simp at hq
    | cons q qs =>
      simp only [List.map_cons, List.cons.injEq] at hq
      exact .cons (parseFloat_token (h2 t (by simp)) hq.1)
        (ih hq.2 (fun t ht => h2 t (by simp [ht])))

example : Numbers [161.5, -0.5, 2] c!" 161.5  -5e-1 2" := numbers_of (by decide) (by decide +kernel)

end Verif.IO
