/-
Lemmas about the messages and the course of a run.
-/
import Verif.Command.Names

namespace Verif.Command
open Verif.Py Verif.Export Spec

/-- Only the log changed, and it was only appended to. -/
structure Extends (log : Str) (w w' : World) : Prop where
  other : ∀ p, p ≠ log → w'.disk p = w.disk p
  log : ∀ a, w.disk log = some a → ∃ rest, w'.disk log = some (a ++ rest)
  screen : w.screen <+: w'.screen

theorem Extends.refl (log : Str) (w : World) : Extends log w w :=
  ⟨fun _ _ => rfl, fun a h => ⟨[], by simpa using h⟩, List.prefix_refl _⟩

theorem Extends.trans {log : Str} {a b c : World} (h : Extends log a b) (h' : Extends log b c) : Extends log a c := by
  refine ⟨fun p hp => (h'.other p hp).trans (h.other p hp), fun x hx => ?_, h.screen.trans h'.screen⟩
  obtain ⟨r, hr⟩ := h.log x hx
  obtain ⟨r', hr'⟩ := h'.log _ hr
  exact ⟨r ++ r', by rw [hr', List.append_assoc]⟩

theorem extends_secho (log msg : Str) (w : World) : Extends log w (secho msg w) :=
  ⟨fun _ _ => rfl, fun a h => ⟨[], by simpa [secho] using h⟩, List.prefix_append _ _⟩

theorem extends_append (log msg : Str) (w : World) : Extends log w (appendLine msg (some log) w) := by
  refine ⟨fun p hp => ?_, fun a h => ⟨msg ++ c!"\n", ?_⟩, List.prefix_refl _⟩
  · simp [appendLine, Function.update_of_ne hp]
  · simp [appendLine, h]

theorem extends_echo (log msg : Str) (silent : Bool) (w : World) : Extends log w (echo msg (some log) silent w) := by
  cases silent
  · exact (extends_secho log msg w).trans (extends_append log msg _)
  · exact extends_append log msg w

theorem extends_echoError (log msg : Str) (w : World) : Extends log w (echoError msg (some log) w) :=
  (extends_secho log msg w).trans (extends_append log msg _)

theorem extends_echoError_none (log msg : Str) (w : World) : Extends log w (echoError msg none w) :=
  extends_secho log msg w

theorem extends_say (log : Str) (silent debug : Bool) (w : World) (m : Channel × Str) :
    Extends log w (say log silent debug w m) := by
  obtain ⟨ch, s⟩ := m
  cases ch
  · exact extends_echo log s silent w
  · exact extends_echo log s false w
  · exact extends_echoError log s w
  · cases debug
    · exact Extends.refl log w
    · exact extends_echo log _ silent w
  · exact extends_secho log s w

theorem extends_foldl {α : Type} {log : Str} {f : World → α → World} (h : ∀ w a, Extends log w (f w a)) (l : List α)
    (w : World) : Extends log w (l.foldl f w) := by
  induction l generalizing w with
  | nil => exact Extends.refl log w
  | cons a l ih => exact (h w a).trans (ih _)

theorem extends_says (log : Str) (silent debug : Bool) (l : List (Channel × Str)) (w : World) :
    Extends log w (l.foldl (say log silent debug) w) :=
  extends_foldl (extends_say log silent debug) l w

theorem extends_conclude (log : Str) (silent : Bool) (t : Texts) (w : World) :
    Extends log w (conclude log silent t w) :=
  extends_foldl (fun w m => extends_echo log m silent w) _ w

theorem opened_other {log : Str} {t : Texts} {silent : Bool} {w : World} {p : Str} (h : p ≠ log) :
    (opened log t silent w).disk p = w.disk p := by
  rw [opened, (extends_echo log t.title silent _).other p h]
  simp [initLogfile, Function.update_of_ne h]

theorem opened_log {log : Str} {t : Texts} {silent : Bool} {w : World} :
    (opened log t silent w).disk log = some (c!"\n" ++ t.title ++ c!"\n") := by
  cases silent <;> simp [opened, echo, appendLine, initLogfile, secho]

/-- The world with the results saved. -/
def withFile (f bytes : Str) (w : World) : World := { w with disk := Function.update w.disk f (some bytes) }

/-- How the part after the opening of the log goes. -/
theorem attempt_shape {files : Files} {b : Bool} {t : Texts} {prog : Calculator} {o : Options} {ow : Bool} {w w' : World}
    {r : Outcome} (h : attempt files b t prog o ow w = (w', r)) :
    (r ≠ .saved ∧ Extends files.log w w') ∨
      (r = .saved ∧ ∃ w1 w2 bytes, Extends files.log w w1 ∧ Extends files.log w w2 ∧
        (prog.read ((w2.disk o.filename).getD [])).2 = none ∧
        (prog.run ((w2.disk o.filename).getD [])).2 = .ok bytes ∧
        ((w1.disk files.results).isSome → ow = true) ∧
        Extends files.log (withFile files.results bytes w1) w') := by
  simp only [attempt] at h
  set wa := prog.created.foldl (say files.log o.silent o.debug) (echo t.settings (some files.log) o.silent w) with ha
  have hwa : Extends files.log w wa := (extends_echo _ _ _ _).trans (extends_says _ _ _ _ _)
  set wb := (prog.read ((wa.disk o.filename).getD [])).1.foldl (say files.log o.silent o.debug) wa with hb
  have hwb : Extends files.log w wb := hwa.trans (extends_says _ _ _ _ _)
  cases hr : (prog.read ((wa.disk o.filename).getD [])).2 with
  | some e =>
    simp only [hr, Prod.mk.injEq] at h
    obtain ⟨rfl, rfl⟩ := h
    exact .inl ⟨by simp, hwb.trans ((extends_echoError_none _ _ _).trans (extends_echoError _ _ _))⟩
  | none =>
    simp only [hr] at h
    set wc := (prog.run ((wa.disk o.filename).getD [])).1.foldl (say files.log o.silent o.debug)
      ((prog.report ((wa.disk o.filename).getD [])).foldl (say files.log o.silent o.debug) wb) with hc
    have hwc : Extends files.log w wc := hwb.trans ((extends_says _ _ _ _ _).trans (extends_says _ _ _ _ _))
    cases hn : (prog.run ((wa.disk o.filename).getD [])).2 with
    | error e =>
      simp only [hn, Prod.mk.injEq] at h
      obtain ⟨rfl, rfl⟩ := h
      exact .inl ⟨by simp, hwc.trans ((extends_echoError _ _ _).trans (extends_echoError _ _ _))⟩
    | ok bytes =>
      simp only [hn] at h
      set wd := if b = true then (prog.results ((wa.disk o.filename).getD [])).foldl (say files.log o.silent o.debug) wc
        else wc with hd
      have hwd : Extends files.log w wd := by
        rw [hd]
        split
        · exact hwc.trans (extends_says _ _ _ _ _)
        · exact hwc
      rw [save] at h
      split at h
      · simp only [Prod.mk.injEq] at h
        obtain ⟨rfl, rfl⟩ := h
        exact .inl ⟨by simp, hwd.trans (extends_echo _ _ _ _)⟩
      · rename_i hs
        simp only [Prod.mk.injEq] at h
        obtain ⟨rfl, rfl⟩ := h
        refine .inr ⟨rfl, wd, wa, bytes, hwd, hwa, hr, hn, fun hx => ?_, extends_says _ _ _ _ _⟩
        by_contra hf
        exact hs ⟨hx, hf⟩

/-- How a calculation goes. -/
theorem calculate_shape {suffix : Str} {b : Bool} {t : Texts} {prog : Calculator} {o : Options} {ow : Bool} {w w' : World}
    {r : Outcome} (h : calculate suffix b t prog o ow w = (w', r)) :
    let files := filesOf suffix o.filename o.outfile
    (r ≠ .saved ∧ Extends files.log (opened files.log t o.silent w) w') ∨
      (r = .saved ∧ ∃ w1 w2 bytes, Extends files.log (opened files.log t o.silent w) w1 ∧
        Extends files.log (opened files.log t o.silent w) w2 ∧
        (prog.read ((w2.disk o.filename).getD [])).2 = none ∧
        (prog.run ((w2.disk o.filename).getD [])).2 = .ok bytes ∧
        ((w1.disk files.results).isSome → ow = true) ∧
        Extends files.log (withFile files.results bytes w1) w') := by
  intro files
  simp only [calculate] at h
  split at h
  · simp only [Prod.mk.injEq] at h
    obtain ⟨rfl, rfl⟩ := h
    exact .inl ⟨by simp, (extends_echoError _ _ _).trans (extends_echoError _ _ _)⟩
  · exact attempt_shape h

/-- How a command goes. -/
theorem command_shape {suffix : Str} {b : Bool} {t : Texts} {prog : Calculator} {o : Options} {ow : Bool} {w w' : World}
    {r : Outcome} (h : command suffix b t prog o ow w = (w', r)) :
    let files := filesOf suffix o.filename o.outfile
    (r ≠ .saved ∧ Extends files.log (opened files.log t o.silent w) w') ∨
      (r = .saved ∧ ∃ w1 w2 bytes, Extends files.log (opened files.log t o.silent w) w1 ∧
        Extends files.log (opened files.log t o.silent w) w2 ∧
        (prog.read ((w2.disk o.filename).getD [])).2 = none ∧
        (prog.run ((w2.disk o.filename).getD [])).2 = .ok bytes ∧
        ((w1.disk files.results).isSome → ow = true) ∧
        Extends files.log (withFile files.results bytes w1) w') := by
  intro files
  rw [command] at h
  rcases hc : calculate suffix b t prog o ow w with ⟨wc, rc⟩
  have := calculate_shape hc
  rw [hc] at h
  have hcon := extends_conclude (filesOf suffix o.filename o.outfile).log o.silent t wc
  cases rc
  case saved =>
    simp only [Prod.mk.injEq] at h
    obtain ⟨rfl, rfl⟩ := h
    rcases this with ⟨h1, -⟩ | ⟨-, w1, w2, bytes, h1, h2, h3, h4, h5, h6⟩
    · exact absurd rfl h1
    · exact .inr ⟨rfl, w1, w2, bytes, h1, h2, h3, h4, h5, h6.trans hcon⟩
  case declined =>
    simp only [Prod.mk.injEq] at h
    obtain ⟨rfl, rfl⟩ := h
    rcases this with ⟨h1, h2⟩ | ⟨h1, -⟩
    · exact .inl ⟨by simp, h2.trans hcon⟩
    · simp at h1
  all_goals
    simp only [Prod.mk.injEq] at h
    obtain ⟨rfl, rfl⟩ := h
    exact this

end Verif.Command
