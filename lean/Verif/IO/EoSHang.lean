/-
C75: the only files whose reading never ends.
-/
import Verif.IO.EoSProps

namespace Verif.IO
open Verif.Py Verif.IO.Spec

/-- A line the search for the title passes over: empty, or with `#` as its first character other than blanks. -/
def Spec.Passed (l : Str) : Prop := l = [] ∨ (strip l).head? = some '#'

/-- The title below a `JOB` keyword is exactly `Unknown`. -/
def Spec.UnknownTitle (ls : List Str) : Prop :=
  ∃ pre kj cj post, ls = pre ++ kj :: (cj ++ c!"Unknown" :: post) ∧ (words kj).head?.map lower = some c!"job" ∧
    ∀ l ∈ cj, Spec.Passed l

theorem jobFrom_hang {ls : List Str} (hn : ∀ l ∈ ls, '\n' ∉ l) (h : jobFrom ls = .error .hang) :
    ∃ cj post, ls = cj ++ c!"Unknown" :: post ∧ ∀ l ∈ cj, Spec.Passed l := by
  induction ls with
  | nil => cases h
  | cons l ls ih =>
    have hl : rstripNewline l = l := rstripNewline_raw (.inl rfl) (hn l (by simp))
    have ih' := ih (fun x hx => hn x (by simp [hx]))
    have step (hp : Spec.Passed l) (h : jobFrom ls = .error .hang) :
        ∃ cj post, l :: ls = cj ++ c!"Unknown" :: post ∧ ∀ l ∈ cj, Spec.Passed l := by
      obtain ⟨cj, post, e, hc⟩ := ih' h
      exact ⟨l :: cj, post, by rw [e]; rfl, by simpa using ⟨hp, hc⟩⟩
    rw [jobFrom, hl] at h
    split at h
    · next h0 => exact step (.inl h0) h
    · split at h
      · cases h
      · next c hc =>
        split at h
        · next h1 => exact step (.inr (by rw [hc, h1])) h
        · split at h
          · next h2 => exact ⟨[], ls, by rw [h2]; rfl, by simp⟩
          · cases h

theorem format_ends (rest : List Str) (d : EoSData) : setDataFormat rest d ≠ .error .hang := by
  induction rest with
  | nil => intro h; cases h
  | cons x rest ih =>
    rw [setDataFormat]
    split
    · exact ih
    · intro h; cases h

theorem data_ends (rest : List Str) (d : EoSData) (e : Option EoSError) : setData rest d e ≠ .error .hang := by
  unfold setData
  split
  · intro h; cases h
  · split
    · intro h; cases h
    · split <;> (intro h; cases h)

theorem format_job {rest : List Str} {d d' : EoSData} (h : setDataFormat rest d = .ok d') : d'.job = d.job := by
  induction rest with
  | nil => cases h
  | cons x rest ih =>
    rw [setDataFormat] at h
    split at h
    · exact ih h
    · cases h
      rfl

theorem data_job {rest : List Str} {d : EoSData} {e : Option EoSError} {p : EoSData × Option EoSError}
    (h : setData rest d e = .ok p) : p.1.job = d.job := by
  unfold setData at h
  split at h
  · cases h; rfl
  · split at h
    · cases h
    · split at h <;> cases h
      rfl

theorem loadLines_hang {ls : List Str} (hn : ∀ l ∈ ls, '\n' ∉ l) (d : EoSData) (e : Option EoSError)
    (h : loadLines ls d e = .error .hang) : d.job = c!"Unknown" ∧ Spec.UnknownTitle ls := by
  induction ls generalizing d e with
  | nil => cases h
  | cons l ls ih =>
    have hn' : ∀ l ∈ ls, '\n' ∉ l := fun x hx => hn x (by simp [hx])
    have more (d : EoSData) (e : Option EoSError) (h : loadLines ls d e = .error .hang) :
        d.job = c!"Unknown" ∧ Spec.UnknownTitle (l :: ls) := by
      obtain ⟨hj, pre, kj, cj, post, e, hk⟩ := ih hn' d e h
      exact ⟨hj, l :: pre, kj, cj, post, by rw [e]; rfl, hk⟩
    rw [loadLines] at h
    split at h
    · exact more d e h
    · next hc =>
      simp only at h
      cases h1 : onJob (lower ((words l).headD [])) ls d with
      | error s =>
        rw [h1] at h
        simp only [Except.bind, Except.error.injEq] at h
        subst h
        unfold onJob at h1
        split at h1
        · next hk =>
          unfold setJobName at h1
          split at h1
          · next hu =>
            refine ⟨hu, ?_⟩
            cases hj : jobFrom ls with
            | error s =>
              rw [hj] at h1
              simp only [bind, Except.bind, Except.error.injEq] at h1
              obtain ⟨cj, post, e1, e2⟩ := jobFrom_hang hn' (by rw [hj, h1])
              refine ⟨[], l, cj, post, by rw [e1]; rfl, ?_, e2⟩
              cases hw : words l with
              | nil => rw [hw] at hk; simp [lower] at hk
              | cons w ws => rw [hw] at hk; simpa using hk
            | ok j => rw [hj] at h1; cases h1
          · cases h1
        · cases h1
      | ok d1 =>
        rw [h1] at h
        simp only [Except.bind] at h
        cases h2 : onFormat (lower ((words l).headD [])) ls d1 with
        | error s =>
          rw [h2] at h
          simp only [Except.error.injEq] at h
          subst h
          unfold onFormat at h2
          split at h2
          · exact absurd h2 (format_ends _ _)
          · cases h2
        | ok d2 =>
          rw [h2] at h
          simp only at h
          cases h3 : onData (lower ((words l).headD [])) ls d2 e with
          | error s =>
            rw [h3] at h
            simp only [Except.error.injEq] at h
            subst h
            unfold onData at h3
            split at h3
            · exact absurd h3 (data_ends _ _ _)
            · cases h3
          | ok p =>
            rw [h3] at h
            obtain ⟨hj, ht⟩ := more p.1 p.2 h
            refine ⟨?_, ht⟩
            have e3 : p.1.job = d2.job := by
              unfold onData at h3
              split at h3
              · exact data_job h3
              · cases h3; rfl
            have e2 : d2.job = d1.job := by
              unfold onFormat at h2
              split at h2
              · exact format_job h2
              · cases h2; rfl
            have e1 : d1.job = c!"Unknown" := by rw [← e2, ← e3, hj]
            unfold onJob at h1
            split at h1
            · unfold setJobName at h1
              split at h1
              · next hu => exact hu
              · cases h1; exact e1
            · cases h1; exact e1

/-- **C75 (only those files).**  Reading a file never ends only when no title was read before and the title below a `JOB` keyword is
exactly `Unknown`: every other file, after any history, is read or refused. -/
theorem C75_only_partial {ls : List Str} {text : Str} (hf : IsText ls text) (d : EoSData) (h : loadEoS text d = .error .hang) :
    d.job = c!"Unknown" ∧ Spec.UnknownTitle ls := by
  rw [loadEoS_text hf] at h
  cases hl : loadLines ls d none with
  | error s =>
    rw [hl] at h
    refine loadLines_hang hf.1 d none ?_
    rw [hl]
    simpa [Except.map] using h
  | ok p => rw [hl] at h; cases h

/-- Once a title has been read, no file makes the reader hang. -/
example (ls : List Str) (text : Str) (hf : IsText ls text) (d : EoSData) (hd : d.job = c!"Periclase") : loadEoS text d ≠ .error .hang :=
  fun h => absurd (C75_only_partial hf d h).1 (by rw [hd]; decide)

end Verif.IO
