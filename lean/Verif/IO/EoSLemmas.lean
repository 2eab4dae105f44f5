/-
Facts about the EoS reader.
-/
import Verif.IO.EoSReader
import Verif.IO.Witness
import Verif.IO.SoecLemmas

namespace Verif.IO
open Verif.Py Spec

namespace Spec

/-- The text whose lines are `ls`: every line ends with a newline, except perhaps the last one if it
is not empty. -/
def IsText (ls : List Str) (text : Str) : Prop :=
  (∀ l ∈ ls, '\n' ∉ l) ∧
    (text = ls.flatMap (· ++ ['\n']) ∨
      ∃ ls' l, ls = ls' ++ [l] ∧ l ≠ [] ∧ text = ls'.flatMap (· ++ ['\n']) ++ l)

end Spec

theorem readlines_flatMap (ls : List Str) (hn : ∀ l ∈ ls, '\n' ∉ l) (rest : Str) :
    readlines (ls.flatMap (· ++ ['\n']) ++ rest) = ls.map (· ++ ['\n']) ++ readlines rest := by
  induction ls with
  | nil => rfl
  | cons l ls ih =>
    rw [List.flatMap_cons, List.append_assoc, List.append_assoc, List.singleton_append,
      readlines_line (hn l (by simp)), ih (fun x hx => hn x (by simp [hx]))]
    rfl

theorem readlines_text {ls : List Str} {text : Str} (h : IsText ls text) :
    List.Forall₂ IsRaw (readlines text) ls := by
  have hmap : ∀ ls : List Str, List.Forall₂ IsRaw (ls.map (· ++ ['\n'])) ls := by
    intro ls
    rw [List.forall₂_map_left_iff]
    exact List.forall₂_same.2 fun l _ => .inr rfl
  obtain ⟨hn, rfl | ⟨ls', l, rfl, hl, rfl⟩⟩ := h
  · have := readlines_flatMap ls hn []
    rw [List.append_nil] at this
    rw [this]
    simpa [readlines] using hmap ls
  · rw [readlines_flatMap ls' (fun x hx => hn x (by simp [hx])),
      readlines_last (hn l (by simp)) hl]
    exact List.rel_append (hmap ls') (.cons (.inl rfl) .nil)

/-- Whitespace aside, the first character of a line is the first character of its first word. -/
theorem strip_head_words (l : Str) : (strip l).head? = (words l).head?.bind List.head? := by
  set g := l.takeWhile isSpace with hg
  set r := l.dropWhile isSpace with hr
  have e : l = g ++ r := List.takeWhile_append_dropWhile.symm
  have hgs : ∀ c ∈ g, isSpace c = true := fun c hc => List.all_eq_true.1 List.all_takeWhile c hc
  cases hr0 : r with
  | nil =>
    have h1 : strip l = [] := by rw [strip, lstrip, ← hr, hr0]; rfl
    have h2 : words l = [] := by
      rw [e, hr0, words_spaces hgs, words_nil]
    rw [h1, h2]; rfl
  | cons c t =>
    have hc : isSpace c = false := by
      have := List.head?_dropWhile_not isSpace l
      rw [← hr, hr0] at this
      simpa using this
    rw [hr0] at e
    rw [e, strip_head hgs hc, words_spaces hgs, words, fields, if_neg (by simp [hc])]
    cases hf : fields isSpace t with
    | nil => exact absurd hf (fields_ne_nil _ _)
    | cons f fs => simp

theorem isComment_raw {r l : Str} (h : IsRaw r l) : isComment r = isComment l := by
  unfold isComment
  rw [strip_head_words, strip_head_words, words_raw h]

theorem rstripNewline_raw {r l : Str} (h : IsRaw r l) (hn : '\n' ∉ l) : rstripNewline r = l := by
  have hl : rstripNewline l = l := by
    unfold rstripNewline
    have : l.reverse.dropWhile (· = '\n') = l.reverse := by
      cases hr : l.reverse with
      | nil => rfl
      | cons c t =>
        have hc : c ∈ l := by rw [← List.mem_reverse, hr]; simp
        have : c ≠ '\n' := fun e => hn (e ▸ hc)
        simp [List.dropWhile, this]
    rw [this, List.reverse_reverse]
  rcases h with rfl | rfl
  · exact hl
  · rw [rstripNewline, List.reverse_append]
    show ((('\n' :: l.reverse).dropWhile (· = '\n'))).reverse = l
    rw [List.dropWhile_cons_of_pos (by simp)]
    exact hl

theorem jobFrom_raw {data ls : List Str} (h : List.Forall₂ IsRaw data ls)
    (hn : ∀ l ∈ ls, '\n' ∉ l) : jobFrom data = jobFrom ls := by
  induction h with
  | nil => rfl
  | @cons r l data ls h _ ih =>
    have hl := hn l (by simp)
    rw [jobFrom, jobFrom, rstripNewline_raw h hl, rstripNewline_raw (.inl rfl) hl,
      ih fun x hx => hn x (by simp [hx])]

theorem setDataFormat_raw {data ls : List Str} (h : List.Forall₂ IsRaw data ls) (d : EoSData) :
    setDataFormat data d = setDataFormat ls d := by
  induction h with
  | nil => rfl
  | @cons r l data ls h _ ih => rw [setDataFormat, setDataFormat, isComment_raw h, words_raw h, ih]

theorem readRows_raw {data ls : List Str} (h : List.Forall₂ IsRaw data ls) (f : List (Str × ℕ)) :
    readRows f data = readRows f ls := by
  induction h with
  | nil => rfl
  | @cons r l data ls h _ ih => rw [readRows, readRows, isComment_raw h, words_raw h, ih]

theorem setData_raw {data ls : List Str} (h : List.Forall₂ IsRaw data ls) (d : EoSData)
    (e : Option EoSError) : setData data d e = setData ls d e := by
  unfold setData
  rw [readRows_raw h]

theorem setJobName_raw {data ls : List Str} (h : List.Forall₂ IsRaw data ls)
    (hn : ∀ l ∈ ls, '\n' ∉ l) (d : EoSData) : setJobName data d = setJobName ls d := by
  unfold setJobName
  rw [jobFrom_raw h hn]

/-- The reader sees the lines without their newlines. -/
theorem loadLines_raw {data ls : List Str} (h : List.Forall₂ IsRaw data ls)
    (hn : ∀ l ∈ ls, '\n' ∉ l) (d : EoSData) (e : Option EoSError) :
    loadLines data d e = loadLines ls d e := by
  induction h generalizing d e with
  | nil => rfl
  | @cons r l data ls h ht ih =>
    have hn' : ∀ l ∈ ls, '\n' ∉ l := fun x hx => hn x (by simp [hx])
    rw [loadLines, loadLines, isComment_raw h, words_raw h]
    simp only [onJob, onFormat, onData, setJobName_raw ht hn', setDataFormat_raw ht, setData_raw ht,
      ih hn']

theorem loadEoS_text {ls : List Str} {text : Str} (h : IsText ls text) (d : EoSData) :
    loadEoS text d = (loadLines ls d none).map fun p => (p.1, p.2.isNone, p.2) := by
  unfold loadEoS
  rw [loadLines_raw (readlines_text h) h.1]
  cases loadLines ls d none with
  | error e => rfl
  | ok p => rfl

/-- One line of a successful reading. -/
theorem loadLines_cons {l : Str} {rest : List Str} {d : EoSData} {e : Option EoSError}
    {r : EoSData × Option EoSError} (hc : ¬ isComment l = true)
    (h : loadLines (l :: rest) d e = .ok r) :
    ∃ d1 d2 p, onJob (lower ((words l).headD [])) rest d = .ok d1 ∧
      onFormat (lower ((words l).headD [])) rest d1 = .ok d2 ∧
      onData (lower ((words l).headD [])) rest d2 e = .ok p ∧ loadLines rest p.1 p.2 = .ok r := by
  rw [loadLines, if_neg hc] at h
  simp only at h
  generalize lower ((words l).headD []) = kw at h
  cases h1 : onJob kw rest d with
  | error s => rw [h1] at h; cases h
  | ok d1 =>
    rw [h1] at h
    simp only [Except.bind] at h
    cases h2 : onFormat kw rest d1 with
    | error s => rw [h2] at h; cases h
    | ok d2 =>
      rw [h2] at h
      simp only at h
      cases h3 : onData kw rest d2 e with
      | error s => rw [h3] at h; cases h
      | ok p => rw [h3] at h; exact ⟨d1, d2, p, rfl, h2, h3, h⟩

theorem setData_error {rest : List Str} {d : EoSData} {e : Option EoSError}
    {p : EoSData × Option EoSError} (h : setData rest d e = .ok p) :
    (p.2 = e ∨ p.2 = some .noFormat) ∧ p.1.job = d.job ∧ p.1.format = d.format := by
  unfold setData at h
  split at h
  · simp only [Except.ok.injEq] at h
    subst h
    exact ⟨.inr rfl, rfl, rfl⟩
  · split at h
    · cases h
    · split at h
      · cases h
      · simp only [Except.ok.injEq] at h
        subst h
        exact ⟨.inl rfl, rfl, rfl⟩

theorem onData_error {kw : Str} {rest : List Str} {d : EoSData} {e : Option EoSError}
    {p : EoSData × Option EoSError} (h : onData kw rest d e = .ok p) :
    (p.2 = e ∨ p.2 = some .noFormat) ∧ p.1.job = d.job ∧ p.1.format = d.format := by
  unfold onData at h
  split at h
  · exact setData_error h
  · simp only [Except.ok.injEq] at h
    subst h
    exact ⟨.inl rfl, rfl, rfl⟩

theorem onJob_format {kw : Str} {rest : List Str} {d d' : EoSData} (h : onJob kw rest d = .ok d') :
    d'.format = d.format := by
  unfold onJob at h
  split at h
  · unfold setJobName at h
    split at h
    · cases hj : jobFrom rest with
      | error s => rw [hj] at h; cases h
      | ok j =>
        rw [hj] at h
        simp only [bind, Except.bind, Except.ok.injEq] at h
        rw [← h]
    · simp only [Except.ok.injEq] at h; rw [h]
  · simp only [Except.ok.injEq] at h; rw [h]

theorem onJob_job {kw : Str} {rest : List Str} {d d' : EoSData} (hd : d.job ≠ c!"Unknown")
    (h : onJob kw rest d = .ok d') : d' = d := by
  unfold onJob at h
  split at h
  · rw [setJobName, if_neg hd] at h
    simp only [Except.ok.injEq] at h
    rw [h]
  · simp only [Except.ok.injEq] at h; rw [h]

theorem setDataFormat_job (rest : List Str) : ∀ {d d' : EoSData}, setDataFormat rest d = .ok d' →
    d'.job = d.job := by
  induction rest with
  | nil => intro d d' h; cases h
  | cons x rest ih =>
    intro d d' h
    rw [setDataFormat] at h
    split at h
    · exact ih h
    · simp only [Except.ok.injEq] at h; rw [← h]

theorem onFormat_job {kw : Str} {rest : List Str} {d d' : EoSData} (h : onFormat kw rest d = .ok d') :
    d'.job = d.job := by
  unfold onFormat at h
  split at h
  · exact setDataFormat_job rest h
  · simp only [Except.ok.injEq] at h; rw [h]

/-! ### The job loop -/

theorem jobFrom_loop (data : List Str) (idx : ℕ) :
    match jobFrom (data.drop idx) with
    | .ok j => j ≠ c!"Unknown" ∧ ∃ n, jobLoop data n idx c!"Unknown" = some (.ok j)
    | .error (.exc e) => ∃ n, jobLoop data n idx c!"Unknown" = some (.error e)
    | .error .hang => ∀ n, jobLoop data n idx c!"Unknown" = none := by
  induction hk : data.length - idx generalizing idx with
  | zero =>
    have : data.drop idx = [] := List.drop_of_length_le (by omega)
    rw [this]
    refine ⟨1, ?_⟩
    simp [jobLoop, jobStep, List.getElem?_eq_none (show data.length ≤ idx by omega)]
  | succ k ih =>
    have hlt : idx < data.length := by omega
    have hd : data.drop idx = data[idx] :: data.drop (idx + 1) := List.drop_eq_getElem_cons hlt
    have hg : data[idx]? = some data[idx] := List.getElem?_eq_getElem hlt
    have ih' := ih (idx + 1) (by omega)
    rw [hd, jobFrom]
    have hstep : ∀ n, jobLoop data (n + 1) idx c!"Unknown" =
        match jobStep data idx c!"Unknown" with
        | .error e => some (.error e)
        | .ok (idx, job) => jobLoop data n idx job := by
      intro n; rw [jobLoop, if_pos rfl]; rfl
    have skip : jobStep data idx c!"Unknown" = .ok (idx + 1, c!"Unknown") →
        match jobFrom (data.drop (idx + 1)) with
        | .ok j => j ≠ c!"Unknown" ∧ ∃ n, jobLoop data n idx c!"Unknown" = some (.ok j)
        | .error (.exc e) => ∃ n, jobLoop data n idx c!"Unknown" = some (.error e)
        | .error .hang => ∀ n, jobLoop data n idx c!"Unknown" = none := by
      intro hs
      revert ih'
      cases jobFrom (data.drop (idx + 1)) with
      | ok j =>
        rintro ⟨h1, n, h2⟩
        exact ⟨h1, n + 1, by rw [hstep, hs]; exact h2⟩
      | error s =>
        cases s with
        | exc e => rintro ⟨n, h2⟩; exact ⟨n + 1, by rw [hstep, hs]; exact h2⟩
        | hang =>
          intro h2 n
          cases n with
          | zero => simp [jobLoop]
          | succ n => rw [hstep, hs]; exact h2 n
    by_cases h0 : rstripNewline data[idx] = []
    · simp only [h0, if_true]
      exact skip (by simp [jobStep, hg, h0])
    · simp only [h0, if_false]
      cases hc : (strip (rstripNewline data[idx])).head? with
      | none =>
        refine ⟨1, ?_⟩
        rw [hstep]
        simp [jobStep, hg, h0, hc]
      | some c =>
        by_cases hh : c = '#'
        · simp only [hh, if_true]
          exact skip (by simp [jobStep, hg, h0, hc, hh])
        · have hs : jobStep data idx c!"Unknown" = .ok (idx, rstripNewline data[idx]) := by
            simp [jobStep, hg, h0, hc, hh]
          simp only [hh, if_false]
          by_cases hu : rstripNewline data[idx] = c!"Unknown"
          · simp only [hu, if_true]
            intro n
            induction n with
            | zero => simp [jobLoop]
            | succ n ihn => rw [hstep, hs, hu]; exact ihn
          · simp only [hu, if_false]
            refine ⟨by simpa using hu, 1, ?_⟩
            rw [hstep, hs]
            simp only [jobLoop]
            rw [if_neg hu]

/-! ### The format -/

/-- The spellings the reader accepts. -/
def accepted (t : Str) : Bool := formats.any fun kv => t ∈ kv.2

theorem setKey_idem (d : List (Str × ℕ)) (k : Str) (n : ℕ) :
    setKey (setKey d k n) k n = setKey d k n := by
  unfold setKey
  by_cases h : k ∈ d.map (·.1)
  · rw [if_pos h, if_pos]
    · rw [List.map_map]
      refine List.map_congr_left fun p _ => ?_
      by_cases hp : p.1 = k <;> simp [hp]
    · obtain ⟨p, hp, rfl⟩ := List.mem_map.1 h
      rw [List.map_map, List.mem_map]
      exact ⟨p, hp, by simp⟩
  · rw [if_neg h, if_pos (by simp), List.map_append]
    congr 1
    · conv_rhs => rw [← List.map_id d]
      refine List.map_congr_left fun p hp => ?_
      have : p.1 ≠ k := fun e => h (List.mem_map.2 ⟨p, hp, e⟩)
      simp [this]
    · simp

theorem inner_loop (t : Str) (n : ℕ) (F : List (Str × List Str)) :
    ∀ d, F.foldl (fun d kv => if t ∈ kv.2 then setKey d t n else d) d =
      if F.any (fun kv => t ∈ kv.2) then setKey d t n else d := by
  induction F with
  | nil => intro d; rfl
  | cons kv F ih =>
    intro d
    rw [List.foldl_cons, ih]
    by_cases h : t ∈ kv.2
    · simp only [h, if_true, List.any_cons, decide_true, Bool.true_or, setKey_idem]
      split <;> rfl
    · simp only [h, if_false, List.any_cons, decide_false, Bool.false_or]

/-- The recognised columns of a format line. -/
def columnsOf (toks : List Str) (s : ℕ) : List (Str × ℕ) :=
  ((toks.zipIdx s).filter fun p => accepted (lower p.1)).map fun p => (lower p.1, p.2)

theorem setFormat_eq {toks : List Str} (hd : (toks.map lower).Nodup) : setFormat toks [] =
    columnsOf toks 0 := by
  have key : ∀ (toks : List Str) (s : ℕ) (d : List (Str × ℕ)), (toks.map lower).Nodup →
      (∀ t ∈ toks, lower t ∉ d.map (·.1)) →
      (toks.zipIdx s).foldl (fun d p =>
        formats.foldl (fun d kv => if lower p.1 ∈ kv.2 then setKey d (lower p.1) p.2 else d) d) d =
      d ++ columnsOf toks s := by
    intro toks
    induction toks with
    | nil => intro s d _ _; simp [columnsOf]
    | cons t toks ih =>
      intro s d hd hdis
      rw [List.map_cons, List.nodup_cons] at hd
      rw [List.zipIdx_cons, List.foldl_cons, inner_loop]
      by_cases ha : accepted (lower t) = true
      · have hk : setKey d (lower t) s = d ++ [(lower t, s)] := by
          rw [setKey, if_neg (hdis t (by simp))]
        have ha' : (formats.any fun kv => lower t ∈ kv.2) = true := ha
        simp only [ha', if_true, hk]
        rw [ih (s + 1) _ hd.2]
        · simp [columnsOf, List.zipIdx_cons, ha]
        · intro u hu
          rw [List.map_append, List.mem_append]
          rintro (h | h)
          · exact hdis u (by simp [hu]) h
          · simp only [List.map_cons, List.map_nil, List.mem_singleton] at h
            exact hd.1 (h ▸ List.mem_map_of_mem hu)
      · have ha' : ¬ (formats.any fun kv => lower t ∈ kv.2) = true := ha
        rw [if_neg ha']
        rw [ih (s + 1) _ hd.2 fun u hu => hdis u (by simp [hu])]
        simp [columnsOf, List.zipIdx_cons, ha]
  have := key toks 0 [] hd (by simp)
  simpa [setFormat] using this

theorem columnsOf_mem {toks : List Str} {k : Str} {n : ℕ} :
    (k, n) ∈ columnsOf toks 0 ↔ ∃ h : n < toks.length, lower toks[n] = k ∧ accepted k = true := by
  simp only [columnsOf, List.mem_map, List.mem_filter, Prod.mk.injEq, Prod.exists]
  constructor
  · rintro ⟨t, m, ⟨hm, ha⟩, rfl, rfl⟩
    have := List.mk_mem_zipIdx_iff_getElem?.1 hm
    obtain ⟨h, rfl⟩ := List.getElem?_eq_some_iff.1 this
    exact ⟨h, rfl, ha⟩
  · rintro ⟨h, rfl, ha⟩
    exact ⟨toks[n], n, ⟨List.mk_mem_zipIdx_iff_getElem?.2 (List.getElem?_eq_getElem h), ha⟩, rfl, rfl⟩

/-! ### The rows -/

theorem rowValues_ok {values : List Str} {qs : List ℚ}
    (h : List.Forall₂ (fun t q => parseFloat t = some q) values qs) :
    ∀ {f : List (Str × ℕ)}, (∀ p ∈ f, p.2 < qs.length) →
      rowValues values f = .ok (f.map fun p => qs.getD p.2 0) := by
  intro f
  induction f with
  | nil => intro _; rfl
  | cons p f ih =>
    intro hf
    obtain ⟨k, n⟩ := p
    have hn : n < qs.length := hf (k, n) (by simp)
    have hv : n < values.length := by rw [h.length_eq]; exact hn
    have hp : parseFloat values[n] = some qs[n] := h.get hv hn
    have hq : qs.getD n 0 = qs[n] := by
      rw [List.getD_eq_getElem?_getD, List.getElem?_eq_getElem hn]; rfl
    rw [rowValues]
    simp only [List.getElem?_eq_getElem hv, hp, ih fun p hp => hf p (by simp [hp]), bind, Except.bind]
    rw [List.map_cons, hq]

theorem numeral_not_keyword {t : Str} {q : ℚ} (h : Numeral t q) :
    lower t ≠ c!"job" ∧ lower t ≠ c!"format" ∧ lower t ≠ c!"data" ∧ t.head? ≠ some '#' := by
  obtain ⟨sgn, f, m, a, x, e, hs, hm, hx, rfl, rfl⟩ := h
  have hh : ∃ c rest, sgn ++ m ++ x = c :: rest ∧ (c ∈ digits ∨ c = '.' ∨ c = '+' ∨ c = '-') := by
    obtain ⟨c, hc, hd⟩ := mantissa_head hm x
    rcases hs with ⟨rfl, -⟩ | ⟨rfl, -⟩ | ⟨rfl, -⟩
    · rw [List.nil_append]
      cases hmx : m ++ x with
      | nil => rw [hmx] at hc; simp at hc
      | cons y r =>
        rw [hmx] at hc
        simp only [List.head?_cons, Option.some.injEq] at hc
        subst hc
        exact ⟨y, r, rfl, by tauto⟩
    · exact ⟨'+', m ++ x, rfl, by tauto⟩
    · exact ⟨'-', m ++ x, rfl, by tauto⟩
  obtain ⟨c, rest, e, hc⟩ := hh
  rw [e]
  have key : c.toLower ≠ 'j' ∧ c.toLower ≠ 'f' ∧ c.toLower ≠ 'd' ∧ c ≠ '#' := by
    rcases hc with hc | rfl | rfl | rfl
    · have : ∀ c ∈ digits, c.toLower ≠ 'j' ∧ c.toLower ≠ 'f' ∧ c.toLower ≠ 'd' ∧ c ≠ '#' := by decide
      exact this c hc
    all_goals decide
  refine ⟨?_, ?_, ?_, ?_⟩
  · intro h; simp [lower] at h; exact key.1 h.1
  · intro h; simp [lower] at h; exact key.2.1 h.1
  · intro h; simp [lower] at h; exact key.2.2.1 h.1
  · intro h; simp at h; exact key.2.2.2 h

end Verif.IO
