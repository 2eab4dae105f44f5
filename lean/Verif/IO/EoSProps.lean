/-
The EoS input reader: C48 (EoS files), C50, C51 and C75.
-/
import Verif.IO.EoSLemmas

namespace Verif.IO
open Verif.Py Spec

namespace Spec

/-- White space. -/
def whitespace : List Char := [' ', '\t', '\n', '\r', '\x0b', '\x0c']

/-- The words of a line. -/
def Words (ts : List Str) (l : Str) : Prop :=
  Tokens ts l ∧ ∀ t ∈ ts, t ≠ [] ∧ ∀ c ∈ t, c ∉ whitespace

/-- An empty line or a comment. -/
def CommentLine (l : Str) : Prop := Blank l ∨ ∃ g t, Blank g ∧ l = g ++ '#' :: t

/-- A line whose first word is `w`, in any letter case. -/
def Keyword (w : Str) (l : Str) : Prop := ∃ k more, Words (k :: more) l ∧ lower k = w

/-- The keywords of the input file. -/
def keywords : List Str := [c!"job", c!"format", c!"data"]

/-- The lines after DATA: comments anywhere, rows of at least `n` numbers. -/
inductive Body (n : ℕ) : List (List ℚ) → List Str → Prop
  | nil : Body n [] []
  | comment {l : Str} {rows : List (List ℚ)} {ls : List Str} :
      CommentLine l → Body n rows ls → Body n rows (l :: ls)
  | row {qs : List ℚ} {l : Str} {rows : List (List ℚ)} {ls : List Str} :
      Numbers qs l → qs ≠ [] → n ≤ qs.length → Body n rows ls → Body n (qs :: rows) (l :: ls)

/-- FORMAT with the column names, then DATA with rows of at least `n` numbers. -/
def FormatData (n : ℕ) (names : List Str) (rows : List (List ℚ)) (ls : List Str) : Prop :=
  ∃ c1 kf c2 f c3 kd body, ls = c1 ++ kf :: (c2 ++ f :: (c3 ++ kd :: body)) ∧
    (∀ l ∈ c1, CommentLine l) ∧ Keyword c!"format" kf ∧ (∀ l ∈ c2, CommentLine l) ∧ Words names f ∧
    (∃ n0 more, names = n0 :: more ∧ lower n0 ∉ keywords ∧ n0.head? ≠ some '#') ∧
    (∀ l ∈ c3, CommentLine l) ∧ Keyword c!"data" kd ∧ Body n rows body

/-- JOB and the title on the next line that is neither empty nor a comment. -/
def JobSection (t : Str) (ls : List Str) : Prop :=
  ∃ c0 kj cj, ls = c0 ++ kj :: (cj ++ [t]) ∧ (∀ l ∈ c0, CommentLine l) ∧ Keyword c!"job" kj ∧
    (∀ l ∈ cj, l = [] ∨ ∃ g u, Blank g ∧ l = g ++ '#' :: u) ∧
    (∃ w more, Words (w :: more) t ∧ lower w ∉ keywords ∧ w.head? ≠ some '#')

/-- The documented spellings of each quantity. -/
def spellings : Quantity → List Str
  | .volume => [c!"v"]
  | .sigmaV => [c!"sigmav", c!"sigv"]
  | .pressure => [c!"p"]
  | .sigmaP => [c!"sigmap", c!"sigp"]
  | .a => [c!"a"]
  | .sigmaA => [c!"sigmaa", c!"siga"]
  | .b => [c!"b"]
  | .sigmaB => [c!"sigmab", c!"sigb"]
  | .c => [c!"c"]
  | .sigmaC => [c!"sigmac", c!"sigc"]

end Spec

/-! ### Lines -/

theorem words_of {ts : List Str} {l : Str} (h : Words ts l) : words l = ts := by
  refine words_tokens h.1 fun t ht => ⟨(h.2 t ht).1, fun c hc => ?_⟩
  have := (h.2 t ht).2 c hc
  simp only [whitespace, List.mem_cons, List.not_mem_nil, or_false, not_or] at this
  simp [isSpace, this]

theorem isComment_words {l w : Str} {more : List Str} (h : words l = w :: more)
    (hw : w.head? ≠ some '#') (hne : w ≠ []) : isComment l = false := by
  unfold isComment
  rw [strip_head_words, h]
  cases w with
  | nil => exact absurd rfl hne
  | cons c w => simpa using hw

theorem isComment_comment {l : Str} (h : CommentLine l) : isComment l = true := by
  unfold isComment
  rcases h with h | ⟨g, t, hg, rfl⟩
  · have : words l = [] := by
      have := words_spaces (b := []) (blank_space h)
      simpa [words_nil] using this
    rw [strip_head_words, this]; rfl
  · rw [strip_head (blank_space hg) (by decide)]; rfl

theorem keyword_line {w l : Str} (h : Keyword w l) (hw : w ∈ keywords) :
    lower ((words l).headD []) = w ∧ isComment l = false := by
  obtain ⟨k, more, hk, rfl⟩ := h
  have e := words_of hk
  refine ⟨by rw [e]; rfl, isComment_words e ?_ (hk.2 k (by simp)).1⟩
  intro h
  cases k with
  | nil => simp at h
  | cons c k =>
    simp only [List.head?_cons, Option.some.injEq] at h
    subst h
    simp [keywords, lower] at hw

theorem loadLines_comments {cs : List Str} (h : ∀ l ∈ cs, CommentLine l) (rest : List Str)
    (d : EoSData) (e : Option EoSError) : loadLines (cs ++ rest) d e = loadLines rest d e := by
  induction cs with
  | nil => rfl
  | cons l cs ih =>
    rw [List.cons_append, loadLines, if_pos (isComment_comment (h l (by simp))),
      ih fun x hx => h x (by simp [hx])]

/-- A line that is no keyword is passed over. -/
theorem loadLines_other {l w : Str} {more : List Str} (hw : words l = w :: more)
    (hk : lower w ∉ keywords) (rest : List Str) (d : EoSData) (e : Option EoSError) :
    loadLines (l :: rest) d e = loadLines rest d e := by
  rw [loadLines]
  split
  · rfl
  · simp only [keywords, List.mem_cons, List.not_mem_nil, or_false, not_or] at hk
    simp only [hw, List.headD_cons, onJob, onFormat, onData, hk.1, hk.2.1, hk.2.2, if_false,
      Except.bind]

theorem loadLines_format {l : Str} (h : Keyword c!"format" l) (rest : List Str) (d : EoSData)
    (e : Option EoSError) : loadLines (l :: rest) d e =
      (setDataFormat rest d).bind fun d => loadLines rest d e := by
  obtain ⟨h1, h2⟩ := keyword_line h (by decide)
  rw [loadLines, if_neg (by simp [h2])]
  simp only [h1, onJob, onFormat, onData, if_true]
  rw [if_neg (by decide)]
  simp only [Except.bind]
  cases setDataFormat rest d <;> rfl

theorem loadLines_data {l : Str} (h : Keyword c!"data" l) (rest : List Str) (d : EoSData)
    (e : Option EoSError) : loadLines (l :: rest) d e =
      (setData rest d e).bind fun p => loadLines rest p.1 p.2 := by
  obtain ⟨h1, h2⟩ := keyword_line h (by decide)
  rw [loadLines, if_neg (by simp [h2])]
  simp only [h1, onJob, onFormat, onData]
  rfl

theorem loadLines_job {l : Str} (h : Keyword c!"job" l) (rest : List Str) (d : EoSData)
    (e : Option EoSError) : loadLines (l :: rest) d e =
      (setJobName rest d).bind fun d => loadLines rest d e := by
  obtain ⟨h1, h2⟩ := keyword_line h (by decide)
  rw [loadLines, if_neg (by simp [h2])]
  simp only [h1, onJob, onFormat, onData]
  cases setJobName rest d <;> rfl

theorem setDataFormat_comments {cs : List Str} (h : ∀ l ∈ cs, CommentLine l) {f : Str}
    {names : List Str} (hf : words f = names) (hc : isComment f = false) (rest : List Str) (d : EoSData) :
    setDataFormat (cs ++ f :: rest) d = .ok { d with format := setFormat names d.format } := by
  induction cs with
  | nil => rw [List.nil_append, setDataFormat, hc, hf]; rfl
  | cons l cs ih =>
    rw [List.cons_append, setDataFormat, if_pos (isComment_comment (h l (by simp))),
      ih fun x hx => h x (by simp [hx])]

theorem numbers_line {qs : List ℚ} {l : Str} (h : Numbers qs l) (hne : qs ≠ []) :
    ∃ w more, words l = w :: more ∧ lower w ∉ keywords ∧ isComment l = false := by
  obtain ⟨ts, ht, hf⟩ := h
  have e := words_tokens ht (tokens_numerals hf)
  cases hf with
  | nil => exact absurd rfl hne
  | @cons w q more qs' hw hrest =>
    obtain ⟨k1, k2, k3, k4⟩ := numeral_not_keyword hw
    refine ⟨w, more, e, by simp [keywords, k1, k2, k3], isComment_words e k4 (numeral_token hw).1⟩

theorem body_rows {n : ℕ} {rows : List (List ℚ)} {body : List Str} (h : Body n rows body)
    {f : List (Str × ℕ)} (hf : ∀ p ∈ f, p.2 < n) :
    readRows f body = .ok (rows.map fun qs => f.map fun p => qs.getD p.2 0) := by
  induction h with
  | nil => rfl
  | comment hc _ ih => rw [readRows, if_pos (isComment_comment hc), ih]
  | @row qs l rows ls hq hne hn _ ih =>
    obtain ⟨w, more, hw, -, hc⟩ := numbers_line hq hne
    rw [readRows, if_neg (by simp [hc]),
      rowValues_ok (numbers_words hq (.inl rfl)) (fun p hp => lt_of_lt_of_le (hf p hp) hn), ih]
    rfl

theorem body_lines {n : ℕ} {rows : List (List ℚ)} {body : List Str} (h : Body n rows body)
    (d : EoSData) (e : Option EoSError) : loadLines body d e = .ok (d, e) := by
  induction h with
  | nil => rfl
  | comment hc _ ih => rw [loadLines, if_pos (isComment_comment hc), ih]
  | @row qs l rows ls hq hne hn _ ih =>
    obtain ⟨w, more, hw, hk, -⟩ := numbers_line hq hne
    rw [loadLines_other hw hk, ih]

/-- Reading FORMAT and DATA: everything depends on the call of `set_data`. -/
theorem load_formatData {n : ℕ} {names : List Str} {rows : List (List ℚ)} {ls : List Str}
    (h : FormatData n names rows ls) (d : EoSData) :
    ∃ body, Body n rows body ∧ loadLines ls d none =
      setData body { d with format := setFormat names d.format } none := by
  obtain ⟨c1, kf, c2, f, c3, kd, body, rfl, h1, hkf, h2, hnames, ⟨n0, more, rfl, hn0, hh⟩, h3, hkd, hb⟩ := h
  refine ⟨body, hb, ?_⟩
  have hw := words_of hnames
  have hc : isComment f = false := isComment_words hw hh (hnames.2 n0 (by simp)).1
  rw [loadLines_comments h1, loadLines_format hkf, setDataFormat_comments h2 hw hc]
  simp only [Except.bind]
  rw [loadLines_comments h2, loadLines_other hw hn0, loadLines_comments h3, loadLines_data hkd]
  cases hs : setData body { d with format := setFormat (n0 :: more) d.format } none with
  | error s => rfl
  | ok p => simp only [Except.bind]; exact body_lines hb p.1 p.2

theorem key_accepted (q : Quantity) : accepted q.key = true := by cases q <;> decide

theorem findIdx_key {f : List (Str × ℕ)} {k : Str} {n : ℕ} (hm : (k, n) ∈ f)
    (hu : ∀ m, (k, m) ∈ f → m = n) (qs : List ℚ) :
    ∃ i, f.findIdx? (·.1 = k) = some i ∧ (f.map fun p => qs.getD p.2 0).getD i 0 = qs.getD n 0 := by
  cases h : f.findIdx? (·.1 = k) with
  | none =>
    rw [List.findIdx?_eq_none_iff] at h
    simpa using h (k, n) hm
  | some i =>
    refine ⟨i, rfl, ?_⟩
    obtain ⟨hi, hp, -⟩ := List.findIdx?_eq_some_iff_getElem.1 h
    have hk : f[i].1 = k := by simpa using hp
    have hmem : f[i] ∈ f := List.getElem_mem hi
    have : f[i].2 = n := hu _ (by rw [← hk]; exact hmem)
    rw [List.getD_eq_getElem?_getD, List.getElem?_map, List.getElem?_eq_getElem hi]
    simp [this]

/-! ### C50 -/

/-- C50: in a process that has not read a FORMAT before, a file with FORMAT (any letter case, any
order of columns, unknown names ignored) and DATA is read completely: each quantity named in column
`n` gets the numbers of column `n`, in file order, with comments and empty lines anywhere; the other
quantities are left alone.  A title after JOB is stored as it stands.  Missing: files without a
pressure column (`C50_pressure_violated`), titles that start with a keyword (`C50_title_violated`),
lines of blanks before the title (`C50_blank_violated`), and processes that have read another file
(`C48_eos_format_violated`). -/
theorem C50_columns_partial {names : List Str} {rows : List (List ℚ)} {title : Option Str}
    {js ls : List Str} {text : Str} (hj : match title with | some t => JobSection t js | none => js = [])
    (h : FormatData names.length names rows ls) (hf : IsText (js ++ ls) text)
    (hdis : (names.map lower).Nodup) (hp : c!"p" ∈ names.map lower) {d : EoSData}
    (hd : d.format = []) (hjob : d.job = c!"Unknown") (hu : title ≠ some c!"Unknown") :
    ∃ d', loadEoS text d = .ok (d', true, none) ∧
      (∀ q n (hn : n < names.length), lower names[n] = q.key →
        d'.get q = some (rows.map fun r => r.getD n 0)) ∧
      (∀ q, q.key ∉ names.map lower → d'.get q = d.get q) ∧
      d'.job = title.getD c!"Unknown" := by
  have main : ∀ d : EoSData, d.format = [] → ∃ d', loadLines ls d none = .ok (d', none) ∧
      (∀ q n (hn : n < names.length), lower names[n] = q.key →
        d'.get q = some (rows.map fun r => r.getD n 0)) ∧
      (∀ q, q.key ∉ names.map lower → d'.get q = d.get q) ∧ d'.job = d.job := by
    intro d hd
    obtain ⟨body, hb, e⟩ := load_formatData h d
    rw [hd, setFormat_eq hdis] at e
    have hlt : ∀ p ∈ columnsOf names 0, p.2 < names.length := by
      rintro ⟨k, n⟩ hp
      exact (columnsOf_mem.1 hp).1
    obtain ⟨np, hnp, hep⟩ : ∃ n, ∃ h : n < names.length, lower names[n] = c!"p" := by
      obtain ⟨t, ht, e⟩ := List.mem_map.1 hp
      obtain ⟨n, hn, e'⟩ := List.getElem_of_mem ht
      exact ⟨n, hn, by rw [e', e]⟩
    have hpm : (c!"p", np) ∈ columnsOf names 0 := columnsOf_mem.2 ⟨hnp, hep, by decide⟩
    have h1 : columnsOf names 0 ≠ [] := List.ne_nil_of_mem hpm
    have h2 : c!"p" ∈ (columnsOf names 0).map (·.1) := List.mem_map.2 ⟨_, hpm, rfl⟩
    rw [e]
    simp only [setData, if_neg h1, not_not.2 h2, if_false, body_rows hb hlt]
    refine ⟨_, rfl, ?_, ?_, rfl⟩
    · intro q n hn hq
      have hm : (q.key, n) ∈ columnsOf names 0 := columnsOf_mem.2 ⟨hn, hq, key_accepted q⟩
      have huniq : ∀ m, (q.key, m) ∈ columnsOf names 0 → m = n := by
        intro m hm'
        obtain ⟨hm1, hm2, -⟩ := columnsOf_mem.1 hm'
        have := (List.nodup_iff_injective_get.1 hdis)
          (a₁ := ⟨m, by simpa using hm1⟩) (a₂ := ⟨n, by simpa using hn⟩)
          (by simp only [List.get_eq_getElem, List.getElem_map]; rw [hm2, hq])
        simpa using this
      obtain ⟨i, hi, -⟩ := findIdx_key hm huniq []
      simp only [EoSData.get, hi, List.map_map]
      congr 1
      refine List.map_congr_left fun qs _ => ?_
      obtain ⟨i', hi', he⟩ := findIdx_key hm huniq qs
      rw [hi] at hi'
      cases hi'
      exact he
    · intro q hq
      have : (columnsOf names 0).findIdx? (·.1 = q.key) = none := by
        rw [List.findIdx?_eq_none_iff]
        rintro ⟨k, m⟩ hm
        obtain ⟨h1, h2, -⟩ := columnsOf_mem.1 hm
        simp only [decide_eq_false_iff_not]
        rintro rfl
        exact hq (List.mem_map.2 ⟨names[m], List.getElem_mem h1, h2⟩)
      simp only [EoSData.get, this]
  rw [loadEoS_text hf]
  cases title with
  | none =>
    subst hj
    obtain ⟨d', e, c1, c2, c3⟩ := main d hd
    refine ⟨d', by rw [List.nil_append, e]; rfl, c1, c2, by rw [c3, hjob]; rfl⟩
  | some t =>
    obtain ⟨c0, kj, cj, rfl, h0, hkj, hcj, w, more, hw, hwk, hwh⟩ := hj
    have hne : t ≠ [] := by
      rintro rfl
      have := words_of hw
      rw [words_nil] at this; cases this
    have hnl : '\n' ∉ t := hf.1 t (by simp)
    have hjn : setJobName (cj ++ t :: ls) d = .ok { d with job := t } := by
      rw [setJobName, if_pos hjob]
      have : jobFrom (cj ++ t :: ls) = .ok t := by
        have hnl' : ∀ l ∈ cj, '\n' ∉ l := fun l hl => hf.1 l (by simp [hl])
        clear hf hkj
        induction cj with
        | nil =>
          have hc : isComment t = false := isComment_words (words_of hw) hwh (hw.2 w (by simp)).1
          rw [List.nil_append, jobFrom, rstripNewline_raw (.inl rfl) hnl]
          simp only [hne, if_false]
          unfold isComment at hc
          cases hh : (strip t).head? with
          | none => rw [hh] at hc; cases hc
          | some c =>
            rw [hh] at hc
            simp only [decide_eq_false_iff_not] at hc
            simp only [hc, if_false]
            rw [if_neg]
            intro e
            exact hu (by rw [e])
        | cons l cj ih =>
          have ihh := ih (fun x hx => hcj x (by simp [hx])) (fun x hx => hnl' x (by simp [hx]))
          rw [List.cons_append, jobFrom, rstripNewline_raw (.inl rfl) (hnl' l (by simp))]
          rcases hcj l (by simp) with rfl | ⟨g, u, hg, rfl⟩
          · simpa using ihh
          · have : g ++ '#' :: u ≠ [] := by simp
            simp only [this, if_false, strip_head (blank_space hg) (show isSpace '#' = false by decide)]
            simpa using ihh
      rw [this]; rfl
    have hskip : ∀ d, loadLines (cj ++ t :: ls) d none = loadLines ls d none := by
      intro d
      have : ∀ l ∈ cj, CommentLine l := by
        intro l hl
        rcases hcj l hl with rfl | hh
        · exact .inl (fun c hc => by simp at hc)
        · exact .inr hh
      rw [loadLines_comments this, loadLines_other (words_of hw) hwk]
    obtain ⟨d', e, c1, c2, c3⟩ := main { d with job := t } hd
    refine ⟨d', ?_, c1, c2, c3⟩
    rw [List.append_assoc, List.cons_append, List.append_assoc, List.singleton_append,
      loadLines_comments h0, loadLines_job hkj, hjn]
    simp only [Except.bind]
    rw [hskip, e]
    rfl

theorem loadLines_error (ls : List Str) (d : EoSData) (x : EoSError) {d' : EoSData} {e : Option EoSError}
    (h : loadLines ls d (some x) = .ok (d', e)) : e ≠ none := by
  induction ls generalizing d x with
  | nil => simp only [loadLines, Except.ok.injEq, Prod.mk.injEq] at h; rw [← h.2]; simp
  | cons l ls ih =>
    by_cases hc : isComment l = true
    · rw [loadLines, if_pos hc] at h
      exact ih d x h
    · obtain ⟨d1, d2, p, h1, h2, h3, h4⟩ := loadLines_cons hc h
      rcases (onData_error h3).1 with hp | hp <;> rw [hp] at h4 <;> exact ih _ _ h4

/-- C50: whatever the file, if the reader (in a process that has read no FORMAT before) reports
completed data then every DATA line comes after a FORMAT line. -/
theorem C50_format_first {ls : List Str} {text : Str} (hf : IsText ls text) {d d' : EoSData}
    (hd : d.format = []) {e : Option EoSError} (h : loadEoS text d = .ok (d', true, e))
    {pre post : List Str} {l : Str} (hsplit : ls = pre ++ l :: post) (hl : Keyword c!"data" l) :
    ∃ k ∈ pre, ∃ w more, words k = w :: more ∧ lower w = c!"format" := by
  rw [loadEoS_text hf] at h
  have h' : loadLines ls d none = .ok (d', none) := by
    cases hh : loadLines ls d none with
    | error s => rw [hh] at h; cases h
    | ok p =>
      rw [hh] at h
      simp only [Except.map, Except.ok.injEq, Prod.mk.injEq, Option.isNone_iff_eq_none] at h
      obtain ⟨p1, p2⟩ := p
      simp only at h
      rw [← h.1, h.2.1]
  clear h hf
  induction pre generalizing ls d with
  | nil =>
    subst hsplit
    rw [List.nil_append, loadLines_data hl, setData, if_pos hd] at h'
    exact absurd rfl (loadLines_error _ _ _ h')
  | cons k pre ih =>
    subst hsplit
    rw [List.cons_append] at h'
    by_cases hc : isComment k = true
    · rw [loadLines, if_pos hc] at h'
      obtain ⟨k', hk', hh⟩ := ih hd rfl h'
      exact ⟨k', by simp [hk'], hh⟩
    · cases hw : words k with
      | nil =>
        exfalso
        apply hc
        unfold isComment
        rw [strip_head_words, hw]; rfl
      | cons w more =>
        by_cases hfm : lower w = c!"format"
        · exact ⟨k, by simp, w, more, hw, hfm⟩
        · obtain ⟨d1, d2, p, h1, h2, h3, h4⟩ := loadLines_cons hc h'
          simp only [hw, List.headD_cons] at h1 h2 h3
          rw [onFormat, if_neg hfm] at h2
          simp only [Except.ok.injEq] at h2
          subst h2
          have hd1 : d1.format = [] := by rw [onJob_format h1, hd]
          obtain ⟨he, -, hfp⟩ := onData_error h3
          have hp2 : p.2 = none := by
            cases hpe : p.2 with
            | none => rfl
            | some x => rw [hpe] at h4; exact absurd rfl (loadLines_error _ _ _ h4)
          rw [hp2] at h4
          obtain ⟨k', hk', hh⟩ := ih (hfp.trans hd1) rfl h4
          exact ⟨k', by simp [hk'], hh⟩

/-- C50 fails for titles whose first word is `data` (or `Data`): the title is obeyed as a keyword
and the file is refused for want of a FORMAT, although FORMAT is present. -/
theorem C50_title_violated {kj t : Str} {ls : List Str} {text : Str} (hkj : Keyword c!"job" kj)
    (ht : Keyword c!"data" t) (hf : IsText (kj :: t :: ls) text) {d : EoSData} (hd : d.format = []) :
    ¬ ∃ d' e, loadEoS text d = .ok (d', true, e) := by
  rintro ⟨d', e, h⟩
  obtain ⟨k, hk, w, more, hw, hfm⟩ := C50_format_first hf hd h (pre := [kj]) rfl ht
  simp only [List.mem_singleton] at hk
  subst hk
  have := (keyword_line hkj (by decide)).1
  rw [hw, List.headD_cons, hfm] at this
  exact absurd this (by decide)

/-- C50 fails for files without a pressure column: instead of the error text the reader raises
KeyError. -/
theorem C50_pressure_violated {names : List Str} {rows : List (List ℚ)} {ls : List Str} {text : Str}
    (h : FormatData names.length names rows ls) (hf : IsText ls text) (hdis : (names.map lower).Nodup)
    (hp : c!"p" ∉ names.map lower) (hq : ∃ q : Quantity, q.key ∈ names.map lower) {d : EoSData}
    (hd : d.format = []) : loadEoS text d = .error (.exc .keyError) := by
  obtain ⟨body, hb, e⟩ := load_formatData h d
  rw [hd, setFormat_eq hdis] at e
  obtain ⟨q, hq⟩ := hq
  obtain ⟨t, ht, eq⟩ := List.mem_map.1 hq
  obtain ⟨n, hn, e'⟩ := List.getElem_of_mem ht
  have hm : (q.key, n) ∈ columnsOf names 0 := columnsOf_mem.2 ⟨hn, by rw [e', eq], key_accepted q⟩
  have h1 : columnsOf names 0 ≠ [] := List.ne_nil_of_mem hm
  have h2 : c!"p" ∉ (columnsOf names 0).map (·.1) := by
    intro h
    obtain ⟨⟨k, m⟩, hm, rfl⟩ := List.mem_map.1 h
    obtain ⟨a, b, -⟩ := columnsOf_mem.1 hm
    exact hp (List.mem_map.2 ⟨names[m], List.getElem_mem a, b⟩)
  rw [loadEoS_text hf, e]
  simp only [setData, if_neg h1, h2, not_false_eq_true, if_true]
  rfl

/-- C50 fails when a line of blanks stands between JOB and the title: IndexError. -/
theorem C50_blank_violated {kj b : Str} {ls : List Str} {text : Str} (hkj : Keyword c!"job" kj)
    (hb : Blank b) (hne : b ≠ []) (hf : IsText (kj :: b :: ls) text) {d : EoSData}
    (hjob : d.job = c!"Unknown") : loadEoS text d = .error (.exc .indexError) := by
  rw [loadEoS_text hf, loadLines_job hkj, setJobName, if_pos hjob]
  have hs : (strip b).head? = none := by
    have : words b = [] := by
      have := words_spaces (b := []) (blank_space hb)
      simpa [words_nil] using this
    rw [strip_head_words, this]; rfl
  have : jobFrom (b :: ls) = .error (.exc .indexError) := by
    rw [jobFrom, rstripNewline_raw (.inl rfl) (hf.1 b (by simp))]
    simp only [hne, if_false, hs]
  rw [this]
  rfl

/-! ### C51 -/

/-- C51: a column named by an accepted spelling of a quantity reaches the property of the reader
exactly when the spelling is the long one.  The rest of the claim is false: the short spellings are
accepted and their columns are dropped. -/
theorem C51_spelling_violated {names : List Str} {rows : List (List ℚ)} {ls : List Str} {text : Str}
    (h : FormatData names.length names rows ls) (hf : IsText ls text) (hdis : (names.map lower).Nodup)
    (hp : c!"p" ∈ names.map lower) {q : Quantity} {n : ℕ} (hn : n < names.length)
    (_hs : lower names[n] ∈ spellings q) (honly : ∀ m (hm : m < names.length), m ≠ n →
      lower names[m] ∉ spellings q) :
    ∃ d', loadEoS text .initial = .ok (d', true, none) ∧
      (d'.get q = some (rows.map fun r => r.getD n 0) ↔ lower names[n] = q.key) := by
  obtain ⟨d', e, c1, c2, -⟩ := C50_columns_partial (title := none) (js := []) rfl h (by simpa using hf)
    hdis hp (d := .initial) rfl rfl (by simp)
  refine ⟨d', e, ?_, c1 q n hn⟩
  intro hg
  by_contra hne
  have hkey : q.key ∈ spellings q := by cases q <;> decide
  have : d'.get q = none := by
    rw [c2 q]
    · rfl
    · intro hm
      obtain ⟨t, ht, e⟩ := List.mem_map.1 hm
      obtain ⟨m, hm, rfl⟩ := List.getElem_of_mem ht
      by_cases hmn : m = n
      · subst hmn; exact hne e
      · exact honly m hm hmn (by rw [e]; exact hkey)
  rw [this] at hg
  cases hg

/-- C51 for the long spellings, in any letter case. -/
theorem C51_long_partial {names : List Str} {rows : List (List ℚ)} {ls : List Str} {text : Str}
    (h : FormatData names.length names rows ls) (hf : IsText ls text) (hdis : (names.map lower).Nodup)
    (hp : c!"p" ∈ names.map lower) {q : Quantity} {n : ℕ} (hn : n < names.length)
    (hs : lower names[n] ∈ spellings q) (hlong : (lower names[n]).length ≠ 4) :
    ∃ d', loadEoS text .initial = .ok (d', true, none) ∧
      d'.get q = some (rows.map fun r => r.getD n 0) := by
  obtain ⟨d', e, c1, -, -⟩ := C50_columns_partial (title := none) (js := []) rfl h (by simpa using hf)
    hdis hp (d := .initial) rfl rfl (by simp)
  refine ⟨d', e, c1 q n hn ?_⟩
  generalize lower names[n] = t at hs hlong
  cases q <;> simp only [spellings, List.mem_cons, List.not_mem_nil, or_false] at hs <;>
    first
    | exact hs
    | (rcases hs with rfl | rfl
       · rfl
       · exact absurd rfl hlong)

/-! ### C48, EoS files -/

/-- C48 fails for titles of EoS files: once a file with a title has been read, the title is never
replaced, whatever is read next. -/
theorem C48_eos_title_violated {text : Str} {d d' : EoSData} (hd : d.job ≠ c!"Unknown") {b : Bool}
    {e : Option EoSError} (h : loadEoS text d = .ok (d', b, e)) : d'.job = d.job := by
  have key : ∀ (ls : List Str) (d : EoSData) (e : Option EoSError) (r : EoSData × Option EoSError),
      d.job ≠ c!"Unknown" → loadLines ls d e = .ok r → r.1.job = d.job := by
    intro ls
    induction ls with
    | nil =>
      intro d e r _ h
      simp only [loadLines, Except.ok.injEq] at h
      rw [← h]
    | cons l ls ih =>
      intro d e r hd h
      by_cases hc : isComment l = true
      · rw [loadLines, if_pos hc] at h
        exact ih d e r hd h
      · obtain ⟨d1, d2, p, h1, h2, h3, h4⟩ := loadLines_cons hc h
        have e1 := onJob_job hd h1
        have e2 := onFormat_job h2
        have e3 := (onData_error h3).2.1
        subst e1
        rw [ih p.1 p.2 r (by rw [e3, e2]; exact hd) h4, e3, e2]
  unfold loadEoS at h
  cases hl : loadLines (readlines text) d none with
  | error s => rw [hl] at h; cases h
  | ok r =>
    rw [hl] at h
    simp only [bind, Except.bind, Except.ok.injEq, Prod.mk.injEq] at h
    rw [← h.1]
    exact key _ _ _ r hd hl

theorem setFormat_keeps {toks : List Str} {k : Str} (hk : k ∉ toks.map lower) {n : ℕ}
    {d : List (Str × ℕ)} (hm : (k, n) ∈ d) : (k, n) ∈ setFormat toks d := by
  have key : ∀ (toks : List Str) (s : ℕ) (d : List (Str × ℕ)), k ∉ toks.map lower → (k, n) ∈ d →
      (k, n) ∈ (toks.zipIdx s).foldl (fun d p =>
        formats.foldl (fun d kv => if lower p.1 ∈ kv.2 then setKey d (lower p.1) p.2 else d) d) d := by
    intro toks
    induction toks with
    | nil => intro s d _ h; exact h
    | cons t toks ih =>
      intro s d hk hm
      rw [List.map_cons, List.mem_cons, not_or] at hk
      rw [List.zipIdx_cons, List.foldl_cons]
      refine ih _ _ hk.2 ?_
      rw [inner_loop]
      split
      · unfold setKey
        split
        · rw [List.mem_map]
          exact ⟨(k, n), hm, by simp [hk.1]⟩
        · simp [hm]
      · exact hm
  exact key toks 0 d hk hm

theorem setKey_mem {d : List (Str × ℕ)} {k k' : Str} {n : ℕ} (h : k' ∈ d.map (·.1)) :
    k' ∈ (setKey d k n).map (·.1) := by
  unfold setKey
  split
  · obtain ⟨p, hp, rfl⟩ := List.mem_map.1 h
    rw [List.map_map, List.mem_map]
    refine ⟨p, hp, ?_⟩
    by_cases hk : p.1 = k <;> simp [hk]
  · rw [List.map_append, List.mem_append]
    exact .inl h

theorem setFormat_keys {toks : List Str} {k : Str} {d : List (Str × ℕ)} (h : k ∈ d.map (·.1)) :
    k ∈ (setFormat toks d).map (·.1) := by
  have key : ∀ (toks : List Str) (s : ℕ) (d : List (Str × ℕ)), k ∈ d.map (·.1) →
      k ∈ ((toks.zipIdx s).foldl (fun d p =>
        formats.foldl (fun d kv => if lower p.1 ∈ kv.2 then setKey d (lower p.1) p.2 else d) d) d).map
        (·.1) := by
    intro toks
    induction toks with
    | nil => intro s d h; exact h
    | cons t toks ih =>
      intro s d h
      rw [List.zipIdx_cons, List.foldl_cons]
      refine ih _ _ ?_
      rw [inner_loop]
      split
      · exact setKey_mem h
      · exact h
  exact key toks 0 d h

theorem rowValues_index {values : List Str} {qs : List ℚ}
    (h : List.Forall₂ (fun t q => parseFloat t = some q) values qs) :
    ∀ {f : List (Str × ℕ)}, (∃ p ∈ f, qs.length ≤ p.2) → rowValues values f = .error .indexError := by
  intro f
  induction f with
  | nil => rintro ⟨p, hp, -⟩; simp at hp
  | cons p f ih =>
    rintro ⟨p', hp', hle⟩
    obtain ⟨k, n⟩ := p
    rw [rowValues]
    by_cases hn : n < qs.length
    · have hv : n < values.length := by rw [h.length_eq]; exact hn
      have hp : parseFloat values[n] = some qs[n] := h.get hv hn
      have : ∃ p ∈ f, qs.length ≤ p.2 := by
        rcases List.mem_cons.1 hp' with rfl | hp'
        · exact absurd hn (by simpa using hle)
        · exact ⟨p', hp', hle⟩
      simp only [List.getElem?_eq_getElem hv, hp, ih this]
      rfl
    · rw [List.getElem?_eq_none (by rw [h.length_eq]; omega)]

/-- C48 fails for formats of EoS files: if an earlier file had a quantity in column `n` that the new
file does not name, the new file is still read for it, and a file whose rows have at most `n`
numbers raises IndexError. -/
theorem C48_eos_format_violated {names : List Str} {rows : List (List ℚ)} {ls : List Str} {text : Str}
    {m : ℕ} (h : FormatData m names rows ls) (hf : IsText ls text) {k : Str} {n : ℕ} {d : EoSData}
    (hold : (k, n) ∈ d.format) (hp : c!"p" ∈ d.format.map (·.1)) (hnew : k ∉ names.map lower)
    (hrow : ∃ r more, rows = r :: more ∧ r.length ≤ n) :
    loadEoS text d = .error (.exc .indexError) := by
  obtain ⟨body, hb, e⟩ := load_formatData h d
  have hm := setFormat_keeps hnew hold
  have h1 : setFormat names d.format ≠ [] := List.ne_nil_of_mem hm
  have h2 : c!"p" ∈ (setFormat names d.format).map (·.1) := setFormat_keys hp
  have hread : readRows (setFormat names d.format) body = .error .indexError := by
    obtain ⟨r, more, rfl, hr⟩ := hrow
    clear e h
    generalize hrs : r :: more = rs at hb
    induction hb with
    | nil => cases hrs
    | comment hc _ ih => rw [readRows, if_pos (isComment_comment hc), ih hrs]
    | @row qs l rows ls hq hne hn _ _ =>
      cases hrs
      obtain ⟨w, more, hw, -, hc⟩ := numbers_line hq hne
      rw [readRows, if_neg (by simp [hc]),
        rowValues_index (numbers_words hq (.inl rfl)) ⟨_, hm, hr⟩]
      rfl
  rw [loadEoS_text hf, e]
  simp only [setData, if_neg h1, not_not.2 h2, if_false, hread]
  rfl

/-! ### C75 -/

/-- C75: reading ends for every file none of whose lines is exactly `Unknown`, whatever was read
before.  Missing: `C75_unknown_violated`. -/
theorem C75_terminates_partial {ls : List Str} {text : Str} (hf : IsText ls text)
    (h : c!"Unknown" ∉ ls) (d : EoSData) : loadEoS text d ≠ .error .hang := by
  have hjob : ∀ ls : List Str, (∀ l ∈ ls, '\n' ∉ l) → c!"Unknown" ∉ ls → jobFrom ls ≠ .error .hang := by
    intro ls
    induction ls with
    | nil => intro _ _ h; cases h
    | cons l ls ih =>
      intro hn hu
      rw [jobFrom, rstripNewline_raw (.inl rfl) (hn l (by simp))]
      have ihh := ih (fun x hx => hn x (by simp [hx])) (fun hx => hu (by simp [hx]))
      split
      · exact ihh
      · split
        · intro h; cases h
        · split
          · exact ihh
          · rw [if_neg (fun e => hu (by simp [e]))]
            intro h; cases h
  have hfmt : ∀ (rest : List Str) (d : EoSData), setDataFormat rest d ≠ .error .hang := by
    intro rest
    induction rest with
    | nil => intro d h; cases h
    | cons x rest ihr =>
      intro d
      rw [setDataFormat]
      split
      · exact ihr d
      · intro h; cases h
  have hdat : ∀ (rest : List Str) (d : EoSData) (e : Option EoSError), setData rest d e ≠ .error .hang := by
    intro rest d e
    unfold setData
    split
    · intro h; cases h
    · split
      · intro h; cases h
      · split <;> (intro h; cases h)
  have key : ∀ ls : List Str, (∀ l ∈ ls, '\n' ∉ l) → c!"Unknown" ∉ ls → ∀ (d : EoSData) e,
      loadLines ls d e ≠ .error .hang := by
    intro ls
    induction ls with
    | nil => intro _ _ d e h; cases h
    | cons l ls ih =>
      intro hn hu d e
      have hn' : ∀ l ∈ ls, '\n' ∉ l := fun x hx => hn x (by simp [hx])
      have hu' : c!"Unknown" ∉ ls := fun hx => hu (by simp [hx])
      have ihh := ih hn' hu'
      rw [loadLines]
      split
      · exact ihh d e
      · simp only
        generalize lower ((words l).headD []) = kw
        cases h1 : onJob kw ls d with
        | error s =>
          intro h
          simp only [Except.bind, Except.error.injEq] at h
          subst h
          unfold onJob at h1
          split at h1
          · unfold setJobName at h1
            split at h1
            · cases hj : jobFrom ls with
              | error s =>
                rw [hj] at h1
                simp only [bind, Except.bind, Except.error.injEq] at h1
                exact hjob ls hn' hu' (by rw [hj, h1])
              | ok j => rw [hj] at h1; cases h1
            · cases h1
          · cases h1
        | ok d1 =>
          simp only [Except.bind]
          cases h2 : onFormat kw ls d1 with
          | error s =>
            intro h
            simp only [Except.error.injEq] at h
            subst h
            unfold onFormat at h2
            split at h2
            · exact hfmt _ _ h2
            · cases h2
          | ok d2 =>
            simp only
            cases h3 : onData kw ls d2 e with
            | error s =>
              intro h
              simp only [Except.error.injEq] at h
              subst h
              unfold onData at h3
              split at h3
              · exact hdat _ _ _ h3
              · cases h3
            | ok p => exact ihh _ _
  rw [loadEoS_text hf]
  have := key ls hf.1 h d none
  cases hl : loadLines ls d none with
  | error s =>
    intro h
    simp only [Except.map, Except.error.injEq] at h
    exact this (by rw [hl, h])
  | ok p => intro h; cases h

/-- C75 fails for a file titled `Unknown`: the loop that looks for the title never ends; after any
number of passes it is still running. -/
theorem C75_unknown_violated {kj : Str} {cj ls : List Str} {text : Str} (hkj : Keyword c!"job" kj)
    (hcj : ∀ l ∈ cj, l = [] ∨ ∃ g u, Blank g ∧ l = g ++ '#' :: u)
    (hf : IsText (kj :: (cj ++ c!"Unknown" :: ls)) text) {d : EoSData} (hjob : d.job = c!"Unknown") :
    loadEoS text d = .error .hang ∧
    ∀ passes, jobLoop (kj :: (cj ++ c!"Unknown" :: ls)) passes 1 d.job = none := by
  have hnl : ∀ l ∈ cj, '\n' ∉ l := fun l hl => hf.1 l (by simp [hl])
  have hh : jobFrom (cj ++ c!"Unknown" :: ls) = .error .hang := by
    clear hf
    induction cj with
    | nil =>
      rw [List.nil_append, jobFrom, rstripNewline_raw (.inl rfl) (by decide)]
      have : (strip c!"Unknown").head? = some 'U' := by decide
      simp [this]
    | cons l cj ih =>
      have ihh := ih (fun x hx => hcj x (by simp [hx])) (fun x hx => hnl x (by simp [hx]))
      rw [List.cons_append, jobFrom, rstripNewline_raw (.inl rfl) (hnl l (by simp))]
      rcases hcj l (by simp) with rfl | ⟨g, u, hg, rfl⟩
      · simpa using ihh
      · have : g ++ '#' :: u ≠ [] := by simp
        simp only [this, if_false, strip_head (blank_space hg) (show isSpace '#' = false by decide)]
        simpa using ihh
  constructor
  · rw [loadEoS_text hf, loadLines_job hkj, setJobName, if_pos hjob, hh]
    rfl
  · have := jobFrom_loop (kj :: (cj ++ c!"Unknown" :: ls)) 1
    rw [List.drop_one, List.tail_cons, hh] at this
    rw [hjob]
    exact this

/-! ### A concrete file meeting the hypotheses -/

theorem words_witness {l : Str} {ts : List Str} (h : ∀ c ∈ l, isSpace c = true → c = ' ' ∨ c = '\t')
    (hw : words l = ts) : Words ts l := by
  subst hw
  obtain ⟨h1, h2⟩ := tokens_words l h
  refine ⟨h1, fun t ht => ⟨(h2 t ht).1, fun c hc hm => ?_⟩⟩
  have := (h2 t ht).2 c hc
  simp only [whitespace, List.mem_cons, List.not_mem_nil, or_false] at hm
  rcases hm with rfl | rfl | rfl | rfl | rfl | rfl <;> exact absurd this (by decide)

theorem example_job : JobSection c!"MgO, data of 1999" [c!"# a comment", c!"JOB", c!"", c!"MgO, data of 1999"] :=
  ⟨[c!"# a comment"], c!"JOB", [c!""], rfl,
    by simpa using .inr ⟨[], c!" a comment", by intro c hc; simp at hc, rfl⟩,
    ⟨c!"JOB", [], words_witness (by decide) (by decide), by decide⟩, by simp,
    c!"MgO,", [c!"data", c!"of", c!"1999"], words_witness (by decide) (by decide), by decide, by decide⟩

/-- The lines of an input file with three columns. -/
def exampleLines (third : Str) : List Str :=
  [c!"Format", c!"P T V " ++ third, c!"", c!"DATA", c!"0 300 75.0 0.1", c!"# remark",
    c!" 1.5 300 74 .2", c!""]

theorem example_formatData :
    FormatData 4 [c!"P", c!"T", c!"V", c!"SigP"] [[0, 300, 75, 0.1], [1.5, 300, 74, 0.2]]
      (exampleLines c!"SigP") :=
  ⟨[], c!"Format", [], c!"P T V SigP", [c!""], c!"DATA", _, rfl, by simp,
    ⟨c!"Format", [], words_witness (by decide) (by decide), by decide⟩, by simp,
    words_witness (by decide) (by decide), ⟨_, _, rfl, by decide, by decide⟩,
    by simpa using .inl (by intro c hc; simp at hc),
    ⟨c!"DATA", [], words_witness (by decide) (by decide), by decide⟩,
    .row (numbers_of (by decide) (by decide +kernel)) (by simp) (by simp)
      (.comment (.inr ⟨[], c!" remark", by intro c hc; simp at hc, rfl⟩)
        (.row (numbers_of (by decide) (by decide +kernel)) (by simp) (by simp)
          (.comment (.inl (by intro c hc; simp at hc)) .nil)))⟩

example : IsText (exampleLines c!"SigP")
    c!"Format\nP T V SigP\n\nDATA\n0 300 75.0 0.1\n# remark\n 1.5 300 74 .2\n\n" :=
  ⟨by decide, .inl (by decide)⟩

example : ([c!"P", c!"T", c!"V", c!"SigP"].map lower).Nodup ∧
    c!"p" ∈ [c!"P", c!"T", c!"V", c!"SigP"].map lower ∧
    lower ([c!"P", c!"T", c!"V", c!"SigP"][3]) ∈ spellings .sigmaP ∧
    ∀ m (hm : m < 4), m ≠ 3 → lower ([c!"P", c!"T", c!"V", c!"SigP"][m]) ∉ spellings .sigmaP := by
  decide

/-- The column of that file is dropped: the pressures are there, their errors are not. -/
example : (loadEoS c!"Format\nP T V SigP\n\nDATA\n0 300 75.0 0.1\n# remark\n 1.5 300 74 .2\n\n"
      .initial).toOption.map (fun r => (r.1.get .pressure, r.1.get .sigmaP)) =
    some (some [0, 1.5], none) := by decide +kernel

end Verif.IO
