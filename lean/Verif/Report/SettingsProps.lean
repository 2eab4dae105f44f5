/-
C113: the settings printed by a command.
-/
import Verif.Report.Settings
import Verif.Report.SettingsSpec
import Verif.Report.HarmonicProps
import Verif.Command.Props

noncomputable section

namespace Verif.Report
open Verif.Py Verif.IO Verif.IO.Spec Verif.Phonon Verif.Export Verif.Report.Spec

/-! ### Lines -/

theorem newline_prefix {l l' r r' : Str} (h : '\n' ∉ l) (h' : '\n' ∉ l') (e : l ++ '\n' :: r = l' ++ '\n' :: r') :
    l = l' ∧ r = r' := by
  induction l generalizing l' with
  | nil =>
    cases l' with
    | nil => simpa using e
    | cons c l' =>
      simp only [List.nil_append, List.cons_append, List.cons.injEq] at e
      exact absurd (List.mem_cons.2 (.inl e.1)) h'
  | cons c l ih =>
    cases l' with
    | nil =>
      simp only [List.nil_append, List.cons_append, List.cons.injEq] at e
      exact absurd (by simp [e.1]) h
    | cons c' l' =>
      simp only [List.cons_append, List.cons.injEq] at e
      have := ih (l' := l') (fun hx => h (by simp [hx])) (fun hx => h' (by simp [hx])) e.2
      exact ⟨by rw [e.1, this.1], this.2⟩

/-- The lines of a text are determined. -/
theorem hasLines_unique {ls ls' : List Str} {text : Str} (h : HasLines ls text) (h' : HasLines ls' text) : ls = ls' := by
  obtain ⟨hn, e⟩ := h
  obtain ⟨hn', e'⟩ := h'
  rw [e] at e'
  clear e
  induction ls generalizing ls' with
  | nil =>
    cases ls' with
    | nil => rfl
    | cons l ls' => simp at e'
  | cons l ls ih =>
    cases ls' with
    | nil => simp at e'
    | cons l' ls' =>
      simp only [List.map_cons, List.flatten_cons, List.append_assoc, List.singleton_append] at e'
      obtain ⟨h1, h2⟩ := newline_prefix (hn l (by simp)) (hn' l' (by simp)) e'
      rw [h1, ih (fun x hx => hn x (by simp [hx])) (fun x hx => hn' x (by simp [hx])) h2]

theorem settingLine_spec (w : ℕ) (label value : Str) : IsSetting label value (settingLine w label value) := by
  have := tokens_next (cell_before blank_space_one (cell_self c!"-")) (tokens_next (cell_left label w)
    (tokens_last (cell_self value)))
  simpa [IsSetting, settingLine] using this

theorem settingLine_number (w : ℕ) (label : Str) (n : ℤ) : IsNumber label n (settingLine w label (showInt n)) :=
  ⟨_, showInt_numeral n, settingLine_spec w label _⟩

theorem rangeLine_spec (label : Str) (x : ℚ) (unit : Str) : IsBound label x unit (rangeLine label x unit) := by
  refine ⟨_, _, printed_rounded 2 x, formatFixed_numeral 2 x, ?_⟩
  have := tokens_next (cell_before blank_space_one (cell_self c!"-")) (tokens_next (cell_left label 5)
    (tokens_next (cell_right (cell_spaced 2 x) 8) (tokens_last (cell_self unit))))
  simpa [rangeLine] using this

theorem rangeLines_spec (r : Fin 3 → ℚ) (unit : Str) : IsRange r unit (rangeLines r unit) :=
  ⟨_, _, _, rfl, rangeLine_spec _ _ _, rangeLine_spec _ _ _, rangeLine_spec _ _ _⟩

/-! ### Uniqueness -/

theorem setting_newline {label value l : Str} (h : IsSetting label value l) (hl : IsToken label) (hv : IsToken value) :
    '\n' ∉ l := tokens_no_newline h (by simp [hl, hv]; unfold IsToken; decide)

theorem number_newline {label : Str} {n : ℤ} {l : Str} (h : IsNumber label n l) (hl : IsToken label) : '\n' ∉ l := by
  obtain ⟨t, ht, h⟩ := h
  exact setting_newline h hl (numeral_token ht)

theorem bound_newline {label : Str} {x : ℚ} {unit l : Str} (h : IsBound label x unit l) (hl : IsToken label)
    (hu : IsToken unit) : '\n' ∉ l := by
  obtain ⟨v, t, -, ht, h⟩ := h
  exact tokens_no_newline h (by simp [hl, hu, numeral_token ht]; unfold IsToken; decide)

theorem setting_unique {label value value' l : Str} (h : IsSetting label value l) (h' : IsSetting label value' l)
    (hl : IsToken label) (hv : IsToken value) (hv' : IsToken value') : value = value' := by
  have a := words_tokens h (by simp [hl, hv]; unfold IsToken; decide)
  have b := words_tokens h' (by simp [hl, hv']; unfold IsToken; decide)
  rw [a] at b
  simpa using b

theorem numeral_unique {t : Str} {q q' : ℚ} (h : Numeral t q) (h' : Numeral t q') : q = q' := by
  have := numbers_unique (l := t) (qs := [q]) (qs' := [q']) ⟨[t], tokens_last (cell_self t), .cons h .nil⟩
    ⟨[t], tokens_last (cell_self t), .cons h' .nil⟩
  simpa using this

theorem number_unique {label : Str} {n n' : ℤ} {l : Str} (h : IsNumber label n l) (h' : IsNumber label n' l)
    (hl : IsToken label) : n = n' := by
  obtain ⟨t, ht, h⟩ := h
  obtain ⟨t', ht', h'⟩ := h'
  obtain rfl := setting_unique h h' hl (numeral_token ht) (numeral_token ht')
  exact_mod_cast numeral_unique ht ht'

theorem bound_unique {label : Str} {x x' : ℚ} {unit unit' l : Str} (h : IsBound label x unit l)
    (h' : IsBound label x' unit' l) (hl : IsToken label) (hu : IsToken unit) (hu' : IsToken unit') : Same x x' := by
  obtain ⟨v, t, hr, ht, h⟩ := h
  obtain ⟨v', t', hr', ht', h'⟩ := h'
  have a := words_tokens h (by simp [hl, hu, numeral_token ht]; unfold IsToken; decide)
  have b := words_tokens h' (by simp [hl, hu', numeral_token ht']; unfold IsToken; decide)
  rw [a] at b
  simp only [List.cons.injEq, true_and, and_true] at b
  obtain ⟨rfl, -⟩ := b
  rw [numeral_unique ht ht'] at hr
  exact ⟨v', hr, hr'⟩

theorem range_unique {r r' : Fin 3 → ℚ} {unit unit' : Str} {ls : List Str} (h : IsRange r unit ls)
    (h' : IsRange r' unit' ls) (hu : IsToken unit) (hu' : IsToken unit') (i : Fin 3) : Same (r i) (r' i) := by
  obtain ⟨a, b, c, rfl, ha, hb, hc⟩ := h
  obtain ⟨a', b', c', e, ha', hb', hc'⟩ := h'
  simp only [List.cons.injEq, and_true] at e
  obtain ⟨rfl, rfl, rfl⟩ := e
  match i with
  | 0 => exact bound_unique ha ha' (by unfold IsToken; decide) hu hu'
  | 1 => exact bound_unique hb hb' (by unfold IsToken; decide) hu hu'
  | 2 => exact bound_unique hc hc' (by unfold IsToken; decide) hu hu'

theorem range_length {r : Fin 3 → ℚ} {unit : Str} {ls : List Str} (h : IsRange r unit ls) : ls.length = 3 := by
  obtain ⟨a, b, c, rfl, -⟩ := h
  rfl

theorem range_newline {r : Fin 3 → ℚ} {unit : Str} {ls : List Str} (h : IsRange r unit ls) (hu : IsToken unit) :
    ∀ l ∈ ls, '\n' ∉ l := by
  obtain ⟨a, b, c, rfl, ha, hb, hc⟩ := h
  simp only [List.mem_cons, List.not_mem_nil, or_false]
  rintro l (rfl | rfl | rfl)
  · exact bound_newline ha (by unfold IsToken; decide) hu
  · exact bound_newline hb (by unfold IsToken; decide) hu
  · exact bound_newline hc (by unfold IsToken; decide) hu

theorem offered_tokens {e v f t : Str} (h : UnitsOffered e v f t) : IsToken e ∧ IsToken v ∧ IsToken f ∧ IsToken t := by
  obtain ⟨h1, h2, h3, h4⟩ := h
  simp only [List.mem_cons, List.not_mem_nil, or_false] at h1 h2 h3 h4
  refine ⟨?_, ?_, ?_, ?_⟩
  · rcases h1 with rfl | rfl | rfl <;> unfold IsToken <;> decide
  · rcases h2 with rfl | rfl <;> unfold IsToken <;> decide
  · rcases h3 with rfl | rfl | rfl <;> unfold IsToken <;> decide
  · rcases h4 with rfl | rfl <;> unfold IsToken <;> decide

theorem pressure_token {p : Str} (h : p ∈ [c!"GPa", c!"kbar"]) : IsToken p := by
  simp only [List.mem_cons, List.not_mem_nil, or_false] at h
  rcases h with rfl | rfl <;> unfold IsToken <;> decide

theorem approach_spec (s : QhaSettings) (hs : s.scheme ∈ [c!"freq", c!"td"]) (hm : s.minimization ∈ [c!"poly", c!"eos"])
    {form : EoS.EForm} {name : Str} (he : (s.eos, form, name) ∈ Command.Spec.eosChoices) :
    ∃ ls, approachLines s = .ok ls ∧ IsApproach s.scheme s.minimization s.kieffer name ls ∧ ∀ l ∈ ls, '\n' ∉ l := by
  obtain ⟨_, scheme, minimization, kieffer, _, _, eos, _, _⟩ := s
  simp only [List.mem_cons, List.not_mem_nil, or_false] at hs hm
  simp only [Command.Spec.eosChoices, List.mem_cons, List.not_mem_nil, or_false, Prod.mk.injEq] at he
  have hf : Command.eosFormulations.find? (·.1 = eos) = some (eos, name) := by
    rcases he with ⟨rfl, rfl, rfl⟩ | ⟨rfl, rfl, rfl⟩ | ⟨rfl, rfl, rfl⟩ | ⟨rfl, rfl, rfl⟩ <;> decide
  have hn : '\n' ∉ c!" - EoS formulation: " ++ name := by
    rcases he with ⟨rfl, rfl, rfl⟩ | ⟨rfl, rfl, rfl⟩ | ⟨rfl, rfl, rfl⟩ | ⟨rfl, rfl, rfl⟩ <;> decide
  have ha : ∃ a, c!" - scheme: " ++ (if scheme = c!"freq" then c!"frequency interpolation"
      else if scheme = c!"td" then c!"thermodynamics interpolation" else []) = a ∧
      (scheme = c!"freq" → a = c!" - scheme: frequency interpolation") ∧
      (scheme = c!"td" → a = c!" - scheme: thermodynamics interpolation") ∧ '\n' ∉ a := by
    rcases hs with rfl | rfl <;> exact ⟨_, rfl, by decide, by decide, by decide⟩
  have hk : ∃ k, c!" - use Kieffer's approach: " ++ (if kieffer then c!"Yes" else c!"No") = k ∧
      (kieffer = true → k = c!" - use Kieffer's approach: Yes") ∧
      (kieffer = false → k = c!" - use Kieffer's approach: No") ∧ '\n' ∉ k := by
    cases kieffer <;> exact ⟨_, rfl, by decide, by decide, by decide⟩
  obtain ⟨a, ea, a1, a2, a3⟩ := ha
  obtain ⟨k, ek, k1, k2, k3⟩ := hk
  simp only [approachLines, ea, ek, hf]
  rcases hm with rfl | rfl
  · refine ⟨[a, c!" - volume minimization: polynomial functions", k], rfl,
      ⟨a, [c!" - volume minimization: polynomial functions"], k, rfl, a1, a2, fun _ => rfl,
        fun h => absurd h (by decide), k1, k2⟩, ?_⟩
    simp only [List.forall_mem_cons, List.not_mem_nil, false_implies, implies_true, and_true]
    exact ⟨a3, by decide, k3⟩
  · refine ⟨[a, c!" - volume minimization: Equation of State (EoS)", c!" - EoS formulation: " ++ name, k], rfl,
      ⟨a, [c!" - volume minimization: Equation of State (EoS)", c!" - EoS formulation: " ++ name], k, rfl, a1, a2,
        fun h => absurd h (by decide), fun _ => rfl, k1, k2⟩, ?_⟩
    simp only [List.forall_mem_cons, List.not_mem_nil, false_implies, implies_true, and_true]
    exact ⟨a3, by decide, hn, k3⟩

/-! ### The texts -/

/-- C113: the text of a harmonic run. -/
theorem C113_harmonic (s : HaSettings) (h : UnitsOffered s.energy s.length s.frequency s.temperature) :
    ∃ rule range e v f t,
      HasLines ([[], c!"Calculator: Harmonic Approximation", [], c!"Temperature settings", rule] ++ range ++
        [[], c!"Measurement units", rule, e, v, f, t]) (haSettings s) ∧
      IsRange s.trange s.temperature range ∧ IsSetting c!"energy:" s.energy e ∧ IsSetting c!"lenght:" s.length v ∧
      IsSetting c!"frequency:" s.frequency f ∧ IsSetting c!"temperature:" s.temperature t := by
  obtain ⟨h1, h2, h3, h4⟩ := offered_tokens h
  refine ⟨_, _, _, _, _, _, ⟨?_, rfl⟩, rangeLines_spec _ _, settingLine_spec _ _ _, settingLine_spec _ _ _,
    settingLine_spec _ _ _, settingLine_spec _ _ _⟩
  have := range_newline (rangeLines_spec s.trange s.temperature) h4
  have hr : '\n' ∉ settingsRule := by decide
  have e1 := setting_newline (settingLine_spec 12 c!"energy:" s.energy) (by unfold IsToken; decide) h1
  have e2 := setting_newline (settingLine_spec 12 c!"lenght:" s.length) (by unfold IsToken; decide) h2
  have e3 := setting_newline (settingLine_spec 12 c!"frequency:" s.frequency) (by unfold IsToken; decide) h3
  have e4 := setting_newline (settingLine_spec 12 c!"temperature:" s.temperature) (by unfold IsToken; decide) h4
  intro l hl
  simp only [List.cons_append, List.nil_append, List.mem_cons, List.mem_append, List.not_mem_nil, or_false] at hl
  rcases hl with rfl | rfl | rfl | rfl | rfl | hl | rfl | rfl | rfl | rfl | rfl | rfl | rfl
  · decide
  · decide
  · decide
  · decide
  · exact hr
  · exact this l hl
  · decide
  · decide
  · exact hr
  all_goals assumption

/-- C113: the text of a quasi-harmonic run, for all the options that the command offers. -/
theorem C113_quasi_harmonic (s : QhaSettings) (h : UnitsOffered s.energy s.length s.frequency s.temperature)
    (hp : s.pressure ∈ [c!"GPa", c!"kbar"]) (hs : s.scheme ∈ [c!"freq", c!"td"])
    (hm : s.minimization ∈ [c!"poly", c!"eos"]) {form : EoS.EForm} {name : Str}
    (he : (s.eos, form, name) ∈ Command.Spec.eosChoices) :
    ∃ text rule approach dege degf ts ps e v f t p, qhaSettings s = .ok text ∧
      HasLines ([[], c!"Calculator: Quasi-Harmonic Approximation", [], c!"Quasi-Harmonic Approximation approach", rule] ++
        approach ++ [[], c!"Polynomial fitting settings (degree)", rule, dege, degf, [], c!"Temperature settings", rule] ++
        ts ++ [[], c!"Pressure settings", rule] ++ ps ++ [[], c!"Measurement units", rule, e, v, f, t, p]) text ∧
      IsApproach s.scheme s.minimization s.kieffer name approach ∧
      IsNumber c!"energy:" s.edeg dege ∧ IsNumber c!"frequency:" s.fdeg degf ∧
      IsRange s.trange s.temperature ts ∧ IsRange s.prange s.pressure ps ∧
      IsSetting c!"energy:" s.energy e ∧ IsSetting c!"lenght:" s.length v ∧ IsSetting c!"frequency:" s.frequency f ∧
      IsSetting c!"temperature:" s.temperature t ∧ IsSetting c!"pressure:" s.pressure p := by
  obtain ⟨h1, h2, h3, h4⟩ := offered_tokens h
  have h5 := pressure_token hp
  obtain ⟨approach, ha, hia, hna⟩ := approach_spec s hs hm he
  refine ⟨_, settingsRule, approach, _, _, _, _, _, _, _, _, _, by rw [qhaSettings, ha]; rfl, ⟨?_, rfl⟩, hia,
    settingLine_number _ _ _, settingLine_number _ _ _, rangeLines_spec _ _, rangeLines_spec _ _, settingLine_spec _ _ _,
    settingLine_spec _ _ _, settingLine_spec _ _ _, settingLine_spec _ _ _, settingLine_spec _ _ _⟩
  have r1 := range_newline (rangeLines_spec s.trange s.temperature) h4
  have r2 := range_newline (rangeLines_spec s.prange s.pressure) h5
  have hr : '\n' ∉ settingsRule := by decide
  have d1 := number_newline (settingLine_number 10 c!"energy:" s.edeg) (by unfold IsToken; decide)
  have d2 := number_newline (settingLine_number 10 c!"frequency:" s.fdeg) (by unfold IsToken; decide)
  have e1 := setting_newline (settingLine_spec 12 c!"energy:" s.energy) (by unfold IsToken; decide) h1
  have e2 := setting_newline (settingLine_spec 12 c!"lenght:" s.length) (by unfold IsToken; decide) h2
  have e3 := setting_newline (settingLine_spec 12 c!"frequency:" s.frequency) (by unfold IsToken; decide) h3
  have e4 := setting_newline (settingLine_spec 12 c!"temperature:" s.temperature) (by unfold IsToken; decide) h4
  have e5 := setting_newline (settingLine_spec 12 c!"pressure:" s.pressure) (by unfold IsToken; decide) h5
  simp only [List.forall_mem_append, List.forall_mem_cons, List.not_mem_nil, false_implies, implies_true, and_true]
  repeat' apply And.intro
  all_goals first | assumption | decide

/-- C113: the text of a quasi-harmonic run tells apart all the options that matter: runs with the same text have the same
scheme, minimisation, degrees and units, the same equation of state if there is one, and ranges that agree to two
decimals. -/
theorem C113_determined {s s' : QhaSettings} (h : UnitsOffered s.energy s.length s.frequency s.temperature)
    (hp : s.pressure ∈ [c!"GPa", c!"kbar"]) (hs : s.scheme ∈ [c!"freq", c!"td"])
    (hm : s.minimization ∈ [c!"poly", c!"eos"]) (he : s.eos ∈ Command.Spec.eosChoices.map Prod.fst)
    (h' : UnitsOffered s'.energy s'.length s'.frequency s'.temperature) (hp' : s'.pressure ∈ [c!"GPa", c!"kbar"])
    (hs' : s'.scheme ∈ [c!"freq", c!"td"]) (hm' : s'.minimization ∈ [c!"poly", c!"eos"])
    (he' : s'.eos ∈ Command.Spec.eosChoices.map Prod.fst) (heq : qhaSettings s = qhaSettings s') :
    s.scheme = s'.scheme ∧ s.minimization = s'.minimization ∧ (s.minimization = c!"eos" → s.eos = s'.eos) ∧
    s.kieffer = s'.kieffer ∧ s.edeg = s'.edeg ∧ s.fdeg = s'.fdeg ∧ (∀ i, Same (s.trange i) (s'.trange i)) ∧
    (∀ i, Same (s.prange i) (s'.prange i)) ∧ s.energy = s'.energy ∧ s.length = s'.length ∧
    s.frequency = s'.frequency ∧ s.temperature = s'.temperature ∧ s.pressure = s'.pressure := by
  obtain ⟨h1, h2, h3, h4⟩ := offered_tokens h
  have h5 := pressure_token hp
  obtain ⟨k1, k2, k3, k4⟩ := offered_tokens h'
  have k5 := pressure_token hp'
  obtain ⟨⟨eos, form, name⟩, hc, (ee : eos = s.eos)⟩ := List.mem_map.1 he
  obtain ⟨⟨eos', form', name'⟩, hc', (ee' : eos' = s'.eos)⟩ := List.mem_map.1 he'
  subst ee ee'
  obtain ⟨text, rule, approach, dege, degf, ts, ps, e, v, f, t, p, q0, q1, ⟨a, m, k, ra, a1, a2, a3, a4, a5, a6⟩, q3, q4,
    q5, q6, q7, q8, q9, q10, q11⟩ := C113_quasi_harmonic s h hp hs hm hc
  obtain ⟨text', rule', approach', dege', degf', ts', ps', e', v', f', t', p', w0, w1,
    ⟨a', m', k', ra', b1, b2, b3, b4, b5, b6⟩, w3, w4,
    w5, w6, w7, w8, w9, w10, w11⟩ := C113_quasi_harmonic s' h' hp' hs' hm' hc'
  rw [q0, w0, Except.ok.injEq] at heq
  subst heq
  have hl := hasLines_unique q1 w1
  have ht := range_length q5
  have ht' := range_length w5
  have hq := range_length q6
  have hq' := range_length w6
  have hlen : approach.length = approach'.length := by
    have := congrArg List.length hl
    simp only [List.length_append, List.length_cons, List.length_nil] at this
    omega
  simp only [List.append_assoc, List.cons_append, List.nil_append, List.cons.injEq, true_and] at hl
  obtain ⟨hr, hl⟩ := hl
  obtain ⟨happ, hl⟩ := List.append_inj hl hlen
  simp only [List.cons.injEq, true_and] at hl
  obtain ⟨-, rfl, rfl, -, hl⟩ := hl
  obtain ⟨hts, hl⟩ := List.append_inj hl (ht.trans ht'.symm)
  simp only [List.cons.injEq, true_and] at hl
  obtain ⟨-, hl⟩ := hl
  obtain ⟨hps, hl⟩ := List.append_inj hl (hq.trans hq'.symm)
  simp only [List.cons.injEq, true_and, and_true] at hl
  obtain ⟨-, rfl, rfl, rfl, rfl, rfl⟩ := hl
  subst hts hps
  rw [ra, ra', List.cons.injEq] at happ
  obtain ⟨rfl, happ⟩ := happ
  obtain ⟨hmm, hkk⟩ := List.append_inj' happ rfl
  simp only [List.cons.injEq, and_true] at hkk
  subst hkk hmm
  refine ⟨?_, ?_, ?_, ?_, number_unique q3 w3 (by unfold IsToken; decide), number_unique q4 w4 (by unfold IsToken; decide),
    range_unique q5 w5 h4 k4, range_unique q6 w6 h5 k5, setting_unique q7 w7 (by unfold IsToken; decide) h1 k1,
    setting_unique q8 w8 (by unfold IsToken; decide) h2 k2, setting_unique q9 w9 (by unfold IsToken; decide) h3 k3,
    setting_unique q10 w10 (by unfold IsToken; decide) h4 k4, setting_unique q11 w11 (by unfold IsToken; decide) h5 k5⟩
  · simp only [List.mem_cons, List.not_mem_nil, or_false] at hs hs'
    rcases hs with x | x <;> rcases hs' with y | y
    · rw [x, y]
    · exact absurd ((a1 x).symm.trans (b2 y)) (by decide)
    · exact absurd ((a2 x).symm.trans (b1 y)) (by decide)
    · rw [x, y]
  · simp only [List.mem_cons, List.not_mem_nil, or_false] at hm hm'
    rcases hm with x | x <;> rcases hm' with y | y
    · rw [x, y]
    · exact absurd ((a3 x).symm.trans (b4 y)) (by simp)
    · exact absurd ((a4 x).symm.trans (b3 y)) (by simp)
    · rw [x, y]
  · intro x
    simp only [List.mem_cons, List.not_mem_nil, or_false] at hm'
    rcases hm' with y | y
    · exact absurd ((a4 x).symm.trans (b3 y)) (by simp)
    · have := (a4 x).symm.trans (b4 y)
      simp only [List.cons.injEq, true_and, and_true, List.append_cancel_left_eq] at this
      simp only [Command.Spec.eosChoices, List.mem_cons, List.not_mem_nil, or_false, Prod.mk.injEq] at hc hc'
      rcases hc with ⟨x1, -, x2⟩ | ⟨x1, -, x2⟩ | ⟨x1, -, x2⟩ | ⟨x1, -, x2⟩ <;>
      rcases hc' with ⟨y1, -, y2⟩ | ⟨y1, -, y2⟩ | ⟨y1, -, y2⟩ | ⟨y1, -, y2⟩ <;>
      first
      | exact x1.trans y1.symm
      | exact absurd (x2.symm.trans (this.trans y2)) (by decide)
  · cases x : s.kieffer <;> cases y : s'.kieffer
    · rfl
    · exact absurd ((a6 x).symm.trans (b5 y)) (by decide)
    · exact absurd ((a5 x).symm.trans (b6 y)) (by decide)
    · rfl

/-- C113: the text of a seismic run. -/
theorem C113_seismic (s : SeismicSettings) (hp : s.pressure ∈ [c!"GPa", c!"kbar"]) :
    ∃ rule a b c plotting, HasLines ([[], c!"Calculator: wave velocities from Christoffel's equation", [],
        c!"Number of angular points", rule, a, b, [], c!"Measurement units", rule, c, [], c!"Plotting", rule] ++ plotting)
        (seismicSettings s) ∧
      IsNumber c!"ntheta:" s.ntheta a ∧ IsNumber c!"nphi:" s.nphi b ∧ IsSetting c!"pressure:" s.pressure c ∧
      (s.plotting = false → ∃ l, plotting = [l] ∧ IsSetting c!"requested:" c!"False" l) ∧
      (s.plotting = true → ∃ l d x y proj, plotting = [l, d, x, y] ++ proj ∧ IsSetting c!"requested:" c!"True" l ∧
        IsNumber c!"dpi:" s.dpi d ∧ IsSetting c!"3D plots:" (if s.three then c!"True" else c!"False") x ∧
        IsSetting c!"2D plots:" (if s.two then c!"True" else c!"False") y ∧
        (s.two = false → proj = []) ∧
        (s.two = true → s.projection = c!"eqar" → ∃ l, proj = [l] ∧ IsSetting c!"projection:" c!"Lambert equal area" l) ∧
        (s.two = true → s.projection = c!"stereo" → ∃ l, proj = [l] ∧ IsSetting c!"projection:" c!"stereographic" l)) := by
  have h5 := pressure_token hp
  have hr : '\n' ∉ settingsRule := by decide
  have d1 := number_newline (settingLine_number 12 c!"ntheta:" s.ntheta) (by unfold IsToken; decide)
  have d2 := number_newline (settingLine_number 12 c!"nphi:" s.nphi) (by unfold IsToken; decide)
  have d3 := number_newline (settingLine_number 12 c!"dpi:" s.dpi) (by unfold IsToken; decide)
  have d4 := setting_newline (settingLine_spec 12 c!"pressure:" s.pressure) (by unfold IsToken; decide) h5
  have hb : ∀ b, '\n' ∉ settingLine 12 c!"3D plots:" (showBool b) ∧ '\n' ∉ settingLine 12 c!"2D plots:" (showBool b) := by
    decide
  refine ⟨_, _, _, _, _, ⟨?_, rfl⟩, settingLine_number _ _ _, settingLine_number _ _ _, settingLine_spec _ _ _, ?_, ?_⟩
  · have hpl : ∀ l ∈ plottingLines s, '\n' ∉ l := by
      unfold plottingLines
      cases s.plotting
      · simp only [Bool.false_eq_true, if_false]
        decide
      · simp only [if_true, List.forall_mem_append, List.forall_mem_cons, List.not_mem_nil, false_implies, implies_true,
          and_true]
        refine ⟨by decide, ⟨d3, (hb _).1, (hb _).2⟩, ?_⟩
        cases s.two
        · simp
        · by_cases hx : s.projection = c!"eqar"
          · rw [if_pos hx]; decide
          · rw [if_neg hx]; decide
    simp only [List.forall_mem_append, List.forall_mem_cons, List.not_mem_nil, false_implies, implies_true, and_true]
    repeat' apply And.intro
    all_goals first | assumption | decide
  · intro h
    exact ⟨_, by simp only [plottingLines, h]; rfl, settingLine_spec _ _ _⟩
  · intro h
    refine ⟨_, _, _, _, _, by simp only [plottingLines, h, if_true]; rfl, settingLine_spec _ _ _, settingLine_number _ _ _,
      settingLine_spec _ _ _, settingLine_spec _ _ _, ?_, ?_, ?_⟩
    · intro h2; rw [h2]; rfl
    · intro h2 h3
      rw [h2, h3]
      exact ⟨_, rfl, settingLine_spec _ _ _⟩
    · intro h2 h3
      rw [h2, h3]
      exact ⟨_, rfl, settingLine_spec 12 _ _⟩

/-- C113: the texts of the elastic and of the equation-of-state calculator, for the units they offer. -/
theorem C113_elastic_eos :
    (∃ rule p, HasLines [[], c!"Calculator: Second-order elastic moduli analysis", [], c!"Measurement units", rule, p]
      (soecSettings c!"GPa") ∧ IsSetting c!"pressure:" c!"GPa" p) ∧
    ∃ rule p v, HasLines [[], c!"Calculator: Equation of state (EoS) fitting", [], c!"Measurement units", rule, p, v]
      (eosSettings c!"GPa" c!"A") ∧ IsSetting c!"pressure:" c!"GPa" p ∧ IsSetting c!"lenght:" c!"A" v :=
  ⟨⟨settingsRule, _, ⟨by decide, rfl⟩, settingLine_spec _ _ _⟩,
    ⟨settingsRule, _, _, ⟨by decide, rfl⟩, settingLine_spec _ _ _, settingLine_spec _ _ _⟩⟩


/-- Options of a run with an equation of state, in units other than the default ones. -/
def exSettings : QhaSettings where
  trange := ![0, 2000, 1 / 3]
  energy := c!"eV"
  length := c!"bohr"
  frequency := c!"THz"
  temperature := c!"C"
  scheme := c!"freq"
  minimization := c!"eos"
  kieffer := false
  edeg := 3
  fdeg := 2
  eos := c!"V"
  prange := ![0, 10, 5 / 2]
  pressure := c!"kbar"

/-- The hypotheses of the theorems, and another run that is told apart by its text. -/
example : UnitsOffered exSettings.energy exSettings.length exSettings.frequency exSettings.temperature ∧
    (exSettings.eos, EoS.EForm.vinet, c!"3rd-order Vinet") ∈ Command.Spec.eosChoices ∧
    qhaSettings exSettings ≠ qhaSettings { exSettings with eos := c!"BM" } := by
  have hu : UnitsOffered exSettings.energy exSettings.length exSettings.frequency exSettings.temperature :=
    ⟨by decide, by decide, by decide, by decide⟩
  refine ⟨hu, by simp [exSettings, Command.Spec.eosChoices], fun h => ?_⟩
  have := (C113_determined (s' := { exSettings with eos := c!"BM" }) hu (by decide) (by decide) (by decide) (by decide) hu (by decide) (by decide) (by decide)
    (by decide) h).2.2.1 rfl
  exact absurd this (by decide)

end Verif.Report
