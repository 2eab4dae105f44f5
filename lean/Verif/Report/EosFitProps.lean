/-
C107 and C108: the reports of the equation-of-state calculator.
-/
import Verif.IO.EoSProps
import Verif.Report.Cells
import Verif.Report.EosFitSpec

noncomputable section

namespace Verif.Report
open Verif.Py Verif.IO Verif.IO.Spec Verif.Phonon Verif.Export Verif.EoS Spec

theorem item_ok {α : Type} {xs : List α} {i : ℕ} {x : α} (h : xs[i]? = some x) : item xs i = .ok x := by
  rw [item, h]

theorem collect_ok {α : Type} {l : List α} {f : α → Except PyErr Str} {g : α → Str}
    (h : ∀ a ∈ l, f a = .ok (g a)) : collect (l.map f) = .ok (l.map g) := by
  induction l with
  | nil => rfl
  | cons a l ih =>
    rw [List.map_cons, h a (by simp), collect, ih fun b hb => h b (by simp [hb])]
    rfl

/-- A loop over `n` indices whose turns succeed and satisfy `P`. -/
theorem collect_range {n : ℕ} {f : ℕ → Except PyErr Str} {P : ℕ → Str → Prop}
    (h : ∀ i < n, ∃ l, f i = .ok l ∧ P i l) :
    ∃ ls, collect ((List.range n).map f) = .ok ls ∧ ls.length = n ∧ ∀ (i : ℕ) l, ls[i]? = some l → P i l := by
  choose g hg hp using h
  refine ⟨(List.range n).map fun i => if hi : i < n then g i hi else [], collect_ok fun i hi => ?_, by simp, ?_⟩
  · rw [List.mem_range] at hi
    simp only [hi, dif_pos, hg]
  · intro i l hl
    simp only [List.getElem?_map, Option.map_eq_some_iff] at hl
    obtain ⟨j, hj, rfl⟩ := hl
    obtain ⟨hi, rfl⟩ := List.getElem?_eq_some_iff.1 hj
    rw [List.length_range] at hi
    simp only [List.getElem_range]
    simp only [hi, dif_pos, hp]

theorem get_some {α : Type} {xs : List α} {i n : ℕ} (h : xs.length = n) (hi : i < n) : ∃ x, xs[i]? = some x :=
  ⟨_, List.getElem?_eq_getElem (by omega)⟩

theorem blank_two : Blank c!"  " := by
  intro c hc
  simp at hc
  exact .inl hc

/-! ### C108: the input -/

theorem inputCell_spec {x : Option (List ℚ)} {i : ℕ} (h : ∀ xs, x = some xs → i < xs.length) :
    ∃ l t, inputCell x i = .ok (c!"  " ++ l) ∧ Cell t l ∧ Entry x i t := by
  cases x with
  | none => exact ⟨_, _, rfl, cell_center 10 _, rfl⟩
  | some xs =>
    obtain ⟨x, hx⟩ := get_some rfl (h xs rfl)
    refine ⟨center 10 (formatFixed 5 x), formatFixed 5 x, ?_, cell_center 10 _, ?_⟩
    · simp only [inputCell, item_ok hx]; rfl
    · exact ⟨x, _, hx, printed_rounded 5 x, formatFixed_numeral 5 x⟩

/-- C108: the table has one line per point with the pressure to three decimals, the structural data to five, and
`--` for the quantities that were not given; below it the quantities with weights are listed. -/
theorem C108_table (vunit punit : Str) {d : EoSData} {p : List ℚ} (hp : d.get .pressure = some p)
    (hd : ∀ q ∈ [Quantity.volume, .a, .b, .c], ∀ xs, d.get q = some xs → xs.length = p.length) :
    ∃ titles rule rows weights,
      reportInput vunit punit d = .ok ([[], c!"Job: " ++ d.job, [], titles, rule] ++ rows ++ [[]] ++ weights ++ [[]]) ∧
      Tokens [c!"P (GPa)", c!"V (A^3)", c!"a (A)", c!"b (A)", c!"c (A)"] titles ∧
      rows.length = p.length ∧ (∀ (i : ℕ) l, rows[i]? = some l → IsInputRow d p i l) ∧
      ∀ l, l ∈ weights ↔ ∃ q name, weightName q = some name ∧ (d.get q).isSome ∧
        l = c!" - Found weights for " ++ name := by
  obtain ⟨rows, h1, h2, h3⟩ := collect_range (n := p.length) (f := inputLine d p) (P := IsInputRow d p) fun i hi => by
    obtain ⟨x, hx⟩ := get_some rfl hi
    have hl : ∀ q ∈ [Quantity.volume, .a, .b, .c], ∀ xs, d.get q = some xs → i < xs.length := fun q hq xs h => by
      rw [hd q hq xs h]; exact hi
    obtain ⟨lv, tv, v1, v2, v3⟩ := inputCell_spec (hl .volume (by simp))
    obtain ⟨la, ta, a1, a2, a3⟩ := inputCell_spec (hl .a (by simp))
    obtain ⟨lb, tb, b1, b2, b3⟩ := inputCell_spec (hl .b (by simp))
    obtain ⟨lc, tc, c1, c2, c3⟩ := inputCell_spec (hl .c (by simp))
    refine ⟨_, by simp only [inputLine, item_ok hx, v1, a1, b1, c1]; rfl, x, _, _, tv, ta, tb, tc, hx,
      printed_rounded 3 x, formatFixed_numeral 3 x, v3, a3, b3, c3, ?_⟩
    have := tokens_next (cell_center 10 (formatFixed 3 x)) (tokens_next (cell_before blank_space_one v2)
      (tokens_next (cell_before blank_space_one a2) (tokens_next (cell_before blank_space_one b2)
        (tokens_last (cell_before blank_space_one c2)))))
    simpa using this
  refine ⟨inputTitles, inputRule, rows, weightLines d, ?_, ?_, h2, h3, ?_⟩
  · simp only [reportInput, hp, h1]; rfl
  · have := tokens_next (cell_center 10 c!"P (GPa)") (tokens_next (cell_before blank_space_one (cell_center 10 c!"V (A^3)"))
      (tokens_next (cell_before blank_space_one (cell_center 10 c!"a (A)"))
        (tokens_next (cell_before blank_space_one (cell_center 10 c!"b (A)"))
          (tokens_last (cell_before blank_space_one (cell_center 10 c!"c (A)"))))))
    simpa [inputTitles] using this
  · intro l
    simp only [weightLines, List.mem_append]
    constructor
    · rintro ((((h | h) | h) | h) | h) <;> split at h <;> simp only [List.mem_singleton, List.not_mem_nil] at h <;>
        rename_i hs
      · exact ⟨.sigmaP, _, rfl, hs, h⟩
      · exact ⟨.sigmaV, _, rfl, hs, h⟩
      · exact ⟨.sigmaA, _, rfl, hs, h⟩
      · exact ⟨.sigmaB, _, rfl, hs, h⟩
      · exact ⟨.sigmaC, _, rfl, hs, h⟩
    · rintro ⟨q, name, hn, hs, rfl⟩
      cases q <;> simp only [weightName, Option.some.injEq, reduceCtorEq] at hn <;> subst hn <;> simp [hs]

theorem not_rounded {d : ℕ} {x y q : ℚ} (h : Rounded d x q) (hxy : 1 / 10 ^ d < |x - y|) : ¬ Rounded d y q := by
  intro h'
  have b1 := h.2
  have b2 := h'.2
  have h3 := abs_sub (q - y) (q - x)
  rw [show q - y - (q - x) = x - y by ring] at h3
  have : (1 : ℚ) / (2 * 10 ^ d) + 1 / (2 * 10 ^ d) = 1 / 10 ^ d := by
    field_simp
    norm_num
  linarith

/-- C108: a file with pressures is accepted when it has at least one column of structural data, refused with a
message when it has none, and the report of an accepted file has one line per row of the file. -/
theorem C108_file (vunit punit : Str) {names : List Str} {rows : List (List ℚ)} {title : Option Str}
    {js ls : List Str} {text : Str} (hj : match title with | some t => JobSection t js | none => js = [])
    (h : FormatData names.length names rows ls) (hf : IsText (js ++ ls) text)
    (hdis : (names.map lower).Nodup) (hp : c!"p" ∈ names.map lower) (hu : title ≠ some c!"Unknown") :
    ∃ d' e, readInput text .initial = .ok (d', e) ∧
      (e = none ↔ ∃ n ∈ names.map lower, n = c!"v" ∨ n = c!"a" ∨ n = c!"b" ∨ n = c!"c") ∧
      (e ≠ none → e = some .noStructure) ∧
      ∃ p before lines after, reportInput vunit punit d' = .ok (before ++ lines ++ after) ∧
        c!"Job: " ++ title.getD c!"Unknown" ∈ before ∧ lines.length = rows.length ∧
        (∀ (i : ℕ) l, lines[i]? = some l → IsInputRow d' p i l) ∧
        ∀ n (hn : n < names.length), (lower names[n] = c!"p" → p = rows.map fun r => r.getD n 0) ∧
          ∀ q : IO.Quantity, lower names[n] = q.key → d'.get q = some (rows.map fun r => r.getD n 0) := by
  obtain ⟨d', e1, c1, c2, c3⟩ := C50_columns_partial hj h hf hdis hp (d := .initial) rfl rfl hu
  obtain ⟨np, hnp, enp⟩ := List.getElem_of_mem hp
  rw [List.length_map] at hnp
  rw [List.getElem_map] at enp
  have hpress := c1 .pressure np hnp enp
  have some_iff : ∀ q : IO.Quantity, (d'.get q).isSome ↔ q.key ∈ names.map lower := by
    intro q
    by_cases hq : q.key ∈ names.map lower
    · obtain ⟨n, hn, e⟩ := List.getElem_of_mem hq
      rw [List.length_map] at hn
      rw [List.getElem_map] at e
      simp [c1 q n hn e, hq]
    · rw [c2 q hq]
      simp [hq, EoSData.get, EoSData.initial]
  have hlen : ∀ q : IO.Quantity, ∀ xs, d'.get q = some xs → xs.length = rows.length := by
    intro q xs hx
    have hq : q.key ∈ names.map lower := (some_iff q).1 (by simp [hx])
    obtain ⟨n, hn, e⟩ := List.getElem_of_mem hq
    rw [List.length_map] at hn
    rw [List.getElem_map] at e
    rw [c1 q n hn e, Option.some.injEq] at hx
    rw [← hx, List.length_map]
  obtain ⟨titles, rule, lines, weights, r1, -, r3, r4, -⟩ := C108_table vunit punit hpress
    (fun q _ xs hx => by rw [hlen q xs hx, List.length_map])
  have hq4 : ([Quantity.volume, .a, .b, .c].filter fun q => (d'.get q).isNone).length = 4 ↔
      ∀ q ∈ [Quantity.volume, .a, .b, .c], d'.get q = none := by
    rw [show 4 = [Quantity.volume, .a, .b, .c].length from rfl, List.length_filter_eq_length_iff]
    simp
  have hle : ([Quantity.volume, .a, .b, .c].filter fun q => (d'.get q).isNone).length ≤ 4 := List.length_filter_le _ _
  refine ⟨d', _, by simp only [readInput, e1]; rfl, ?_, ?_, _,
    [[], c!"Job: " ++ d'.job, [], titles, rule], lines, [[]] ++ weights ++ [[]], ?_, ?_, by rw [r3, List.length_map], r4, ?_⟩
  · have : (4 - ([Quantity.volume, .a, .b, .c].filter fun q => (d'.get q).isNone).length = 0) ↔
        ¬ ∃ n ∈ names.map lower, n = c!"v" ∨ n = c!"a" ∨ n = c!"b" ∨ n = c!"c" := by
      rw [Nat.sub_eq_zero_iff_le, (by omega : ∀ k : ℕ, k ≤ 4 → (4 ≤ k ↔ k = 4)) _ hle, hq4]
      constructor
      · rintro hn ⟨n, hmem, hn'⟩
        have key : ∀ q ∈ [Quantity.volume, .a, .b, .c], q.key ∉ names.map lower := fun q hq hk => by
          have := (some_iff q).2 hk
          rw [hn q hq] at this
          cases this
        rcases hn' with rfl | rfl | rfl | rfl
        · exact key .volume (by simp) hmem
        · exact key .a (by simp) hmem
        · exact key .b (by simp) hmem
        · exact key .c (by simp) hmem
      · intro hn q hq
        by_contra hne
        have hk := (some_iff q).1 (Option.isSome_iff_ne_none.2 hne)
        refine hn ⟨_, hk, ?_⟩
        simp only [List.mem_cons, List.not_mem_nil, or_false] at hq
        rcases hq with rfl | rfl | rfl | rfl <;> decide
    by_cases hq : (4 - ([Quantity.volume, .a, .b, .c].filter fun q => (d'.get q).isNone).length = 0)
    · rw [if_pos hq]
      simpa using this.1 hq
    · rw [if_neg hq]
      exact ⟨fun _ => not_not.1 ((not_congr this).1 hq), fun _ => rfl⟩
  · split <;> simp
  · rw [r1]; simp only [List.append_assoc]
  · rw [c3]; simp
  · intro n hn
    refine ⟨fun hk => ?_, fun q hk => c1 q n hn hk⟩
    have := c1 .pressure n hn hk
    rw [hpress, Option.some.injEq] at this
    exact this

/-! ### C107: the fit -/

theorem numbers_of {ts : List Str} {qs : List ℚ} {l : Str} (h : Tokens ts l) (hq : List.Forall₂ Numeral ts qs) :
    Numbers qs l := ⟨ts, h, hq⟩

theorem fitLine_spec {values pressure : List ℚ} {r : Output} {i : ℕ} {v d p y e : ℚ} (hv : values[i]? = some v)
    (hd : r.delta[i]? = some d) (hp : pressure[i]? = some p) (hy : r.y[i]? = some y) (he : r.eps[i]? = some e) :
    ∃ l, fitLine values pressure r i = .ok l ∧ IsFitRow [v, d, p, y, e] l := by
  refine ⟨_, by simp only [fitLine, item_ok hv, item_ok hd, item_ok hp, item_ok hy, item_ok he]; rfl,
    [v, d, p, y, e].map (printed 5), ?_, ?_⟩
  · rw [List.forall₂_map_right_iff]
    exact List.forall₂_same.2 fun x _ => printed_rounded 5 x
  · refine numbers_of (ts := [v, d, p, y, e].map (formatFixed 5)) ?_ ?_
    · have := tokens_next (cell_center 15 (formatFixed 5 v)) (tokens_next (cell_padded (cell_spaced 5 d) 15)
        (tokens_next (cell_center 15 (formatFixed 5 p)) (tokens_next (cell_center 15 (formatFixed 5 y))
          (tokens_last (cell_padded (cell_spaced 5 e) 15)))))
      simpa using this
    · rw [List.forall₂_map_left_iff, List.forall₂_map_right_iff]
      exact List.forall₂_same.2 fun x _ => formatFixed_numeral 5 x

theorem covarianceLine_spec {r : Output} {i : ℕ} {row : List ℚ} (hr : r.covBeta[i]? = some row) (hl : row.length = 4) :
    ∃ l, covarianceLine r i = .ok l ∧ IsCovariance row l := by
  match row, hl with
  | [a, b, c, d], _ =>
    refine ⟨_, by simp only [covarianceLine, item_ok hr]; rfl, [a, b, c, d].map (printedSci 5), ?_, ?_⟩
    · rw [List.forall₂_map_right_iff]
      exact List.forall₂_same.2 fun x _ => printedSci_significant 5 x
    · refine numbers_of (ts := [a, b, c, d].map (sciLower 5)) ?_ ?_
      · have key : ∀ x, Cell (sciLower 5 x) (alignRight 12 (sciSpaced 5 x)) := fun x => cell_right (cell_sciSpaced 5 x) 12
        have := tokens_next (cell_before blank_two (key a)) (tokens_next (key b) (tokens_next (key c) (tokens_last (key d))))
        simpa using this
      · rw [List.forall₂_map_left_iff, List.forall₂_map_right_iff]
        exact List.forall₂_same.2 fun x _ => sciLower_numeral 5 x

theorem parameterLine_spec {r : Output} {order : ℕ} {fix : List ℕ} {labels : List Str} {i : ℕ} {label : Str} {b s : ℚ}
    {f : ℕ} {imp : List ℕ} (hl : labels[i]? = some label) (hb : r.beta[i]? = some b) (hs : r.sdBeta[i]? = some s)
    (hf : fix[i]? = some f) (ho : implied order = .ok imp) :
    ∃ l, parameterLine r order fix labels i = .ok l ∧ IsParameter label b s (f = 0) (i ∈ imp) l := by
  refine ⟨_, by simp only [parameterLine, item_ok hl, item_ok hb, item_ok hs, item_ok hf, ho]; rfl,
    printed 5 b, printed 5 s, formatFixed 5 b, formatFixed 5 s,
    (if f = 0 then [c!"(FIXED)"] else []) ++ (if i ∈ imp then [c!"[IMPLIED]"] else []),
    printed_rounded 5 b, printed_rounded 5 s, formatFixed_numeral 5 b, formatFixed_numeral 5 s, ?_, ?_, ?_⟩
  · intro x
    by_cases h1 : f = 0 <;> by_cases h2 : i ∈ imp <;> simp [h1, h2]
  · by_cases h1 : f = 0 <;> by_cases h2 : i ∈ imp <;> simp [h1, h2]
  · have tail : Tokens ([formatFixed 5 s] ++ ((if f = 0 then [c!"(FIXED)"] else []) ++
        (if i ∈ imp then [c!"[IMPLIED]"] else []))) (alignRight 10 (formatSpaced 5 s) ++
        (if f = 0 then c!" (FIXED)" else []) ++ if i ∈ imp then c!" [IMPLIED]" else []) := by
      have c := cell_right (cell_spaced 5 s) 10
      by_cases h1 : f = 0 <;> by_cases h2 : i ∈ imp <;> simp only [h1, h2, if_true, if_false]
      · simpa using tokens_next c (tokens_next (cell_self c!"(FIXED)") (tokens_last (cell_self c!"[IMPLIED]")))
      · simpa using tokens_next c (tokens_last (cell_self c!"(FIXED)"))
      · simpa using tokens_next c (tokens_last (cell_self c!"[IMPLIED]"))
      · simpa using tokens_last c
    have := tokens_next (cell_before blank_two (cell_left label 6)) (tokens_next (cell_self c!"=")
      (tokens_next (cell_right (cell_spaced 5 b) 10) (tokens_next (cell_self c!"+/-") tail)))
    simpa [List.append_assoc] using this

/-- C107: the report of a fit lists the parameters with their labels, errors and flags, the covariance, and one
line per point with the value, its correction, the pressure of the input, the pressure of the fit and
the difference of the two, all correctly rounded. -/
theorem C107_report_partial (vunit punit : Str) {pressure values : List ℚ} {r : Output} (hr : IsOutput r values pressure)
    (ch : Choice) (eosName : Str) {order : ℕ} (ho : 2 ≤ order ∧ order ≤ 4)
    (wP wV : Bool) (fixed : Fin 4 → Bool) :
    ∃ head parameters covariance variance stops titles rule rows,
      reportSelected vunit punit pressure r values ch.key eosName order wP wV
          ((List.ofFn fixed).map fun b => if b then 0 else 1) =
        .ok (head ++ [c!"Fitting parameters:"] ++ parameters ++ [[], c!"Covariance matrix:"] ++ covariance ++
          [[], variance, [], c!"Exited ODR loop because:"] ++ stops ++
          [[], c!"Calculated data:\n", titles, rule] ++ rows ++ [[], frame, []]) ∧
      parameters.length = 4 ∧
      (∀ (i : Fin 4) b s l, r.beta[i.1]? = some b → r.sdBeta[i.1]? = some s → parameters[i.1]? = some l →
        IsParameter (ch.parameter i) b s (fixed i = true) (i = 1 ∧ order = 2 ∨ i = 2 ∧ order ≤ 3) l) ∧
      covariance.length = 4 ∧
      (∀ (i : ℕ) row l, r.covBeta[i]? = some row → covariance[i]? = some l → IsCovariance row l) ∧
      (∃ q t, Rounded 4 r.resVar q ∧ Numeral t q ∧ Tokens [c!"Residual variance:", t] variance) ∧
      (∃ t, Digits t ∧ natOf t = order ∧ c!"      EOS order: " ++ t ∈ head) ∧
      c!"EOS formulation: " ++ eosName ∈ head ∧
      (c!"Results weighted for pressure" ∈ head ↔ wP = true) ∧
      (c!"Results not weighted for pressure" ∈ head ↔ wP = false) ∧
      (c!"Results not weighted for for " ++ ch.name ∈ head ↔ wV = false) ∧
      (c!"Results weighted for " ++ ch.name ∈ head ↔ wV = true) ∧
      (∃ t, Tokens [c!"EOS results for " ++ ch.name ++ c!" fitting"] t ∧ '#' :: t ++ ['#'] ∈ head) ∧
      stops.length = r.stopreason.length ∧
      (∀ (i : ℕ) s, r.stopreason[i]? = some s → ∃ t, Digits t ∧ natOf t = i + 1 ∧
        stops[i]? = some (c!"  " ++ t ++ c!". " ++ s)) ∧
      Tokens [ch.title vunit, ch.eps, c!"Pressure (GPa)", c!"P_obs (GPa)", c!"eps_P"] titles ∧
      rows.length = values.length ∧
      ∀ (i : ℕ) v d p y e l, values[i]? = some v → r.delta[i]? = some d → pressure[i]? = some p → r.y[i]? = some y →
        r.eps[i]? = some e → rows[i]? = some l → IsFitRow [v, d, p, y, e] l := by
  obtain ⟨imp, himp, hmem⟩ : ∃ imp, implied order = .ok imp ∧
      ∀ i : Fin 4, i.1 ∈ imp ↔ (i = 1 ∧ order = 2 ∨ i = 2 ∧ order ≤ 3) := by
    obtain ⟨o1, o2⟩ := ho
    interval_cases order
    · exact ⟨_, rfl, by decide⟩
    · exact ⟨_, rfl, by decide⟩
    · exact ⟨_, rfl, by decide⟩
  have hlab : (getLabel ch.key).length = 4 := by unfold getLabel; split <;> rfl
  have hname : dataName ch.key = .ok ch.name := by cases ch <;> rfl
  have hpar : ∀ i : Fin 4, (getLabel ch.key).getD i [] = ch.parameter i := by
    intro i; cases ch <;> fin_cases i <;> rfl
  set fix := (List.ofFn fixed).map fun b => if b then 0 else 1 with hfix
  have hfixlen : fix.length = 4 := by simp [hfix]
  obtain ⟨ps, p1, p2, p3⟩ := collect_range (n := r.beta.length) (f := parameterLine r order fix (getLabel ch.key))
    (P := fun i l => ∀ b s, r.beta[i]? = some b → r.sdBeta[i]? = some s → ∀ h : i < 4,
      IsParameter ((getLabel ch.key).getD i []) b s (fixed ⟨i, h⟩ = true) (i ∈ imp) l) fun i hi => by
    rw [hr.beta_len] at hi
    obtain ⟨label, hl⟩ := get_some hlab hi
    obtain ⟨b, hb⟩ := get_some hr.beta_len hi
    obtain ⟨s, hs⟩ := get_some hr.sdBeta_len hi
    have hf : fix[i]? = some (if fixed ⟨i, hi⟩ then 0 else 1) := by
      rw [hfix, List.getElem?_map, List.getElem?_ofFn, dif_pos hi]
      rfl
    obtain ⟨l, h1, h2⟩ := parameterLine_spec hl hb hs hf himp
    refine ⟨l, h1, fun b' s' hb' hs' h => ?_⟩
    rw [hb, Option.some.injEq] at hb'
    rw [hs, Option.some.injEq] at hs'
    subst hb' hs'
    rw [List.getD_eq_getElem?_getD, hl]
    have : ((if fixed ⟨i, hi⟩ = true then 0 else 1) = 0) ↔ fixed ⟨i, h⟩ = true := by
      by_cases h : fixed ⟨i, hi⟩ = true <;> simp [h]
    obtain ⟨b', s', tb, ts, fl, g1, g2, g3, g4, g5, g6⟩ := h2
    exact ⟨b', s', tb, ts, fl, g1, g2, g3, g4, fun f => by rw [g5, this], g6⟩
  obtain ⟨cs, c1, c2, c3⟩ := collect_range (n := r.beta.length) (f := covarianceLine r)
    (P := fun i l => ∀ row, r.covBeta[i]? = some row → IsCovariance row l) fun i hi => by
    rw [hr.beta_len] at hi
    obtain ⟨row, hrow⟩ := get_some hr.cov_len hi
    obtain ⟨l, h1, h2⟩ := covarianceLine_spec hrow (hr.row_len row (List.mem_of_getElem? hrow))
    refine ⟨l, h1, fun row' h => ?_⟩
    rw [hrow, Option.some.injEq] at h
    exact h ▸ h2
  obtain ⟨rs, r1, r2, r3⟩ := collect_range (n := values.length) (f := fitLine values pressure r)
    (P := fun i l => ∀ v d p y e, values[i]? = some v → r.delta[i]? = some d → pressure[i]? = some p →
      r.y[i]? = some y → r.eps[i]? = some e → IsFitRow [v, d, p, y, e] l) fun i hi => by
    obtain ⟨v, hv⟩ := get_some rfl hi
    obtain ⟨d, hd⟩ := get_some hr.delta_len hi
    obtain ⟨p, hp⟩ := get_some hr.pressure_len hi
    obtain ⟨y, hy⟩ := get_some hr.y_len hi
    obtain ⟨e, he⟩ := get_some hr.eps_len hi
    obtain ⟨l, h1, h2⟩ := fitLine_spec hv hd hp hy he
    refine ⟨l, h1, fun v' d' p' y' e' a1 a2 a3 a4 a5 => ?_⟩
    rw [hv, Option.some.injEq] at a1
    rw [hd, Option.some.injEq] at a2
    rw [hp, Option.some.injEq] at a3
    rw [hy, Option.some.injEq] at a4
    rw [he, Option.some.injEq] at a5
    subst a1 a2 a3 a4 a5
    exact h2
  obtain ⟨c, hc⟩ : ∃ c, ch.name[0]? = some c ∧ c!"eps_" ++ [c] = ch.eps := by
    cases ch <;> exact ⟨_, rfl, rfl⟩
  have htitle : valueLabel vunit ch.name = ch.title vunit := by cases ch <;> rfl
  refine ⟨(fitHead ch.name eosName order wP wV).dropLast, ps, cs,
    c!"Residual variance: " ++ alignRight 6 (formatFixed 4 r.resVar),
    r.stopreason.zipIdx.map fun s => c!"  " ++ showNat (s.2 + 1) ++ c!". " ++ s.1,
    _, fitRule, rs, by
      simp only [reportSelected, hname, reportFit, fitTitles, bind, Except.bind, p1, c1, r1, item_ok hc.1]
      rfl, by rw [p2, hr.beta_len], ?_, by rw [c2, hr.beta_len],
    fun i row l h1 h2 => c3 i l h2 row h1, ?_, ⟨showNat order, (showNat_spec order).1, ?_, ?_⟩, ?_, ?_, ?_, ?_, ?_,
    ⟨_, by simpa using tokens_last (cell_center 78 (c!"EOS results for " ++ ch.name ++ c!" fitting")), by simp [fitHead]⟩, by simp,
    ?_, ?_, r2,
    fun i v d p y e l h1 h2 h3 h4 h5 h6 => r3 i l h6 v d p y e h1 h2 h3 h4 h5⟩
  · intro i b s l hb hs hl
    obtain ⟨b', s', tb, ts, fl, g1, g2, g3, g4, g5, g6⟩ := p3 i.1 l hl b s hb hs i.2
    rw [hpar] at g6
    exact ⟨b', s', tb, ts, fl, g1, g2, g3, g4, fun f => by rw [g5, hmem], g6⟩
  · refine ⟨_, _, printed_rounded 4 r.resVar, formatFixed_numeral 4 r.resVar, ?_⟩
    simpa using tokens_next (cell_self c!"Residual variance:") (tokens_last (cell_right (cell_self (formatFixed 4 r.resVar)) 6))
  · rw [natOf_eq (showNat_spec order).1, (showNat_spec order).2.2]
  · simp [fitHead, alignRight]
  · simp [fitHead, alignRight]
  · cases ch <;> cases wP <;> cases wV <;>
      simp [Choice.name, fitHead, alignRight, frame, dashes]
  · cases ch <;> cases wP <;> cases wV <;>
      simp [Choice.name, fitHead, alignRight, frame, dashes]
  · cases ch <;> cases wP <;> cases wV <;>
      simp [Choice.name, fitHead, alignRight, frame, dashes]
  · cases ch <;> cases wP <;> cases wV <;>
      simp [Choice.name, fitHead, alignRight, frame, dashes]
  · intro i s hs
    refine ⟨showNat (i + 1), (showNat_spec _).1, by rw [natOf_eq (showNat_spec _).1, (showNat_spec _).2.2], ?_⟩
    simp [List.getElem?_map, List.getElem?_zipIdx, hs]
  · rw [← hc.2, ← htitle]
    simpa using tokens_next (cell_center 15 (valueLabel vunit ch.name)) (tokens_next (cell_center 15 (c!"eps_" ++ [c]))
      (tokens_next (cell_center 15 c!"Pressure (GPa)") (tokens_next (cell_center 15 c!"P_obs (GPa)")
        (tokens_last (cell_center 15 c!"eps_P")))))

theorem forall₂_parse_unique {ts : List Str} {qs qs' : List ℚ} (h : List.Forall₂ (fun t q => parseFloat t = some q) ts qs)
    (h' : List.Forall₂ (fun t q => parseFloat t = some q) ts qs') : qs = qs' := by
  induction h generalizing qs' with
  | nil => cases h'; rfl
  | cons a _ ih =>
    cases h' with
    | cons b hb =>
      rw [a, Option.some.injEq] at b
      rw [b, ih hb]

/-- A line of numbers can be read in one way. -/
theorem numbers_unique {l : Str} {qs qs' : List ℚ} (h : Numbers qs l) (h' : Numbers qs' l) : qs = qs' :=
  forall₂_parse_unique (numbers_words h (.inl rfl)) (numbers_words h' (.inl rfl))

/-- C107, violated: the column titled `P_obs (GPa)` does not hold the observed pressures but those of the fit: every
point with a residual above one unit of the last decimal shows a wrong number there. -/
theorem C107_observed_violated {values pressure : List ℚ} {r : Output} (hr : IsOutput r values pressure) {i : ℕ}
    {p e : ℚ} (hp : pressure[i]? = some p) (he : r.eps[i]? = some e) (hbig : 1 / 10 ^ 5 < |e|) {l : Str}
    (hl : fitLine values pressure r i = .ok l) :
    ∃ qs, Numbers qs l ∧ ∀ qs', Numbers qs' l → ∀ q, qs'[3]? = some q → ¬ Rounded 5 p q := by
  have hi : i < values.length := by
    have := (List.getElem?_eq_some_iff.1 hp).1
    have := hr.pressure_len
    omega
  obtain ⟨v, hv⟩ := get_some rfl hi
  obtain ⟨d, hd⟩ := get_some hr.delta_len hi
  obtain ⟨y, hy⟩ := get_some hr.y_len hi
  have hye : y = p + e := by
    have := hr.residual i hi
    simpa [List.getD_eq_getElem?_getD, hp, he, hy] using this
  obtain ⟨l', h1, qs, h2, h3⟩ := fitLine_spec hv hd hp hy he
  rw [hl, Except.ok.injEq] at h1
  subst h1
  refine ⟨qs, h3, fun qs' h4 q hq hR => ?_⟩
  obtain rfl := numbers_unique h3 h4
  match qs, h2, hq with
  | [_, _, _, y', _], .cons _ (.cons _ (.cons _ (.cons hy' _))), hq =>
    simp only [List.getElem?_cons_succ, List.getElem?_cons_zero, Option.some.injEq] at hq
    subst hq
    exact not_rounded hy' (by rwa [hye, add_sub_cancel_left]) hR

/-- C107: the parameters flagged as implied are exactly those that the equation of state sets by itself, for every
formulation and order of a session, volumes and axes. -/
theorem C107_implied {f : Formulation} {order : ℕ} (h : Offered f order) (linear : Bool) (i : Fin 4) :
    IsImplied f order linear i ↔ (i = 1 ∧ order = 2 ∨ i = 2 ∧ order ≤ 3) := by
  have aux : ∀ {f order}, IsImplied f order linear i → ∀ p x,
      parsAfter f (replace p x i) order linear true = parsAfter f p order linear true := fun hi p x =>
    congrArg Prod.snd (hi p x 1)
  have conv : ∀ {f order}, (∀ p x, parsAfter f (replace p x i) order linear true = parsAfter f p order linear true) →
      IsImplied f order linear i := fun hi p x V => by simp only [eos, hi]
  have ho : order = 2 ∨ order = 3 ∨ order = 4 := by
    cases f <;> simp only [Offered] at h <;> tauto
  have k0 : ∀ p, (parsAfter f p order linear true).K0 = p.K0 := fun p => by
    simp only [parsAfter, setKp, setKpp]; cases f <;> split_ifs <;> rfl
  have v0 : ∀ p, (parsAfter f p order linear true).V0 = p.V0 := fun p => by
    simp only [parsAfter, setKp, setKpp]; cases f <;> split_ifs <;> rfl
  have kp : order ≠ 2 → ∀ p, (parsAfter f p order linear true).Kp = p.Kp := fun ho p => by
    simp only [parsAfter, setKp, setKpp, ho, false_and, if_false, if_true]; cases f <;> split_ifs <;> rfl
  constructor
  · intro hi
    have h1 := aux hi ⟨1, 1, 1, 1⟩ 2
    fin_cases i
    · have := congrArg Pars.K0 h1
      rw [k0, k0] at this
      norm_num [replace] at this
    · refine .inl ⟨rfl, ?_⟩
      by_contra hne
      have := congrArg Pars.Kp h1
      rw [kp hne, kp hne] at this
      norm_num [replace] at this
    · refine .inr ⟨rfl, ?_⟩
      by_contra hne
      have h4 : order = 4 := by omega
      subst h4
      have := congrArg Pars.Kpp h1
      cases f <;> simp [Offered, parsAfter, setKp, setKpp, replace] at h this
    · have := congrArg Pars.V0 h1
      rw [v0, v0] at this
      norm_num [replace] at this
  · intro hi
    apply conv
    intro p x
    rcases hi with ⟨rfl, rfl⟩ | ⟨rfl, hle⟩
    · cases f
      · simp [Offered] at h
      all_goals
        cases linear <;>
          simp only [replace, parsAfter, setKp, impliedKp, impliedKpLinear, if_true, and_self, reduceCtorEq,
            and_false, if_false, Option.getD_some]
    · have hlt : order < 4 := by omega
      have hs : setKp f (replace p x 2) order linear true =
          { setKp f p order linear true with Kpp := x } := by
        rw [setKp, setKp, if_pos rfl, if_pos rfl]
        simp only [replace]
        split_ifs <;> rfl
      rw [parsAfter, parsAfter, hs]
      generalize setKp f p order linear true = q
      cases f <;> simp only [setKpp, hlt, and_self, if_true]

/-- Two points of a second-order fit with the volume fixed; the residuals are not zero. -/
example : IsOutput ⟨[160, 4, -0.02, 74], [1, 0, 0, 0], List.replicate 4 [1, 0, 0, 0], 1 / 2, [c!"Sum of squares convergence"],
      [0, 0], [0.01, 2.52], [0.01, 0.02]⟩ [74, 73] [0, 2.5] ∧ (1 : ℚ) / 10 ^ 5 < |0.02| ∧ Offered .birchMurnaghan 2 :=
  ⟨⟨rfl, rfl, rfl, by simp, rfl, rfl, rfl, rfl, fun i hi => by
    simp only [List.length_cons, List.length_nil] at hi
    interval_cases i <;> norm_num⟩, by norm_num [abs_of_pos], .inl rfl⟩

end Verif.Report
