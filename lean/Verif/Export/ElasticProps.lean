/-
C97: the tables exported from elastic results.
-/
import Verif.Export.ElasticLemmas

noncomputable section

namespace Verif.Export
open Verif.Py Verif.IO Verif.IO.Spec Verif.Interfaces Verif.Phonon Verif.Polar Spec

/-! ### The text -/

theorem tokens_center {w : ℕ} {s rest : Str} {ts : List Str} (hs : s.length < w) (h : Tokens ts rest) :
    Tokens (s :: ts) (center w s ++ rest) := by
  have hr : ∃ m, (w - s.length) - (w - s.length) / 2 = m + 1 :=
    ⟨(w - s.length) - (w - s.length) / 2 - 1, by omega⟩
  obtain ⟨m, hm⟩ := hr
  have e : center w s ++ rest = List.replicate ((w - s.length) / 2) ' ' ++ s ++ ' ' :: (List.replicate m ' ' ++ rest) := by
    rw [center, hm, List.replicate_succ]
    simp
  rw [e]
  exact .cons (blank_replicate _) (.inl rfl) (tokens_pad (blank_replicate m) h)

theorem tokens_centered {w : ℕ} {l : List Str} (hl : ∀ s ∈ l, s.length < w) {rest : Str} {ts : List Str}
    (h : Tokens ts rest) : Tokens (l ++ ts) (l.flatMap (center w) ++ rest) := by
  induction l with
  | nil => exact h
  | cons s l ih =>
    rw [List.flatMap_cons, List.append_assoc, List.cons_append]
    exact tokens_center (hl s (by simp)) (ih fun t ht => hl t (List.mem_cons_of_mem _ ht))

theorem elasticRow_numbers {t : ℚ} {vs : List ℚ} (h : FitsSection t vs) :
    Numbers (printed 1 t :: vs.map (printed 4)) (elasticRow t vs) := by
  refine ⟨formatFixed 1 t :: vs.map (formatFixed 4), ?_, ?_⟩
  · refine tokens_center ?_ ?_
    · have := formatFixed_length (d := 1) (k := 6) (by norm_num) h.1
      omega
    · have := tokens_centered (w := 15) (l := vs.map (formatFixed 4)) ?_ (rest := []) (ts := []) (.nil blank_nil)
      · simpa [List.flatMap_map] using this
      · intro s hs
        obtain ⟨v, hv, rfl⟩ := List.mem_map.1 hs
        have := formatFixed_length (d := 4) (k := 8) (by norm_num) (h.2 v hv)
        omega
  · refine .cons (formatFixed_numeral 1 t) ?_
    rw [List.forall₂_map_left_iff, List.forall₂_map_right_iff]
    exact List.forall₂_same.2 fun v _ => formatFixed_numeral 4 v

theorem formatFixed_no_newline (d : ℕ) (x : ℚ) : '\n' ∉ formatFixed d x := by
  have : Numbers [printed d x] (formatFixed d x) :=
    ⟨[formatFixed d x], by simpa using Tokens.last (g := []) blank_nil, .cons (formatFixed_numeral d x) .nil⟩
  exact numbers_no_newline this

theorem center_no_newline {w : ℕ} {s : Str} (h : '\n' ∉ s) : '\n' ∉ center w s := by
  obtain ⟨g, b, hg, hb, e⟩ := center_spec w s
  rw [e]
  simp [h, blank_no_newline hg, blank_no_newline hb]

theorem elasticRow_no_newline (t : ℚ) (vs : List ℚ) : '\n' ∉ elasticRow t vs := by
  unfold elasticRow
  rw [List.mem_append, List.mem_flatMap]
  rintro (h | ⟨v, -, h⟩)
  · exact center_no_newline (formatFixed_no_newline 1 t) h
  · exact center_no_newline (formatFixed_no_newline 4 v) h

/-- The labels that the code writes: those of Young's modulus are empty. -/
def rawLabels : Var → List Str
  | .E => [[]]
  | v => sectionLabels v

theorem types_lookup (v : Var) : item elasticTypes v.key = .ok (sectionTitle v, rawLabels v) := by
  cases v <;> rfl

/-- The line of the directions. -/
def dirLine (w : ℕ) : Str := center 10 [] ++ planes.flatMap fun p => center (w * 15) p

/-- The line of the labels. -/
def labelLine (v : Var) : Str := center 10 [] ++ planes.flatMap fun _ => (rawLabels v).flatMap fun l => center 15 l

/-- The lines from the first rule on. -/
def sectionBody (v : Var) (n : ℕ) (angles : List ℚ) (vals : ℕ → List ℚ) : List Str :=
  separator (3 * sectionWidth v * 15 + 10) '+' '-' :: elasticHeader (3 * sectionWidth v) c!"Degrees" (sectionTitle v) ::
  dirLine (sectionWidth v) :: labelLine v :: separator (3 * sectionWidth v * 15 + 10) '+' '=' ::
  ((List.range n).map (fun i : ℕ => elasticRow (angles.getD i 0) (vals i)) ++
    [separator (3 * sectionWidth v * 15 + 10) '+' '='])

theorem writeElastic_eq {v : Var} {n : ℕ} {angles : List ℚ} {vals : ℕ → List ℚ} (ha : angles.length = n) (hn : 0 < n)
    (hv : ∀ i, (vals i).length = 3 * sectionWidth v) (unit : Str) :
    writeElastic angles ((List.range n).map vals) v.key unit = ⟨List.intercalate ['\n']
      ([c!"*- This file was created using Quantas -*", [], sectionTitle v, unitLine true unit, []] ++
        sectionBody v n angles vals), none⟩ := by
  have hcols : ((((List.range n).map vals).head?).getD []).length = 3 * sectionWidth v := by
    obtain ⟨m, rfl⟩ := Nat.exists_eq_succ_of_ne_zero hn.ne'
    rw [List.range_succ_eq_map]
    simp [hv]
  have hzip : List.zip angles ((List.range n).map vals) = (List.range n).map fun i : ℕ => (angles.getD i 0, vals i) := by
    refine List.ext_getElem? fun i => ?_
    by_cases hi : i < n
    · simp [List.getElem?_zip_eq_some, hi, ha]
    · rw [List.getElem?_eq_none (by simp; omega), List.getElem?_eq_none (by simp; omega)]
  have hdiv : 3 * sectionWidth v / 3 = sectionWidth v := by omega
  unfold writeElastic
  simp only [hcols, hzip, types_lookup, Except.map, hdiv]
  have hall : ∀ f : ℕ → Str, ((List.range n).map fun i : ℕ => (angles.getD i 0, vals i)).flatMap
      (fun p => [Except.ok (ε := PyErr) (elasticRow p.1 p.2), .ok ['\n']]) =
      (((List.range n).map fun i : ℕ => elasticRow (angles.getD i 0) (vals i) ++ ['\n']).flatMap fun s => [s.dropLast, ['\n']]).map .ok := by
    intro f
    rw [List.flatMap_map, List.map_flatMap, List.flatMap_map]
    simp
  rw [hall fun _ => []]
  rw [show ∀ (a b c d e f g h i j k l m o p q r : Str) (X : List Str) (z : Str),
    ([.ok a, .ok b, .ok c, .ok d, .ok e, .ok f, .ok g, .ok h, .ok i, .ok j, .ok k, .ok l, .ok m, .ok o, .ok p, .ok q, .ok r] ++
      X.map .ok ++ [.ok z] : List (Except PyErr Str)) =
      ([a, b, c, d, e, f, g, h, i, j, k, l, m, o, p, q, r] ++ X ++ [z]).map .ok by intros; simp]
  rw [writeAll_all]
  congr 1
  rw [show ([c!"*- This file was created using Quantas -*", [], sectionTitle v, unitLine true unit, []] ++
      sectionBody v n angles vals) =
      ([c!"*- This file was created using Quantas -*", [], sectionTitle v, unitLine true unit, [],
        separator (3 * sectionWidth v * 15 + 10) '+' '-', elasticHeader (3 * sectionWidth v) c!"Degrees" (sectionTitle v),
        dirLine (sectionWidth v), labelLine v, separator (3 * sectionWidth v * 15 + 10) '+' '='] ++
        (List.range n).map (fun i : ℕ => elasticRow (angles.getD i 0) (vals i))) ++
      [separator (3 * sectionWidth v * 15 + 10) '+' '='] by simp [sectionBody], intercalate_snoc_lines]
  have hrows : (((List.range n).map fun i : ℕ => elasticRow (angles.getD i 0) (vals i) ++ ['\n']).flatMap
      fun s => [s.dropLast, ['\n']]).flatten =
      (((List.range n).map fun i : ℕ => elasticRow (angles.getD i 0) (vals i)).map (· ++ ['\n'])).flatten := by
    induction List.range n with
    | nil => rfl
    | cons i l ih => simp_all
  rw [List.flatten_append, List.flatten_append, hrows, List.map_append, List.flatten_append]
  simp [fileHeader, dirLine, labelLine]

theorem labelLine_tokens (v : Var) : Tokens (sectionLabels v ++ sectionLabels v ++ sectionLabels v) (labelLine v) := by
  have hb : Blank (center 10 []) := by
    obtain ⟨g, b, hg, hb, e⟩ := center_spec 10 []
    rw [e]; simpa using blank_append hg hb
  unfold labelLine
  refine tokens_pad hb ?_
  have key : ∀ l : List Str, (∀ s ∈ l, s.length < 15) →
      Tokens (l ++ l ++ l) (planes.flatMap fun _ => l.flatMap fun s => center 15 s) := by
    intro l hl
    have h1 := tokens_centered (w := 15) hl (rest := []) (ts := []) (.nil blank_nil)
    have h2 := tokens_centered (w := 15) hl (tokens_centered (w := 15) hl h1)
    simpa [planes] using h2
  cases v with
  | E =>
    refine .nil ?_
    intro c hc
    have : c ∈ (planes.flatMap fun _ => (rawLabels .E).flatMap fun l => center 15 l) := hc
    simp [planes, rawLabels, center] at this
    exact .inl this
  | LC => exact key _ (by decide)
  | G => exact key _ (by decide)
  | Nu => exact key _ (by decide)
  | waves => exact key _ (by decide)

theorem dirLine_tokens {w : ℕ} (hw : 0 < w) : Tokens [c!"(xy)", c!"(xz)", c!"(yz)"] (dirLine w) := by
  have hb : Blank (center 10 []) := by
    obtain ⟨g, b, hg, hb, e⟩ := center_spec 10 []
    rw [e]; simpa using blank_append hg hb
  refine tokens_pad hb ?_
  have := tokens_centered (w := w * 15) (l := planes) ?_ (rest := []) (ts := []) (.nil blank_nil)
  · simpa [planes] using this
  · intro s hs
    simp only [planes, List.mem_cons, List.not_mem_nil, or_false] at hs
    rcases hs with rfl | rfl | rfl <;> simp <;> omega

theorem elasticHeader_labels (n : ℕ) (a b : Str) : IsLabels a b (elasticHeader n a b) := by
  obtain ⟨g1, h1, a1, b1, e1⟩ := center_spec 10 a
  obtain ⟨g2, h2, a2, b2, e2⟩ := center_spec (n * 15) b
  refine ⟨' ' :: g1, h1 ++ ' ' :: g2, h2 ++ [' '], blank_append blank_space_one a1,
    blank_append b1 (blank_append blank_space_one a2), by simp, blank_append b2 blank_space_one, ?_⟩
  rw [elasticHeader, e1, e2]
  simp

theorem width_pos (v : Var) : 0 < sectionWidth v := by cases v <;> decide

theorem sectionBody_isTable {v : Var} {n : ℕ} {angles : List ℚ} {values : Plane → ℕ → List ℚ}
    (ha : angles.length = n) (unit : Str) :
    IsSectionTable v angles values unit
      (sectionBody v n angles fun i => values .xy i ++ values .xz i ++ values .yz i)
      (List.intercalate ['\n']
        ([c!"*- This file was created using Quantas -*", [], sectionTitle v, unitLine true unit, []] ++
          sectionBody v n angles fun i => values .xy i ++ values .xz i ++ values .yz i)) := by
  refine ⟨?_, ?_, _, _, _, _, _, _, _, rfl, isRule_separator _ _, elasticHeader_labels _ _ _,
    dirLine_tokens (width_pos v), labelLine_tokens v, isRule_separator _ _, isRule_separator _ _, by simp [ha], ?_⟩
  · intro l hl
    simp only [sectionBody, List.mem_cons, List.mem_append, List.mem_map, List.not_mem_nil, or_false] at hl
    rcases hl with rfl | rfl | rfl | rfl | rfl | ⟨i, -, rfl⟩ | rfl
    · exact separator_no_newline _ (by decide)
    · exact labels_no_newline (elasticHeader_labels _ _ _) (by decide) (by cases v <;> decide)
    · unfold dirLine
      rw [List.mem_append, List.mem_flatMap]
      rintro (h | ⟨p, hp, h⟩)
      · exact center_no_newline (by simp) h
      · refine center_no_newline ?_ h
        revert hp
        simp only [planes, List.mem_cons, List.not_mem_nil, or_false]
        rintro (rfl | rfl | rfl) <;> decide
    · cases v <;> decide
    · exact separator_no_newline _ (by decide)
    · exact elasticRow_no_newline _ _
    · exact separator_no_newline _ (by decide)
  · congr 1
    simp [unitLine]
  · intro i t l ht hl hfit
    have hi : i < n := by
      rw [← ha]
      exact (List.getElem?_eq_some_iff.1 ht).1
    have hl' : l = elasticRow t (values .xy i ++ values .xz i ++ values .yz i) := by
      have h1 : angles.getD i 0 = t := by simp [List.getD_eq_getElem?_getD, ht]
      rw [List.getElem?_map, List.getElem?_range hi] at hl
      rw [← h1]
      exact (Option.some.inj hl).symm
    refine ⟨printed 1 t, (values .xy i ++ values .xz i ++ values .yz i).map (printed 4), printed_rounded 1 t, ?_, ?_⟩
    · rw [List.forall₂_map_right_iff]
      exact List.forall₂_same.2 fun v _ => printed_rounded 4 v
    · rw [hl']
      exact elasticRow_numbers hfit

/-! ### Export -/

/-- The result of a round of the dialogue in which a table was written: the variables of the dialogue are of no
consequence. -/
def Spec.WroteElastic (d : Data) (e : Exporter) (a : Answer) (disk : Disk) (text : Str) : Prop :=
  ∀ l rest, ∃ l', runElastic d e l (a :: rest) disk =
    if a.more then runElastic d e l' rest (Function.update disk (outfileOf e disk a) (some text))
    else (Function.update disk (outfileOf e disk a) (some text), .finished)

theorem gather_loaded {punit : Str} {waves : Bool} {tab : Plane → Var → List (List ℚ)} {d' : Data}
    (hk : d'.map Prod.fst = sectionNames false ∧ waves = false ∨ d'.map Prod.fst = sectionNames true)
    (hl : ∀ p ∈ sectionList waves, d'.lookup (setName p.1 p.2) = some (sectionEntry punit tab p)) {v : Var}
    (hv : v ∈ vars waves) {n : ℕ} {angles : List ℚ} {values : Plane → ℕ → List ℚ}
    (ht : SectionTables v n angles values fun k => tab k v) (l : Option Locals) :
    gather v.key d' true l =
      .ok (some ⟨angles, (List.range n).map fun i : ℕ => values .xy i ++ values .xz i ++ values .yz i,
        Polar.unitOf punit v⟩) := by
  have hn : (d'.map Prod.fst).Nodup := by
    rcases hk with ⟨e, -⟩ | e <;> rw [e] <;> exact sectionNames_nodup _
  have hf : (d'.map Prod.fst).filter (fun k => hasSub v.key k) = [setName v .xy, setName v .xz, setName v .yz] := by
    rcases hk with ⟨e, e'⟩ | e
    · rw [e]; exact sectionNames_filter (e' ▸ hv)
    · rw [e]; exact sectionNames_filter (vars_true hv)
  have hd : d'.filter (fun p => hasSub v.key p.1) =
      [(setName v .xy, sectionEntry punit tab (v, .xy)), (setName v .xz, sectionEntry punit tab (v, .xz)),
       (setName v .yz, sectionEntry punit tab (v, .yz))] := by
    have := filter_lookup hn (f := fun k => (d'.lookup k).getD {}) hf ?_
    · rw [this]
      simp only [List.map_cons, List.map_nil, hl (v, .xy) (sectionList_mem hv .xy), hl (v, .xz) (sectionList_mem hv .xz),
        hl (v, .yz) (sectionList_mem hv .yz), Option.getD_some]
    · intro k hk
      simp only [List.mem_cons, List.not_mem_nil, or_false] at hk
      rcases hk with rfl | rfl | rfl
      · rw [hl (v, .xy) (sectionList_mem hv .xy)]; rfl
      · rw [hl (v, .xz) (sectionList_mem hv .xz)]; rfl
      · rw [hl (v, .yz) (sectionList_mem hv .yz)]; rfl
  refine gather_three ht.1 (k1 := setName v .xy) (k2 := setName v .xz) (k3 := setName v .yz)
    (u2 := some (Polar.unitOf punit v)) (u3 := some (Polar.unitOf punit v)) ?_ l
  rw [hd]
  simp only [sectionEntry, table_eq_rows ht]

/-- C97: whatever elastic results and other files were loaded before, the exporter of an elastic result file offers
exactly the quantities whose sections the file holds, and the selection of each writes a table with a line per
angle, which holds the angle and the values on the three planes, as they were saved. -/
theorem C97_tables (history : List (Str × H5)) (hh : ∀ p ∈ history, Foreign p.2 ∨ SavedElastic p.2)
    (punit : Str) (r : Results ℚ) (waves : Bool) (tab : Plane → Var → List (List ℚ))
    (hr : r.polar = sectionsOf waves tab) (filename : Str) :
    ∃ d e, loadElastic (afterLoading [] history) filename (elasticFile (saveElastic punit r)) = (d, .ok e) ∧
      e.error = none ∧ (∀ key, key ∈ e.keys ↔ ∃ v : Var, key = v.key ∧ (v = .waves → waves = true)) ∧
      ∀ (v : Var), (v = .waves → waves = true) → ∀ n angles values, 0 < n →
        SectionTables v n angles values (fun k => tab k v) →
        ∀ (a : Answer) (disk : Disk), a.selection = v.key →
          ∃ text body, WroteElastic d e a disk text ∧
            IsSectionTable v angles values (Polar.unitOf punit v) body text := by
  obtain ⟨d', he, hk, hl⟩ := loadElastic_ok punit r waves tab hr (afterLoading [] history) filename
  have hkeys : Keys (afterLoading [] history) := afterLoading_keys history hh [] (.inl rfl)
  have hk' : d'.map Prod.fst = sectionNames false ∧ waves = false ∨ d'.map Prod.fst = sectionNames true := by
    rw [hk]
    exact keys_step hkeys waves
  refine ⟨d', _, he, rfl, fun key => ?_, fun v hv n angles values hn ht a disk ha => ?_⟩
  · constructor
    · intro h
      have h' : key ∈ offered waves := h
      have : ∃ v ∈ vars waves, key = v.key := by
        have e : offered waves = (vars waves).map Var.key := by cases waves <;> rfl
        rw [e, List.mem_map] at h'
        obtain ⟨v, h1, h2⟩ := h'
        exact ⟨v, h1, h2.symm⟩
      obtain ⟨v, h1, h2⟩ := this
      exact ⟨v, h2, mem_vars.1 h1⟩
    · rintro ⟨v, rfl, h⟩
      exact key_mem_offered.2 (mem_vars.2 h)
  · have hv' : v ∈ vars waves := mem_vars.2 hv
    have hlen : ∀ i, (values .xy i ++ values .xz i ++ values .yz i).length = 3 * sectionWidth v := by
      intro i
      have := ht.2.1
      simp [this]
      ring
    refine ⟨_, _, fun l rest => ⟨some ⟨angles, (List.range n).map fun i : ℕ => values .xy i ++ values .xz i ++ values .yz i,
      Polar.unitOf punit v⟩, ?_⟩, sectionBody_isTable ht.1 (Polar.unitOf punit v)⟩
    · rw [runElastic, if_pos (by rw [ha]; exact key_mem_offered.2 hv'), ha, gather_loaded hk' hl hv' ht l]
      simp only [writeElastic_eq ht.1 hn hlen]

/-- C97, violated: the lines of a table never have the same width: the rules, the line of the labels and the rows
differ for every quantity, for all numbers that fit in their cells. -/
theorem C97_width_violated (v : Var) (n : ℕ) (angles : List ℚ) (values : Plane → ℕ → List ℚ) (hn : 0 < n)
    (ha : angles.length = n) (hv : ∀ k i, (values k i).length = sectionWidth v)
    (hfit : ∀ (i : ℕ) t, angles[i]? = some t → FitsSection t (values .xy i ++ values .xz i ++ values .yz i)) (unit : Str) :
    ∃ body, (writeElastic angles ((List.range n).map fun i : ℕ => values .xy i ++ values .xz i ++ values .yz i) v.key
        unit).text = List.intercalate ['\n'] ([c!"*- This file was created using Quantas -*", [], sectionTitle v,
          unitLine true unit, []] ++ body) ∧
      ∃ rule labels row, rule ∈ body ∧ labels ∈ body ∧ row ∈ body ∧
        rule.length = row.length + 1 ∧ labels.length = row.length + 3 := by
  have hlen : ∀ i, (values .xy i ++ values .xz i ++ values .yz i).length = 3 * sectionWidth v := by
    intro i
    simp [hv]
    ring
  refine ⟨sectionBody v n angles fun i => values .xy i ++ values .xz i ++ values .yz i, ?_, separator (3 * sectionWidth v * 15 + 10) '+' '-',
    elasticHeader (3 * sectionWidth v) c!"Degrees" (sectionTitle v),
    elasticRow (angles.getD 0 0) (values .xy 0 ++ values .xz 0 ++ values .yz 0), ?_, ?_, ?_, ?_, ?_⟩
  · rw [writeElastic_eq ha hn hlen]
  · simp [sectionBody]
  · simp [sectionBody]
  · unfold sectionBody
    simp only [List.mem_cons, List.mem_append, List.mem_map, List.mem_range]
    exact .inr (.inr (.inr (.inr (.inr (.inl ⟨0, hn, rfl⟩)))))
  all_goals
    have hfit0 := hfit 0 (angles[0]'(by omega)) (List.getElem?_eq_getElem _)
    have h0 : angles.getD 0 0 = angles[0]'(by omega) := by simp [List.getD_eq_getElem?_getD, show 0 < angles.length by omega]
    have hrow : (elasticRow (angles.getD 0 0) (values .xy 0 ++ values .xz 0 ++ values .yz 0)).length =
        3 * sectionWidth v * 15 + 10 := by
      rw [elasticRow, List.length_append, center_length, flatMap_length (n := 15), hlen]
      · omega
      · intro x hx
        refine center_length _ _ ?_
        have := formatFixed_length (d := 4) (k := 8) (by norm_num) (hfit0.2 x hx)
        omega
      · rw [h0]
        have := formatFixed_length (d := 1) (k := 6) (by norm_num) hfit0.1
        omega
    rw [hrow]
  · simp [separator]
  · have h1 := width_pos v
    simp only [elasticHeader, List.length_append, List.length_cons, List.length_nil]
    rw [center_length _ _ (by decide), center_length _ _ (by cases v <;> decide)]
    omega

end Verif.Export
