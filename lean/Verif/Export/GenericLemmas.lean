/-
Lemmas for C131: parts of texts, and the dialogue of the exporter for all result files.
-/
import Verif.Export.Generic
import Verif.Export.ExporterProps

noncomputable section

namespace Verif.Export.Generic
open Verif.Py Verif.IO Verif.IO.Spec Verif.Interfaces Verif.Phonon Verif.Export Verif.Export.Spec

/-! ### Parts of texts -/

theorem infix_right {s a b : Str} (h : s <:+: a) : s <:+: a ++ b :=
  h.trans (List.prefix_append a b).isInfix

theorem infix_left {s a b : Str} (h : s <:+: b) : s <:+: a ++ b :=
  h.trans (List.suffix_append a b).isInfix

theorem not_infix_of_notMem {s l : Str} {c : Char} (hs : c ∈ s) (hl : c ∉ l) : ¬ s <:+: l :=
  fun h => hl (h.subset hs)

/-- A text without the character is to the left or to the right of it. -/
theorem infix_split {s a b : Str} {c : Char} (hc : c ∉ s) (h : s <:+: a ++ c :: b) :
    s <:+: a ∨ s <:+: b := by
  obtain ⟨p, q, e⟩ := h
  rcases List.append_eq_append_iff.1 e with ⟨t, h1, h2⟩ | ⟨t, h1, h2⟩
  · exact .inl ⟨p, t, h1.symm⟩
  · cases t with
    | nil =>
      simp only [List.append_nil] at h1
      exact .inl ⟨p, [], by simp [h1]⟩
    | cons d t =>
      simp only [List.cons_append, List.cons.injEq] at h2
      obtain ⟨rfl, h2⟩ := h2
      rcases List.append_eq_append_iff.1 h1 with ⟨t', h3, h4⟩ | ⟨t', h3, h4⟩
      · exact absurd (h4 ▸ by simp) hc
      · cases t' with
        | nil =>
          exfalso
          simp only [List.nil_append] at h4
          exact hc (h4 ▸ by simp)
        | cons d' t' =>
          simp only [List.cons_append, List.cons.injEq] at h4
          exact .inr ⟨t', q, by rw [h2, h4.2]⟩

/-- A text that begins with a character begins after a text without it. -/
theorem infix_after {s a b : Str} {c : Char} (hc : c ∉ a) (h : c :: s <:+: a ++ b) : c :: s <:+: b := by
  obtain ⟨p, q, e⟩ := h
  rw [List.append_assoc] at e
  rcases List.append_eq_append_iff.1 e with ⟨t, h1, h2⟩ | ⟨t, h1, h2⟩
  · cases t with
    | nil => exact ⟨[], q, by simpa using h2⟩
    | cons d t =>
      simp only [List.cons_append, List.cons.injEq] at h2
      exact absurd (h1 ▸ by simp [h2.1]) hc
  · exact ⟨t, q, by rw [List.append_assoc, ← h2]⟩

theorem notMem_append {c : Char} {a b : Str} (ha : c ∉ a) (hb : c ∉ b) : c ∉ a ++ b := by
  simp [ha, hb]

theorem regroup (a b job d rest : Str) (c : Char) :
    (a ++ c :: b) ++ (job ++ ((c :: d) ++ rest)) = a ++ c :: ((b ++ job) ++ c :: (d ++ rest)) := by simp

/-- A character that is not in a list of data sets. -/
theorem notMem_listing {c : Char} (hc : c ∉ c!" :()\n") {sets : List (Str × Dataset)}
    (h : ∀ p ∈ sets, c ∉ p.1 ∧ ∀ a ∈ p.2.attrs, c ∉ a.2) :
    c ∉ sets.flatMap fun (key, d) => listed key ++ (d.attrs.flatMap fun (a, v) =>
        if a = c!"unit" then '(' :: v ++ [')'] else v ++ [' ']) ++ ['\n'] := by
  simp only [List.mem_cons, List.not_mem_nil, or_false, not_or] at hc
  obtain ⟨c1, c2, c3, c4, c5⟩ := hc
  intro hm
  obtain ⟨⟨key, d⟩, hp, hm⟩ := List.mem_flatMap.1 hm
  obtain ⟨h1, h2⟩ := h _ hp
  simp only [List.mem_append, List.mem_flatMap, List.mem_singleton, listed, alignRight,
    List.mem_replicate, List.mem_cons, List.not_mem_nil, or_false] at hm
  rcases hm with (((hm | hm) | hm | hm) | ⟨⟨a, v⟩, ha, hm⟩) | hm
  · exact c1 hm.2
  · exact h1 hm
  · exact c2 hm
  · exact c1 hm
  · have h3 := h2 _ ha
    dsimp only at hm h3
    split at hm
    · simp only [List.cons_append, List.mem_cons, List.mem_append, List.not_mem_nil, or_false] at hm
      rcases hm with hm | hm | hm
      · exact c3 hm
      · exact h3 hm
      · exact c4 hm
    · simp only [List.mem_append, List.mem_cons, List.not_mem_nil, or_false] at hm
      rcases hm with hm | hm
      · exact h3 hm
      · exact c1 hm
  · exact c5 hm

/-! ### The files -/

theorem collect_ok {f : H5} (hf : f.Valid) {key desc unit : Str} {v : Values}
    (h : (key, dataset v desc unit) ∈ f.sets) :
    collect f key = .ok (.value v, .value desc, .value unit) := by
  have h1 := (C54_data hf h).1
  have h2 := C54_attribute hf h (attr := c!"desc") (v := desc) (by simp [dataset])
  have h3 := C54_attribute hf h (attr := c!"unit") (v := unit) (by simp [dataset])
  simp only [collect, h1, h2, h3, Except.bind, Except.map, dataset]

theorem saveQha_valid (u : Scales) (info : Str) (descriptions : Str → Str) (r : QhaRun) :
    (saveQha u info descriptions r).Valid := by
  constructor
  · show (c!"T" :: c!"P" :: (qhaProperties.map _).map Prod.fst).Nodup
    rw [List.map_map]
    show (c!"T" :: c!"P" :: qhaProperties.map id).Nodup
    decide
  · intro p hp
    simp only [saveQha, List.mem_cons, List.mem_map] at hp
    rcases hp with rfl | rfl | ⟨q, -, rfl⟩ <;>
      exact (by decide : [c!"desc", c!"unit"].Nodup)

theorem saveHa_valid (u : Scales) (info : Str) (descriptions : Str → Str) (r : HaRun) :
    (saveHa u info descriptions r).Valid := by
  constructor
  · show (c!"V" :: c!"T" :: c!"U0" :: (haProperties.map _).map Prod.fst).Nodup
    rw [List.map_map]
    show (c!"V" :: c!"T" :: c!"U0" :: haProperties.map id).Nodup
    decide
  · intro p hp
    simp only [saveHa, List.mem_cons, List.mem_map] at hp
    rcases hp with rfl | rfl | rfl | ⟨q, -, rfl⟩ <;>
      exact (by decide : [c!"desc", c!"unit"].Nodup)

theorem readInfo_ok {f : H5} {info : Str} (h : f.attrs.lookup c!"info" = some info) :
    ∃ more, readInfo f = .ok (info ++ more) := by
  simp only [readInfo, item, h, Except.map, List.append_assoc]
  exact ⟨_, rfl⟩

/-! ### The tables -/

theorem writeFile_isTable {x y : List ℚ} {xn xu yn yu zn zu desc xl yl zl : Str} {s : NumStyle}
    (hx : setStyle xn xu = (.temperature, xl)) (hy : setStyle yn yu = (.fixed, yl))
    (hz : setStyle zn zu = (s, zl)) (hn : y ≠ []) (z : ℕ → ℕ → ℚ) (hxn : '\n' ∉ xl) (hyn : '\n' ∉ yl) :
    ∃ text body, writeFile x xn xu y yn yu (matrixOf x y z) zn zu desc = ⟨text, none⟩ ∧
      IsTable (closeAs s) x y z desc (c!"Data in " ++ zu ++ c!" units") xl yl body text ∧
      (s ≠ .temperature → (∀ t ∈ x, FitsTemperature t) → (∀ v ∈ y, FitsFixed v) →
        (∀ i < x.length, ∀ j < y.length, Fits s (z i j)) → xl.length ≤ 10 → yl.length ≤ 19 →
        ∀ l ∈ body, l.length = 21 * y.length + 12) := by
  obtain ⟨labels, hl, e⟩ := writeTable_ok (types := [(c!"x", ⟨[], (xl, []), .temperature⟩),
      (c!"y", ⟨[], (yl, []), .fixed⟩), (c!"z", ⟨desc, (zl, []), s⟩)]) (adim := false)
    (x := ⟨x, c!"x", []⟩) (y := ⟨y, c!"y", []⟩) (z := matrixOf x y z) (zname := c!"z") (zunit := zu)
    rfl rfl rfl rfl rfl hn (zf := z) (fun i hi j hj => entry_matrixOf hi hj)
  simp only [labelOf, List.append_nil] at hl
  refine ⟨_, bodyLines s labels x y z, ?_, bodyLines_isTable (header_isLabels hl) hxn hyn, ?_⟩
  · rw [writeFile, hx, hy, hz]
    exact e
  · intro h1 h2 h3 h4 h5 h6
    exact bodyLines_length h1 (header_length hl h5 h6) h2 h3 h4

theorem writeFile_error {x y : List ℚ} {xn xu yn yu zn zu desc xl yl zl : Str} {s : NumStyle} {z : Values}
    (hx : setStyle xn xu = (.temperature, xl)) (hy : setStyle yn yu = (.fixed, yl))
    (hz : setStyle zn zu = (s, zl)) (hn : y ≠ []) {zf : ℕ → ℕ → ℚ} {n : ℕ} (hnx : n < x.length)
    (he : ∀ i < n, ∀ j < y.length, z.entry i j = .ok (zf i j)) {err : PyErr}
    (hbad : z.entry n 0 = .error err) :
    ∃ text, writeFile x xn xu y yn yu z zn zu desc = ⟨text, some err⟩ := by
  rw [writeFile, hx, hy, hz]
  exact writeTable_error (types := [(c!"x", ⟨[], (xl, []), .temperature⟩),
      (c!"y", ⟨[], (yl, []), .fixed⟩), (c!"z", ⟨desc, (zl, []), s⟩)])
    (x := ⟨x, c!"x", []⟩) (y := ⟨y, c!"y", []⟩) rfl rfl rfl rfl rfl hn hnx he hbad

/-! ### The dialogue -/

theorem select_of_mem {f : H5} (hf : f.Valid) {name : Str} {d : Dataset} (h : (name, d) ∈ f.sets)
    (h1 : lower name ≠ c!"help") (h2 : lower name ≠ c!"quit") : select f name = .exporting name := by
  rw [select, if_neg h1, if_neg h2, (C54_data hf h).2]
  rfl

theorem run_file {e : State} {f : H5} (hf : f.Valid) {name : Str} {d : Dataset} (h : (name, d) ∈ f.sets)
    (h1 : lower name ≠ c!"help") (h2 : lower name ≠ c!"quit") (rest : List Str) (disk : Disk) :
    run e f .quantity (name :: rest) disk = run e f (.file name) rest disk := by
  rw [run, select_of_mem hf h h1 h2]

end Verif.Export.Generic
