/-
C55, C86 and C87: the tables of the exporters, the files they overwrite, and several exporters in one
process.
-/
import Verif.Export.ExporterLemmas

noncomputable section

namespace Verif.Export
open Verif.Py Verif.IO Verif.IO.Spec Verif.Interfaces Verif.Phonon Spec

theorem labelT (u : Str) (h : '\n' ∉ u) : '\n' ∉ c!"T (" ++ u ++ c!")" := by
  simp [h]

/-- C55: every quantity that a quasi-harmonic run saves is offered by the exporter, whatever was loaded
before, and its export writes a table with one line per temperature and one cell per pressure; all lines
have the same width when the numbers fit. -/
theorem C55_quasi_harmonic (s : Shared) (u : Scales) (info : Str) (descriptions : Str → Str) (r : QhaRun)
    (filename : Str) (z : Str → ℕ → ℕ → ℚ)
    (hr : ∀ p ∈ qhaProperties, r.results p = matrixOf r.temperature r.pressure (z p))
    (hn : r.pressure ≠ []) (ht : '\n' ∉ u.temperature) (hp : '\n' ∉ u.pressure) :
    ∃ s' e, load quasiHarmonic s filename (saveQha u info descriptions r) = (s', .ok e) ∧ e.error = none ∧
      ∀ title ∈ qhaTitles, title.1 ∈ e.keys ∧ ∀ (a : Answer) (disk : Disk), a.selection = title.1 →
        ∃ text body, Wrote quasiHarmonic s' e a disk text ∧
          IsTable (Spec.close title.1) r.temperature r.pressure (z title.1) title.2
            (unitText (qhaUnit u title.1)) (c!"T (" ++ u.temperature ++ c!")")
            (c!"P (" ++ u.pressure ++ c!")") body text ∧
          (AllFit title.1 r.temperature r.pressure (z title.1) (c!"T (" ++ u.temperature ++ c!")")
            (c!"P (" ++ u.pressure ++ c!")") → ∀ l ∈ body, l.length = 21 * r.pressure.length + 12) := by
  have hf := saveQha_file (u := u) (info := info) (descriptions := descriptions) (r := r)
    (fun p hp x => by rw [hr p hp]; simp [matrixOf])
  obtain ⟨s', e, he, -, h2, h3, h4, h5, h6, h7, h8⟩ := load_ok hf s filename
  refine ⟨s', e, he, h2, fun title htitle => ?_⟩
  have hmem : title.1 ∈ qhaProperties ∧ title.1 ≠ c!"T" ∧ title.1 ≠ c!"P" := by
    have : ∀ t ∈ qhaTitles, t.1 ∈ qhaProperties ∧ t.1 ≠ c!"T" ∧ t.1 ≠ c!"P" := by decide
    exact this title htitle
  obtain ⟨m1, m2, m3⟩ := hmem
  have hset : (title.1, dataset (r.results title.1) (descriptions title.1) (qhaUnit u title.1)) ∈
      (saveQha u info descriptions r).sets :=
    List.mem_cons_of_mem _ (List.mem_cons_of_mem _ (List.mem_map.2 ⟨_, m1, rfl⟩))
  have hkey : title.1 ∈ e.keys := by
    rw [h3, List.mem_filter]
    refine ⟨List.mem_map.2 ⟨_, hset, rfl⟩, ?_⟩
    simp only [decide_eq_true_eq]
    exact ⟨m2, m3⟩
  refine ⟨hkey, fun a disk ha => ?_⟩
  obtain ⟨q, q1, q2, q3⟩ := qhaTypes_ok title htitle
  have hdata := h8 _ hset m2 m3
  have htab := tableOf_ok (k := quasiHarmonic) h4 h5 h6 h7 hdata
  simp only [dataset, hr _ m1] at htab
  obtain ⟨text, body, w1, w2, w3⟩ := writeTable_isTable (k := quasiHarmonic) (x := r.temperature)
    (y := r.pressure) (xu := u.temperature) (yu := u.pressure) (zu := qhaUnit u title.1)
    (qx := ⟨c!"Temperature", (c!"T (", c!")"), .temperature⟩) (qy := ⟨c!"Pressure", (c!"P (", c!")"), .fixed⟩)
    rfl rfl rfl rfl q1 q3 hn (z title.1) (by simp [labelOf, ht]) (by simp [labelOf, hp])
  refine ⟨text, body, run_wrote (ha ▸ hkey) ?_, ?_, w3⟩
  · rw [ha, htab, w1]
  · rw [q2] at w2
    have : unitLine quasiHarmonic.adimensional (qhaUnit u title.1) = unitText (qhaUnit u title.1) := by
      simp [unitLine, unitText, quasiHarmonic]
    rwa [this] at w2

/-- C55, in part: the quantities of a harmonic run that were calculated for each temperature and each
volume can be exported as tables.  Missing: the static and the zero-point energies, see the next
theorems. -/
theorem C55_harmonic_partial (s : Shared) (u : Scales) (info : Str) (descriptions : Str → Str) (r : HaRun)
    (filename : Str) (hs : ∀ p ∈ haProperties, ∀ x, r.results p ≠ .scalar x)
    (hn : r.volume ≠ []) (ht : '\n' ∉ u.temperature) (hv : '\n' ∉ u.volume) :
    ∃ s' e, load harmonic s filename (saveHa u info descriptions r) = (s', .ok e) ∧ e.error = none ∧
      ∀ title ∈ haTitles, title.1 ∈ e.keys ∧ ∀ (a : Answer) (disk : Disk), a.selection = title.1 →
        title.1 ≠ c!"U0" → ∀ z, r.results title.1 = matrixOf r.temperature r.volume z →
        ∃ text body, Wrote harmonic s' e a disk text ∧
          IsTable (Significant 12) r.temperature r.volume z title.2
            (c!"Data in " ++ haUnit u title.1 ++ c!" units") (c!"T (" ++ u.temperature ++ c!")")
            (c!"V (" ++ u.volume ++ c!"^3)") body text ∧
          (AllFit title.1 r.temperature r.volume z (c!"T (" ++ u.temperature ++ c!")")
            (c!"V (" ++ u.volume ++ c!"^3)") → ∀ l ∈ body, l.length = 21 * r.volume.length + 12) := by
  have hf := saveHa_file (u := u) (info := info) (descriptions := descriptions) (r := r) hs
  obtain ⟨s', e, he, -, h2, h3, h4, h5, h6, h7, h8⟩ := load_ok hf s filename
  refine ⟨s', e, he, h2, fun title htitle => ?_⟩
  have hmem : (title.1 = c!"U0" ∨ title.1 ∈ haProperties) ∧ title.1 ≠ c!"T" ∧ title.1 ≠ c!"V" ∧
      title.1 ∉ fixedNames := by
    have : ∀ t ∈ haTitles, (t.1 = c!"U0" ∨ t.1 ∈ haProperties) ∧ t.1 ≠ c!"T" ∧ t.1 ≠ c!"V" ∧
      t.1 ∉ fixedNames := by decide
    exact this title htitle
  obtain ⟨m1, m2, m3, m4⟩ := hmem
  have hkey : title.1 ∈ e.keys := by
    rw [h3, List.mem_filter]
    refine ⟨?_, by simp only [decide_eq_true_eq]; exact ⟨m2, m3⟩⟩
    rcases m1 with m1 | m1
    · rw [m1]
      exact List.mem_cons_of_mem _ (List.mem_cons_of_mem _ (List.mem_cons_self ..))
    · exact List.mem_map.2 ⟨_, List.mem_cons_of_mem _ (List.mem_cons_of_mem _ (List.mem_cons_of_mem _
        (List.mem_map.2 ⟨_, m1, rfl⟩))), rfl⟩
  refine ⟨hkey, fun a disk ha hu z hz => ?_⟩
  have m1' : title.1 ∈ haProperties := m1.resolve_left hu
  have hset : (title.1, dataset (r.results title.1) (descriptions title.1) (haUnit u title.1)) ∈
      (saveHa u info descriptions r).sets :=
    List.mem_cons_of_mem _ (List.mem_cons_of_mem _ (List.mem_cons_of_mem _ (List.mem_map.2 ⟨_, m1', rfl⟩)))
  obtain ⟨q, q1, q2, q3⟩ := haTypes_ok title htitle
  have hdata := h8 _ hset m2 m3
  have htab := tableOf_ok (k := harmonic) h4 h5 h6 h7 hdata
  simp only [dataset, hz] at htab
  obtain ⟨text, body, w1, w2, w3⟩ := writeTable_isTable (k := harmonic) (x := r.temperature)
    (y := r.volume) (xu := u.temperature) (yu := u.volume) (zu := haUnit u title.1)
    (qx := ⟨c!"Temperature", (c!"T (", c!")"), .temperature⟩) (qy := ⟨c!"Volume", (c!"V (", c!"^3)"), .fixed⟩)
    rfl rfl rfl rfl q1 q3 hn z (by simp [labelOf, ht]) (by simp [labelOf, hv])
  refine ⟨text, body, run_wrote (ha ▸ hkey) ?_, ?_, w3⟩
  · rw [ha, htab, w1]
  · rw [q2, Spec.close, if_neg m4] at w2
    exact w2

theorem writeAll_error {ss : List Str} {err : PyErr} {rest : List (Except PyErr Str)} :
    writeAll (ss.map .ok ++ .error err :: rest) = ⟨ss.flatten, some err⟩ := by
  rw [writeAll_ok]
  simp [writeAll]

/-- A table is not completed when a row has no entry for its first column. -/
theorem writeTable_error {types : List (Str × Quantity)} {adim : Bool} {x y : Series} {z : Values}
    {zname zunit : Str} {qx qy qz : Quantity} (hx : types.lookup x.name = some qx)
    (hqx : qx.numstyle = .temperature) (hy : types.lookup y.name = some qy) (hqy : qy.numstyle = .fixed)
    (hz : types.lookup zname = some qz) (hn : y.values ≠ []) {zf : ℕ → ℕ → ℚ} {n : ℕ}
    (hnx : n < x.values.length)
    (he : ∀ i < n, ∀ j < y.values.length, z.entry i j = .ok (zf i j)) {err : PyErr}
    (hbad : z.entry n 0 = .error err) :
    ∃ text, writeTable types adim x y z zname zunit = ⟨text, some err⟩ := by
  have hl : y.values.length ≠ 0 := by simpa using hn
  obtain ⟨m, hm⟩ := Nat.exists_eq_succ_of_ne_zero hl
  obtain ⟨ss, a, -⟩ := rows_ok (x := x) (y := y) hx hqx hz (x.values.take n) 0 (zf := zf)
    (fun i hi j hj => by
      rw [Nat.zero_add]
      exact he i (by rw [List.length_take] at hi; omega) j hj)
  obtain ⟨t, ht⟩ : ∃ t, x.values[n]? = some t := ⟨x.values[n], by simp [hnx]⟩
  have hrow : ∃ rest, rowSteps types x y z zname n t =
      .ok (putData t .temperature) :: .error err :: rest := by
    refine ⟨((List.range m).map Nat.succ).map (fun j =>
      (z.entry n j).bind fun v => (quantity types zname).map fun q => putData v q.numstyle) ++ [.ok newrow], ?_⟩
    rw [rowSteps, quantity, hx, hm, List.range_succ_eq_map]
    simp only [Except.map, hqx, List.map_cons, hbad, Except.bind, List.cons_append, List.nil_append]
  obtain ⟨rest, hrow⟩ := hrow
  have hsplit : (x.values.zipIdx.flatMap fun p => rowSteps types x y z zname p.2 p.1) =
      ss.map .ok ++ (.ok (putData t .temperature) :: .error err ::
        (rest ++ ((x.values.drop (n + 1)).zipIdx (n + 1)).flatMap fun p => rowSteps types x y z zname p.2 p.1)) := by
    have e1 : x.values = x.values.take n ++ t :: x.values.drop (n + 1) := by
      have h3 : x.values.drop n = t :: x.values.drop (n + 1) := by
        rw [List.drop_eq_getElem_cons hnx]
        rw [List.getElem?_eq_getElem hnx] at ht
        rw [Option.some.inj ht]
      rw [← h3, List.take_append_drop]
    have hlen : (x.values.take n).length = n := by simp; omega
    conv_lhs => rw [e1]
    rw [List.zipIdx_append, List.flatMap_append, hlen, a, List.zipIdx_cons, List.flatMap_cons]
    simp only [Nat.zero_add, hrow, List.cons_append]
  have hcols : y.values.map (fun v => (quantity types y.name).map fun q => putData v q.numstyle) =
      (y.values.map fun v => putData v .fixed).map .ok := by
    rw [quantity, hy, List.map_map]
    refine List.map_congr_left fun v _ => ?_
    simp [Except.map, hqy]
  obtain ⟨labels, hlab⟩ : ∃ l, header y.values.length (labelOf qx x.unit) (labelOf qy y.unit) = .ok l :=
    ⟨_, by rw [header, if_neg hl]⟩
  have hhead : ((quantity types x.name).bind fun qx => (quantity types y.name).bind fun qy =>
      header y.values.length (qx.label.1 ++ x.unit ++ qx.label.2) (qy.label.1 ++ y.unit ++ qy.label.2)) =
      .ok labels := by
    rw [quantity, hx]
    simp only [Except.bind]
    rw [quantity, hy]
    exact hlab
  have hall : ∃ rest', writeTable types adim x y z zname zunit = writeAll (([fileHeader, ['\n'], qz.desc, ['\n'],
      unitLine adim zunit, ['\n'], ['\n'], separator (totw y.values.length) '+' '-', ['\n'], labels, ['\n'],
      putEmpty] ++ (y.values.map fun v => putData v .fixed) ++
      [newrow, separator (totw y.values.length) '+' '=', ['\n']] ++ ss ++ [putData t .temperature]).map .ok ++
      .error err :: rest') := by
    refine ⟨(rest ++ ((x.values.drop (n + 1)).zipIdx (n + 1)).flatMap fun p =>
      rowSteps types x y z zname p.2 p.1) ++ [.ok (separator (totw y.values.length) '+' '=')], ?_⟩
    rw [writeTable, hhead, hcols, hsplit]
    simp only [quantity, hz, hx, Except.map, List.map_append, List.map_cons, List.map_nil, List.append_assoc,
      List.cons_append, List.nil_append]
  obtain ⟨rest', hall⟩ := hall
  rw [hall, writeAll_error]
  exact ⟨_, rfl⟩

/-- C55, violated: the static energy, which the harmonic exporter offers, has one value per volume and none
per temperature; its export ends with IndexError and leaves a truncated file. -/
theorem C55_static_violated (s : Shared) (u : Scales) (info : Str) (descriptions : Str → Str) (r : HaRun)
    (filename : Str) (hs : ∀ p ∈ haProperties, ∀ x, r.results p ≠ .scalar x) (hn : r.volume ≠ [])
    (ht : r.temperature ≠ []) :
    ∃ s' e, load harmonic s filename (saveHa u info descriptions r) = (s', .ok e) ∧ e.error = none ∧
      c!"U0" ∈ e.keys ∧ ∀ (a : Answer) (rest : List Answer) (disk : Disk), a.selection = c!"U0" →
        ∃ text, run harmonic s' e (a :: rest) disk =
          (Function.update disk (outfileOf e disk a) (some text), .crashed .indexError) := by
  have hf := saveHa_file (u := u) (info := info) (descriptions := descriptions) (r := r) hs
  obtain ⟨s', e, he, -, h2, h3, h4, h5, h6, h7, h8⟩ := load_ok hf s filename
  have hset : (c!"U0", dataset (.vec r.energy) c!"Static (electronic) energies" u.energy) ∈
      (saveHa u info descriptions r).sets :=
    List.mem_cons_of_mem _ (List.mem_cons_of_mem _ (List.mem_cons_self ..))
  have hkey : c!"U0" ∈ e.keys := by
    rw [h3, List.mem_filter]
    exact ⟨List.mem_map.2 ⟨_, hset, rfl⟩, by decide⟩
  have hdata := h8 _ hset (by show c!"U0" ≠ c!"T"; decide) (by show c!"U0" ≠ c!"V"; decide)
  have htab := tableOf_ok (k := harmonic) h4 h5 h6 h7 hdata
  refine ⟨s', e, he, h2, hkey, fun a rest disk ha => ?_⟩
  obtain ⟨text, hw⟩ := writeTable_error (types := haTypes) (adim := false)
    (x := ⟨r.temperature, c!"T", u.temperature⟩) (y := ⟨r.volume, c!"V", u.volume⟩)
    (z := .vec r.energy) (zname := c!"U0") (zunit := haUnit u c!"U0")
    (qx := ⟨c!"Temperature", (c!"T (", c!")"), .temperature⟩) (qy := ⟨c!"Volume", (c!"V (", c!"^3)"), .fixed⟩)
    (qz := ⟨c!"Static energy", (c!"E0 (", c!")"), .energy⟩) rfl rfl rfl rfl rfl hn (zf := fun _ _ => 0)
    (n := 0) (List.length_pos_iff.2 ht) (fun i hi => absurd hi (by omega)) (err := .indexError) rfl
  refine ⟨text, run_crashed (ha ▸ hkey) ?_ rest⟩
  rw [ha]
  exact htab.trans (congrArg _ hw)

/-- C55, violated: the zero-point energy is saved with a single row; with more than one temperature its
export ends with IndexError and leaves a truncated file. -/
theorem C55_zero_point_violated (s : Shared) (u : Scales) (info : Str) (descriptions : Str → Str) (r : HaRun)
    (filename : Str) (hs : ∀ p ∈ haProperties, ∀ x, r.results p ≠ .scalar x) (hn : r.volume ≠ [])
    (ht : 2 ≤ r.temperature.length) {row : List ℚ} (hrow : row.length = r.volume.length)
    (hz : r.results c!"Uzp" = .mat [row]) :
    ∃ s' e, load harmonic s filename (saveHa u info descriptions r) = (s', .ok e) ∧ e.error = none ∧
      c!"Uzp" ∈ e.keys ∧ ∀ (a : Answer) (rest : List Answer) (disk : Disk), a.selection = c!"Uzp" →
        ∃ text, run harmonic s' e (a :: rest) disk =
          (Function.update disk (outfileOf e disk a) (some text), .crashed .indexError) := by
  have hf := saveHa_file (u := u) (info := info) (descriptions := descriptions) (r := r) hs
  obtain ⟨s', e, he, -, h2, h3, h4, h5, h6, h7, h8⟩ := load_ok hf s filename
  have hset : (c!"Uzp", dataset (r.results c!"Uzp") (descriptions c!"Uzp") (haUnit u c!"Uzp")) ∈
      (saveHa u info descriptions r).sets :=
    List.mem_cons_of_mem _ (List.mem_cons_of_mem _ (List.mem_cons_of_mem _ (List.mem_map.2 ⟨_, by decide, rfl⟩)))
  have hkey : c!"Uzp" ∈ e.keys := by
    rw [h3, List.mem_filter]
    exact ⟨List.mem_map.2 ⟨_, hset, rfl⟩, by decide⟩
  have hdata := h8 _ hset (by show c!"Uzp" ≠ c!"T"; decide) (by show c!"Uzp" ≠ c!"V"; decide)
  have htab := tableOf_ok (k := harmonic) h4 h5 h6 h7 hdata
  simp only [dataset, hz] at htab
  refine ⟨s', e, he, h2, hkey, fun a rest disk ha => ?_⟩
  obtain ⟨text, hw⟩ := writeTable_error (types := haTypes) (adim := false)
    (x := ⟨r.temperature, c!"T", u.temperature⟩) (y := ⟨r.volume, c!"V", u.volume⟩)
    (z := .mat [row]) (zname := c!"Uzp") (zunit := haUnit u c!"Uzp")
    (qx := ⟨c!"Temperature", (c!"T (", c!")"), .temperature⟩) (qy := ⟨c!"Volume", (c!"V (", c!"^3)"), .fixed⟩)
    (qz := ⟨c!"Zero-point energy", (c!"Ezp (", c!")"), .energy⟩) rfl rfl rfl rfl rfl hn
    (zf := fun _ j => row[j]?.getD 0) (n := 1) (by show 1 < r.temperature.length; omega)
    (fun i hi j hj => by
      have hj' : j < row.length := hrow ▸ hj
      obtain rfl : i = 0 := by omega
      simp [Values.entry, at_, Except.bind, hj']) (err := .indexError) (by simp [Values.entry, at_, Except.bind])
  refine ⟨text, run_crashed (ha ▸ hkey) ?_ rest⟩
  rw [ha]
  exact htab.trans (congrArg _ hw)

/-! ### Overwriting -/

/-- C86, in part: an existing file is left as it is by every dialogue in which the user never agrees to
overwrite it and never types its name. -/
theorem C86_unconfirmed_partial (k : Kind) (s : Shared) (e : Exporter) (answers : List Answer) (disk : Disk)
    {file text : Str} (hf : disk file = some text)
    (h : ∀ a ∈ answers, (a.overwrite = true → e.basename ++ '_' :: a.selection ++ c!".dat" ≠ file) ∧
      (a.overwrite = false → a.name ≠ file)) :
    (run k s e answers disk).1 file = some text := by
  induction answers generalizing disk with
  | nil => exact hf
  | cons a rest ih =>
    have hr : ∀ a ∈ rest, (a.overwrite = true → e.basename ++ '_' :: a.selection ++ c!".dat" ≠ file) ∧
      (a.overwrite = false → a.name ≠ file) := fun b hb => h b (List.mem_cons_of_mem _ hb)
    obtain ⟨h1, h2⟩ := h a (by simp)
    have hne : file ≠ outfileOf e disk a := by
      unfold outfileOf
      simp only
      split
      · split
        · exact (h1 ‹_›).symm
        · rename_i ho
          exact (h2 (by simpa using ho)).symm
      · rename_i hd
        intro hh
        rw [← hh, hf] at hd
        exact hd rfl
    rw [run]
    split
    · split
      · exact hf
      · split
        · simp [Function.update_of_ne hne, hf]
        · have hf' : ∀ w : Written, Function.update disk (outfileOf e disk a) (some w.text) file = some text :=
            fun w => by rw [Function.update_of_ne hne, hf]
          split
          · exact ih _ (hf' _) hr
          · exact hf' _
    · exact ih disk hf hr

/-- C86: a dialogue writes no files but those named after the selections and those typed by the user. -/
theorem C86_names (k : Kind) (s : Shared) (e : Exporter) (answers : List Answer) (disk : Disk) {file : Str}
    (h : ∀ a ∈ answers, e.basename ++ '_' :: a.selection ++ c!".dat" ≠ file ∧ a.name ≠ file) :
    (run k s e answers disk).1 file = disk file := by
  induction answers generalizing disk with
  | nil => rfl
  | cons a rest ih =>
    have hr : ∀ a ∈ rest, e.basename ++ '_' :: a.selection ++ c!".dat" ≠ file ∧ a.name ≠ file :=
      fun b hb => h b (List.mem_cons_of_mem _ hb)
    obtain ⟨h1, h2⟩ := h a (by simp)
    have hne : file ≠ outfileOf e disk a := by
      unfold outfileOf
      simp only
      split
      · split
        · exact h1.symm
        · exact h2.symm
      · exact h1.symm
    rw [run]
    split
    · split
      · rfl
      · split
        · simp [Function.update_of_ne hne]
        · split
          · rw [ih _ hr, Function.update_of_ne hne]
          · simp [Function.update_of_ne hne]
    · exact ih disk hr

/-- C86, violated: when the user refuses to overwrite the file named after the selection and types the name
of another existing file, that file is overwritten without a question. -/
theorem C86_typed_violated {k : Kind} {s : Shared} {e : Exporter} {a : Answer} {w : Written} {disk : Disk}
    (hk : a.selection ∈ e.keys) (hw : tableOf k s a.selection = .ok w)
    (hd : (disk (e.basename ++ '_' :: a.selection ++ c!".dat")).isSome) (ha : a.overwrite = false)
    (hm : a.more = false) (rest : List Answer) :
    (run k s e (a :: rest) disk).1 a.name = some w.text := by
  have ho : outfileOf e disk a = a.name := by simp only [outfileOf, hd, ha, if_true]; rfl
  rw [run, if_pos hk, hw]
  simp only [ho, hm]
  split <;> simp

/-! ### Several exporters -/

/-- C87, violated: an exporter shows the data of the file that was loaded last by any exporter of the
process, not those of its own file: after a second file is loaded, what the first exporter writes under the
name of its own file is the table of the second file. -/
theorem C87_shared_violated {k : Kind} {f1 f2 : H5} {info1 info2 : Str} {x1 y1 x2 y2 : List ℚ}
    {xu1 yu1 xu2 yu2 : Str} {unit1 unit2 : Str → Str} (h1 : ResultFile k f1 info1 x1 y1 xu1 yu1 unit1)
    (h2 : ResultFile k f2 info2 x2 y2 xu2 yu2 unit2) (s : Shared) (name1 name2 : Str) :
    ∃ s1 e1 s2 e2, load k s name1 f1 = (s1, .ok e1) ∧ load k s1 name2 f2 = (s2, .ok e2) ∧
      ∀ d1 d2 key, (key, d1) ∈ f1.sets → (key, d2) ∈ f2.sets → key ≠ c!"T" → key ≠ k.second →
        ∀ (a : Answer) (disk : Disk), a.selection = key → a.more = false → disk (splitext name1 ++ '_' :: key ++ c!".dat") = none →
          (run k s2 e1 [a] disk).1 (splitext name1 ++ '_' :: key ++ c!".dat") =
            some (writeTable k.types k.adimensional ⟨x2, c!"T", xu2⟩ ⟨y2, k.second, yu2⟩ d2.values key
              (unit2 key)).text := by
  obtain ⟨s1, e1, he1, b1, -, k1, -⟩ := load_ok h1 s name1
  obtain ⟨s2, e2, he2, -, -, -, h4, h5, h6, h7, h8⟩ := load_ok h2 s1 name2
  refine ⟨s1, e1, s2, e2, he1, he2, fun d1 d2 key hd1 hd2 n1 n2 a disk ha hm hd => ?_⟩
  have hk : a.selection ∈ e1.keys := by
    rw [k1, List.mem_filter, ha]
    exact ⟨List.mem_map.2 ⟨_, hd1, rfl⟩, by simp only [decide_eq_true_eq]; exact ⟨n1, n2⟩⟩
  have ho : outfileOf e1 disk a = splitext name1 ++ '_' :: key ++ c!".dat" := by
    simp only [outfileOf, b1, ha, hd, Option.isSome_none]
    simp
  rw [run, if_pos hk, ha, tableOf_ok h4 h5 h6 h7 (h8 _ hd2 n1 n2)]
  simp only [ho, hm]
  split <;> simp

/-- C87: an exporter whose file was the last one loaded writes the data of its own file, whatever was
loaded before. -/
theorem C87_last_partial {k : Kind} {f : H5} {info : Str} {x y : List ℚ} {xu yu : Str} {unit : Str → Str}
    (h : ResultFile k f info x y xu yu unit) (s : Shared) (name : Str) :
    ∃ s' e, load k s name f = (s', .ok e) ∧ e.basename = splitext name ∧
      ∀ p ∈ f.sets, p.1 ≠ c!"T" → p.1 ≠ k.second → tableOf k s' p.1 =
        .ok (writeTable k.types k.adimensional ⟨x, c!"T", xu⟩ ⟨y, k.second, yu⟩ p.2.values p.1 (unit p.1)) := by
  obtain ⟨s', e, he, b, -, -, h4, h5, h6, h7, h8⟩ := load_ok h s name
  exact ⟨s', e, he, b, fun p hp n1 n2 => tableOf_ok h4 h5 h6 h7 (h8 p hp n1 n2)⟩

end Verif.Export
