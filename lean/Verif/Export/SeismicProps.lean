/-
C98: the tables exported from seismic results, and exporters given files of another kind.
-/
import Verif.Export.SeismicSpec
import Verif.Export.ElasticProps
import Verif.Seismic.Scan
import Verif.Seismic.Isotropic
import Mathlib.Analysis.SpecialFunctions.Log.Base

noncomputable section

namespace Verif.Export
open Verif.Py Verif.IO Verif.IO.Spec Verif.Interfaces Verif.Phonon Spec

/-! ### The text -/

theorem waveHeader_eq (w : Wave) :
    waveHeader (seismicInfo c!"GPa") w.key = .ok (((waveIntro w).take 23).flatMap (· ++ ['\n'])) := by
  cases w <;> decide +kernel

theorem tokens_right {w : ℕ} {s : Str} (l : List (ℕ × Str)) :
    Tokens (s :: l.map Prod.snd) (alignRight w s ++ (l.flatMap fun p => ' ' :: alignRight p.1 p.2)) := by
  induction l generalizing w s with
  | nil =>
    simp only [List.map_nil, List.flatMap_nil, List.append_nil]
    exact .last (blank_replicate _)
  | cons p l ih =>
    rw [List.flatMap_cons, alignRight]
    exact .cons (blank_replicate _) (.inl rfl) ih

theorem intercalate_space (a : Str) (l : List Str) :
    List.intercalate [' '] (a :: l) = a ++ l.flatMap fun s => ' ' :: s := by
  induction l generalizing a with
  | nil => simp
  | cons b l ih =>
    have : List.intercalate [' '] (a :: b :: l) = a ++ ' ' :: List.intercalate [' '] (b :: l) := by
      simp [List.intercalate]
    rw [this, ih, List.flatMap_cons]
    simp

/-- A line of numbers in columns aligned to the right. -/
theorem numbers_right (fs : List (ℕ × ℕ)) (row : List ℚ) :
    Numbers (List.zipWith (fun f x => printed f.2 x) fs row)
      (List.intercalate [' '] (List.zipWith (fun f x => alignRight f.1 (formatFixed f.2 x)) fs row)) := by
  refine ⟨List.zipWith (fun f x => formatFixed f.2 x) fs row, ?_, ?_⟩
  · cases h : List.zip fs row with
    | nil =>
      have e : ∀ {γ : Type} (g : ℕ × ℕ → ℚ → γ), List.zipWith g fs row = [] := by
        intro γ g
        rw [← List.map_uncurry_zip_eq_zipWith, h]; rfl
      rw [e, e]
      exact .nil (by simp [blank_nil])
    | cons p l =>
      have e : ∀ {γ : Type} (g : ℕ × ℕ → ℚ → γ), List.zipWith g fs row = g p.1 p.2 :: l.map fun q => g q.1 q.2 := by
        intro γ g
        rw [← List.map_uncurry_zip_eq_zipWith, h]; rfl
      rw [e, e, intercalate_space]
      have := tokens_right (w := p.1.1) (s := formatFixed p.1.2 p.2) (l.map fun q => (q.1.1, formatFixed q.1.2 q.2))
      simpa [List.flatMap_map, Function.comp_def] using this
  · induction fs generalizing row with
    | nil => simp
    | cons f fs ih =>
      cases row with
      | nil => simp
      | cons x row => exact .cons (formatFixed_numeral _ _) (ih row)

theorem waveLine_ok {row : List ℚ} (h : 14 ≤ row.length) : ∃ l, waveLine row = .ok (l ++ ['\n']) ∧ '\n' ∉ l ∧
    ∃ vs, vs.length = 14 ∧ Numbers vs l ∧
      ∀ (j : ℕ) d x v, waveDecimals[j]? = some d → row[j]? = some x → vs[j]? = some v → Rounded d x v := by
  refine ⟨_, by rw [waveLine, if_neg (by omega)], ?_, _, ?_, numbers_right waveFormats row, ?_⟩
  · exact numbers_no_newline (numbers_right waveFormats row)
  · simp [waveFormats]; omega
  · intro j d x v hd hx hv
    have hf : waveDecimals = waveFormats.map Prod.snd := rfl
    rw [hf, List.getElem?_map] at hd
    cases hw : waveFormats[j]? with
    | none => rw [hw] at hd; cases hd
    | some f =>
      rw [hw] at hd
      rw [List.getElem?_zipWith, hw, hx] at hv
      cases hd
      cases hv
      exact printed_rounded _ _

theorem waveText {w : Wave} {rows : List (List ℚ)} (h : ∀ row ∈ rows, 14 ≤ row.length) :
    ∃ text, writeAll (.ok (((waveIntro w).take 23).flatMap (· ++ ['\n'])) :: .ok c!"\n\n" :: rows.map waveLine) =
      ⟨text, none⟩ ∧ IsWaveTable w rows text := by
  have hl : ∃ lines : List Str, rows.map waveLine = (lines.map (· ++ ['\n'])).map .ok ∧ (∀ l ∈ lines, '\n' ∉ l) ∧
      List.Forall₂ (fun row l => ∃ vs, vs.length = 14 ∧ Numbers vs l ∧
        ∀ (j : ℕ) d x v, waveDecimals[j]? = some d → row[j]? = some x → vs[j]? = some v → Rounded d x v) rows lines := by
    induction rows with
    | nil => exact ⟨[], rfl, by simp, .nil⟩
    | cons row rows ih =>
      obtain ⟨lines, e, n, f⟩ := ih fun r hr => h r (List.mem_cons_of_mem _ hr)
      obtain ⟨l, e1, n1, f1⟩ := waveLine_ok (h row (by simp))
      refine ⟨l :: lines, by simp [e, e1], ?_, .cons f1 f⟩
      intro l' hl'
      rcases List.mem_cons.1 hl' with rfl | hl'
      · exact n1
      · exact n l' hl'
  obtain ⟨lines, e, n, f⟩ := hl
  refine ⟨(waveIntro w ++ lines).flatMap (· ++ ['\n']), ?_, lines, rfl, n, f⟩
  rw [e]
  rw [show (Except.ok (((waveIntro w).take 23).flatMap (· ++ ['\n'])) :: .ok c!"\n\n" ::
      (lines.map (· ++ ['\n'])).map .ok : List (Except PyErr Str)) =
      ((((waveIntro w).take 23).flatMap (· ++ ['\n'])) :: c!"\n\n" :: lines.map (· ++ ['\n'])).map .ok by simp]
  rw [writeAll_all]
  refine congrArg (fun t : Str => (⟨t, none⟩ : Written)) ?_
  have hi : (waveIntro w).flatMap (· ++ ['\n']) = ((waveIntro w).take 23).flatMap (· ++ ['\n']) ++ c!"\n\n" := by
    cases w <;> decide +kernel
  rw [List.flatMap_append, hi]
  simp only [List.flatten_cons, List.append_assoc, List.flatMap_def]

/-! ### Loading -/

/-- The names in the file. -/
def waveNames : List Str := [c!"fsecondary", c!"primary", c!"ssecondary"]

theorem saveSeismic_sets (punit : Str) (slow fast primary : List (List ℚ)) :
    (saveSeismic punit slow fast primary).sets = [(c!"fsecondary", ⟨.mat fast, []⟩), (c!"primary", ⟨.mat primary, []⟩),
      (c!"ssecondary", ⟨.mat slow, []⟩)] := rfl

theorem loadWaves_eq (f p s : Values) (hf : f.slice = .ok f) (hp : p.slice = .ok p) (hs : s.slice = .ok s) (d : WaveData) :
    loadWaves [(c!"fsecondary", ⟨f, []⟩), (c!"primary", ⟨p, []⟩), (c!"ssecondary", ⟨s, []⟩)] d =
      (assign (assign (assign (assign (assign (assign d c!"fsecondary" none) c!"fsecondary" (some f)) c!"primary" none)
        c!"primary" (some p)) c!"ssecondary" none) c!"ssecondary" (some s), .ok ()) := by
  simp only [loadWaves, hf, hp, hs]

theorem loadSeismic_ok (punit : Str) (slow fast primary : List (List ℚ)) (d : WaveData) (filename : Str)
    (hd : d.map Prod.fst = [] ∨ d.map Prod.fst = waveNames) :
    loadSeismic d filename (saveSeismic punit slow fast primary) =
      ([(c!"fsecondary", some (.mat fast)), (c!"primary", some (.mat primary)), (c!"ssecondary", some (.mat slow))],
        .ok { basename := splitext filename, info := seismicInfo punit, keys := [c!"ssecondary", c!"fsecondary", c!"primary"] }) := by
  have hi : item (saveSeismic punit slow fast primary).attrs c!"info" = .ok (seismicInfo punit) := by
    simp [item, saveSeismic]
  have hp : valuesOf (saveSeismic punit slow fast primary) c!"primary" = .ok (.mat primary) := rfl
  unfold loadSeismic
  rw [hi]
  simp only [hp]
  rw [saveSeismic_sets, loadWaves_eq _ _ _ rfl rfl rfl]
  simp only [Except.map]
  refine Prod.ext ?_ rfl
  rcases hd with hd | hd
  · rw [List.map_eq_nil_iff] at hd
    subst hd
    rfl
  · match d, hd with
    | [(_, a), (_, b), (_, c)], hd =>
      simp only [List.map_cons, List.map_nil, waveNames, List.cons.injEq, and_true] at hd
      obtain ⟨rfl, rfl, rfl⟩ := hd
      rfl

theorem loadSeismic_noWaves {f : H5} (h : NoWaves f) (d : WaveData) (filename : Str) :
    (loadSeismic d filename f).1 = d ∧ ∃ e err, (loadSeismic d filename f).2 = .ok e ∧ e.error = some err := by
  unfold loadSeismic
  cases hi : item f.attrs c!"info" with
  | error err => exact ⟨rfl, _, _, rfl, rfl⟩
  | ok info =>
    have hs : f.sets.lookup c!"primary" = none := by
      rcases h with h | h
      · rw [item, h] at hi; cases hi
      · exact h
    simp only [valuesOf, item, hs, Except.bind]
    exact ⟨trivial, _, _, rfl, rfl⟩

theorem afterLoadingWaves_keys (history : List (Str × H5)) (h : ∀ p ∈ history, NoWaves p.2 ∨ SavedSeismic p.2)
    (d : WaveData) (hd : d.map Prod.fst = [] ∨ d.map Prod.fst = waveNames) :
    (afterLoadingWaves d history).map Prod.fst = [] ∨ (afterLoadingWaves d history).map Prod.fst = waveNames := by
  induction history generalizing d with
  | nil => exact hd
  | cons p history ih =>
    refine ih (fun q hq => h q (List.mem_cons_of_mem _ hq)) _ ?_
    rcases h p (by simp) with hf | ⟨punit, slow, fast, primary, hf⟩
    · rw [(loadSeismic_noWaves hf d p.1).1]
      exact hd
    · rw [hf, loadSeismic_ok punit slow fast primary d p.1 hd]
      exact .inr rfl

/-- C98: whatever seismic results and other files were loaded before, the exporter of a seismic result file offers
the three waves, and the selection of one writes the description of that data set and a line for each
direction, with the fourteen numbers of that wave as they were saved. -/
theorem C98_tables (history : List (Str × H5)) (hh : ∀ p ∈ history, NoWaves p.2 ∨ SavedSeismic p.2)
    (slow fast primary : List (List ℚ)) (filename : Str) :
    ∃ d e, loadSeismic (afterLoadingWaves [] history) filename (saveSeismic c!"GPa" slow fast primary) = (d, .ok e) ∧
      e.error = none ∧ (∀ key, key ∈ e.keys ↔ ∃ w : Wave, key = w.key) ∧
      ∀ w : Wave, (∀ row ∈ tableFor slow fast primary w, 14 ≤ row.length) →
        ∀ (a : Answer) (disk : Disk), a.selection = w.key →
          ∃ text, WroteWaves d e a disk text ∧ IsWaveTable w (tableFor slow fast primary w) text := by
  refine ⟨_, _, loadSeismic_ok c!"GPa" slow fast primary _ filename
    (afterLoadingWaves_keys history hh [] (.inl rfl)), rfl, fun key => ?_, fun w hw a disk ha => ?_⟩
  · constructor
    · intro h
      simp only [List.mem_cons, List.not_mem_nil, or_false] at h
      rcases h with rfl | rfl | rfl
      · exact ⟨.slow, rfl⟩
      · exact ⟨.fast, rfl⟩
      · exact ⟨.primary, rfl⟩
    · rintro ⟨w, rfl⟩
      show w.key ∈ [c!"ssecondary", c!"fsecondary", c!"primary"]
      cases w <;> decide
  · obtain ⟨text, h1, h2⟩ := waveText (w := w) hw
    refine ⟨text, fun l rest => ⟨some (.mat (tableFor slow fast primary w)), ?_⟩, h2⟩
    have hk : w.key ∈ [c!"ssecondary", c!"fsecondary", c!"primary"] := by cases w <;> decide
    have hpick : pick w.key [(c!"fsecondary", some (.mat fast)), (c!"primary", some (.mat primary)),
        (c!"ssecondary", some (.mat slow))] l = .ok (some (.mat (tableFor slow fast primary w))) := by
      cases w <;> rfl
    rw [runSeismic, if_pos (by rw [ha]; exact hk), ha, hpick]
    simp only [waveHeader_eq, twoDimensional, Except.bind, Except.map, h1]

/-! ### Files of another kind -/

theorem exportCommand_refused {loaded : Except PyErr Exporter} {e : Exporter} {err : LoadError} (h : loaded = .ok e)
    (he : e.error = some err) (run : Exporter → Disk → Disk × Ended) (disk : Disk) :
    exportCommand loaded run disk = (disk, .refused err) := by
  subst h
  unfold exportCommand
  simp only [he]

theorem load_refused {k : Kind} {f : H5} {info : Str} (hi : f.attrs.lookup c!"info" = some info)
    (h : f.sets.lookup c!"T" = none ∨
      (f.sets.lookup k.second = none ∧ ∃ ds u, f.sets.lookup c!"T" = some ds ∧ (∀ x, ds.values ≠ .scalar x) ∧
        ds.attrs.lookup c!"unit" = some u)) (s : Shared) (filename : Str) :
    ∃ s' e, load k s filename f = (s', .ok e) ∧ e.error = some .notHa := by
  unfold load
  simp only [item, hi]
  rcases h with h | ⟨h, ds, u, h1, h2, h3⟩
  · simp only [loadAxes, valuesOf, item, h, Except.bind]
    exact ⟨_, _, rfl, rfl⟩
  · simp only [loadAxes, valuesOf, unitOf, item, h, h1, h3, Except.bind, slice_ok h2]
    exact ⟨_, _, rfl, rfl⟩

theorem haSets (u : Scales) (info : Str) (descriptions : Str → Str) (r : HaRun) {key : Str}
    (h : key ∉ [c!"V", c!"T", c!"U0"] ++ haProperties) : (saveHa u info descriptions r).sets.lookup key = none := by
  refine lookup_none_of_keys fun hk => h ?_
  simpa [saveHa, haProperties] using hk

theorem qhaSets (u : Scales) (info : Str) (descriptions : Str → Str) (r : QhaRun) {key : Str}
    (h : key ∉ [c!"T", c!"P"] ++ qhaProperties) : (saveQha u info descriptions r).sets.lookup key = none := by
  refine lookup_none_of_keys fun hk => h ?_
  simpa [saveQha, qhaProperties] using hk

theorem elasticSets (punit : Str) (r : Polar.Results ℚ) (waves : Bool) (tab : Polar.Plane → Polar.Var → List (List ℚ))
    (hr : r.polar = Polar.sectionsOf waves tab) {key : Str}
    (h : key ∉ [c!"averages", c!"compliance", c!"eigenvals"] ++ sectionNames true ++ [c!"stiffness"]) :
    (elasticFile (Polar.saveElastic punit r)).sets.lookup key = none := by
  refine lookup_none_of_keys fun hk => h ?_
  rw [elasticFile_sets punit r waves tab hr] at hk
  cases waves
  · have hk' : key ∈ [c!"averages", c!"compliance", c!"eigenvals"] ++ sectionNames false ++ [c!"stiffness"] := hk
    have : ∀ x ∈ sectionNames false, x ∈ sectionNames true := by decide
    simp only [List.mem_append] at hk' ⊢
    rcases hk' with (h | h) | h
    · exact .inl (.inl h)
    · exact .inl (.inr (this _ h))
    · exact .inr h
  · exact hk

/-- C98: each command refuses the result files of the other three kinds with a message, whatever the user would
answer, and writes nothing. -/
theorem C98_kinds (k k' : ResultKind) (hk : k ≠ k') (f : H5) (hf : IsResult k' f) (answers : List Answer) (filename : Str)
    (disk : Disk) : exportFor k answers filename f disk = (disk, .refused .notHa) := by
  have hT : ∀ k : Kind, f.sets.lookup c!"T" = none → (∃ info, f.attrs.lookup c!"info" = some info) →
      ∃ s' e, load k {} filename f = (s', .ok e) ∧ e.error = some .notHa := by
    rintro k h ⟨info, hi⟩
    exact load_refused hi (.inl h) _ _
  have hE : f.sets.lookup c!"stiffness" = none → (∃ info, f.attrs.lookup c!"info" = some info) →
      ∃ d e, loadElastic [] filename f = (d, .ok e) ∧ e.error = some .notHa := by
    rintro h ⟨info, hi⟩
    simp only [loadElastic, item, hi, valuesOf, h, Except.bind]
    exact ⟨_, _, rfl, rfl⟩
  have hS : f.sets.lookup c!"primary" = none → (∃ info, f.attrs.lookup c!"info" = some info) →
      ∃ d e, loadSeismic [] filename f = (d, .ok e) ∧ e.error = some .notHa := by
    rintro h ⟨info, hi⟩
    simp only [loadSeismic, item, hi, valuesOf, h, Except.bind]
    exact ⟨_, _, rfl, rfl⟩
  have hinfo : ∃ info, f.attrs.lookup c!"info" = some info := by
    cases k' with
    | harmonic => obtain ⟨u, info, ds, r, rfl⟩ := hf; exact ⟨_, rfl⟩
    | quasiHarmonic => obtain ⟨u, info, ds, r, rfl⟩ := hf; exact ⟨_, rfl⟩
    | elastic => obtain ⟨punit, r, waves, tab, hr, rfl⟩ := hf; exact ⟨_, rfl⟩
    | seismic => obtain ⟨punit, slow, fast, primary, rfl⟩ := hf; exact ⟨_, rfl⟩
  have fin : ∀ {α : Type} {x : α × Except PyErr Exporter} {run : α → Exporter → Disk → Disk × Ended},
      (∃ d e, x = (d, .ok e) ∧ e.error = some .notHa) →
      exportCommand x.2 (run x.1) disk = (disk, .refused .notHa) := by
    rintro α x run ⟨d, e, rfl, he⟩
    exact exportCommand_refused rfl he _ _
  cases k with
  | harmonic =>
    refine fin (x := load harmonic {} filename f) (run := fun s e => run harmonic s e answers) ?_
    cases k' with
    | harmonic => exact absurd rfl hk
    | quasiHarmonic =>
      obtain ⟨u, info, ds, r, rfl⟩ := hf
      exact load_refused rfl (.inr ⟨qhaSets _ _ _ _ (by decide), _, _, rfl, by simp [dataset], rfl⟩) _ _
    | elastic =>
      obtain ⟨punit, r, waves, tab, hr, rfl⟩ := hf
      exact hT _ (elasticSets punit r waves tab hr (by decide)) hinfo
    | seismic =>
      obtain ⟨punit, slow, fast, primary, rfl⟩ := hf
      exact hT _ rfl hinfo
  | quasiHarmonic =>
    refine fin (x := load quasiHarmonic {} filename f) (run := fun s e => run quasiHarmonic s e answers) ?_
    cases k' with
    | harmonic =>
      obtain ⟨u, info, ds, r, rfl⟩ := hf
      exact load_refused rfl (.inr ⟨haSets _ _ _ _ (by decide), _, _, rfl, by simp [dataset], rfl⟩) _ _
    | quasiHarmonic => exact absurd rfl hk
    | elastic =>
      obtain ⟨punit, r, waves, tab, hr, rfl⟩ := hf
      exact hT _ (elasticSets punit r waves tab hr (by decide)) hinfo
    | seismic =>
      obtain ⟨punit, slow, fast, primary, rfl⟩ := hf
      exact hT _ rfl hinfo
  | elastic =>
    refine fin (x := loadElastic [] filename f) (run := fun d e => runElastic d e none answers) (hE ?_ hinfo)
    cases k' with
    | harmonic => obtain ⟨u, info, ds, r, rfl⟩ := hf; exact haSets _ _ _ _ (by decide)
    | quasiHarmonic => obtain ⟨u, info, ds, r, rfl⟩ := hf; exact qhaSets _ _ _ _ (by decide)
    | elastic => exact absurd rfl hk
    | seismic => obtain ⟨punit, slow, fast, primary, rfl⟩ := hf; rfl
  | seismic =>
    refine fin (x := loadSeismic [] filename f) (run := fun d e => runSeismic d e none answers) (hS ?_ hinfo)
    cases k' with
    | harmonic => obtain ⟨u, info, ds, r, rfl⟩ := hf; exact haSets _ _ _ _ (by decide)
    | quasiHarmonic => obtain ⟨u, info, ds, r, rfl⟩ := hf; exact qhaSets _ _ _ _ (by decide)
    | elastic =>
      obtain ⟨punit, r, waves, tab, hr, rfl⟩ := hf
      exact elasticSets punit r waves tab hr (by decide)
    | seismic => exact absurd rfl hk

/-- C87, violated: even a file that is refused changes what another exporter of the process writes: after a
quasi-harmonic file has been refused by a harmonic exporter, the temperatures of every harmonic exporter
are those of the refused file. -/
theorem C87_refused_violated (s : Shared) (u : Scales) (info : Str) (descriptions : Str → Str) (r : QhaRun) (filename : Str) :
    ∃ s' e, load harmonic s filename (saveQha u info descriptions r) = (s', .ok e) ∧ e.error = some .notHa ∧
      s'.x = some (.vec r.temperature) ∧ s'.xunit = some u.temperature ∧ s'.y = s.y ∧ s'.data = s.data := by
  have hP : (saveQha u info descriptions r).sets.lookup harmonic.second = none := qhaSets _ _ _ _ (by decide)
  have hT : (saveQha u info descriptions r).sets.lookup c!"T" =
    some (dataset (.vec r.temperature) c!"Temperature" u.temperature) := rfl
  have hi : item (saveQha u info descriptions r).attrs c!"info" = .ok info := rfl
  unfold load
  rw [hi]
  simp only [loadAxes, valuesOf, unitOf, item, hT, hP, Except.bind, dataset, Values.slice]
  exact ⟨_, _, rfl, rfl, rfl, rfl, rfl, rfl⟩

/-! ### The description of the columns -/

open Verif.Elastic Verif.Elastic.Spec Verif.Seismic Verif.Seismic.Spec in
/-- C98, violated: the file and the exported table announce the logarithm of the enhancement factor in column 14, but
it is the factor itself: for an isotropic solid, whose factors are 1 in all directions, column 14 is 1 in
every row, not 0. -/
theorem C98_enhancement_violated (num : Numerics) (hn : EighCorrect num) (hp : PinvCorrect num)
    (K G density : ℝ) (hK : 0 < K) (hG : 0 < G) (hr : 0 < density) (o : Seismic)
    (ho : seismic (isotropic K G) density = .ok o) (ntheta nphi : ℕ) (h1 : 2 ≤ ntheta) (h2 : 2 ≤ nphi) (st : Verif.Seismic.State) :
    c!"  - Column 14    : Enhancement factor (log_10A)" ∈ splitlines (seismicInfo c!"GPa") ∧
    ∃ t, scan num o ntheta nphi st = .ok t ∧
      ∀ i, i < ntheta → ∀ j, j < nphi → ∀ p, ∃ row en, (t.get p)[i * nphi + j]? = some row ∧
        lookAt num o (gridTheta ntheta i) (gridPhi nphi j) .enhancement = .ok (.vec en) ∧ en p = 1 ∧
        row 13 = 1 ∧ row 13 ≠ Real.logb 10 (en p) := by
  refine ⟨by decide +kernel, ?_⟩
  obtain ⟨t, ht, -, h⟩ := C43_rows num o ntheta nphi h1 h2 st
  refine ⟨t, ht, fun i hi j hj p => ?_⟩
  obtain ⟨row, e1, pv, ga, pf, en, pol, gv, -, -, -, -, -, h6, -, -, -, -, -, -, -, -, -, -, -, -, -, h13⟩ := h i hi j hj p
  obtain ⟨_, _, -, -, -, -, e5, -⟩ := C74_isotropic_rays num hn hp K G density hK hG hr o ho (gridTheta ntheta i) (gridPhi nphi j) {}
  have hen : en = fun _ => 1 := by
    have := h6.symm.trans e5
    cases this
    rfl
  subst hen
  exact ⟨row, _, e1, h6, rfl, h13, by rw [h13]; simp⟩

end Verif.Export
