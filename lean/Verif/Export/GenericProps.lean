/-
C131: the exporter that takes the result files of all modules.
-/
import Verif.Export.GenericLemmas

noncomputable section

namespace Verif.Export.Generic
open Verif.Py Verif.IO Verif.IO.Spec Verif.Interfaces Verif.Phonon Verif.Export Verif.Export.Spec

/-- Choosing the quantity and a file writes the text to that file, or, with an empty answer, to the file
named after the result file and the quantity; no other file is changed, and the dialogue goes on. -/
def Spec.Saves (e : State) (f : H5) (name text : Str) : Prop :=
  ∀ (file : Str) (rest : List Str) (disk : Disk), run e f .quantity (name :: file :: rest) disk =
    run e f .more rest (Function.update disk
      (if file = [] then e.outbase ++ '_' :: name ++ c!".dat" else file) (some text))

/-- Choosing the quantity and a file ends the exporter with the exception. -/
def Spec.Fails (e : State) (f : H5) (name : Str) (err : PyErr) : Prop :=
  ∀ (file : Str) (rest : List Str) (disk : Disk), ∃ disk',
    run e f .quantity (name :: file :: rest) disk = (disk', .crashed err)

/-- The titles of the tables of a quasi-harmonic run. -/
def Spec.qhaTitle (p : Str) : Str :=
  if p = c!"Uzp" then c!"Zero-point energy" else if p = c!"Uth" then c!"Thermal energy"
  else if p = c!"Utot" then c!"Total (vibrational + static) internal energy" else if p = c!"S" then c!"Entropy"
  else if p = c!"Fvib" then c!"Vibrational Helmholtz free energy" else if p = c!"F" then c!"Helmholtz free energy"
  else if p = c!"Cv" then c!"Isochoric heat capacity" else if p = c!"VT" then c!"Unit cell volume"
  else if p = c!"Cp" then c!"Isobaric heat capacity" else if p = c!"Cp-Cv" then c!"Correction for isobaric heat capacity"
  else if p = c!"KT" then c!"Isothermal bulk modulus" else if p = c!"KS" then c!"Adiabatic bulk modulus"
  else if p = c!"Kp" then c!"First-derivative of bulk modulus"
  else if p = c!"alphaV" then c!"Volumetric coefficient of thermal expansion"
  else if p = c!"H" then c!"Enthalpy" else if p = c!"G" then c!"Gibbs free energy"
  else if p = c!"gruneisen" then c!"Grüneisen parameters" else []

/-- The titles of the tables of a harmonic run. -/
def Spec.haTitle (p : Str) : Str :=
  if p = c!"Uth" then c!"Thermal internal energy"
  else if p = c!"Utot" then c!"Total (vibrational + static) energy" else Spec.qhaTitle p

theorem qha_title : ∀ p ∈ qhaProperties, described qhaDescriptions p = Spec.qhaTitle p := by decide +kernel

theorem ha_title : ∀ p ∈ haProperties, described haDescriptions p = Spec.haTitle p := by decide +kernel

theorem saves_of_table {e : State} {f : H5} (hf : f.Valid) {name text : Str} {d : Dataset}
    (h : (name, d) ∈ f.sets) (h1 : lower name ≠ c!"help") (h2 : lower name ≠ c!"quit")
    (ht : tableOf e f name = .ok ⟨text, none⟩) : Spec.Saves e f name text := by
  intro file rest disk
  rw [run_file hf h h1 h2, run, ht]
  by_cases hfile : file = [] <;> simp [hfile]

theorem fails_of_table {e : State} {f : H5} (hf : f.Valid) {name : Str} {d : Dataset} {err : PyErr}
    (h : (name, d) ∈ f.sets) (h1 : lower name ≠ c!"help") (h2 : lower name ≠ c!"quit")
    (ht : tableOf e f name = .error err ∨ ∃ text, tableOf e f name = .ok ⟨text, some err⟩) :
    Spec.Fails e f name err := by
  intro file rest disk
  rw [run_file hf h h1 h2, run]
  rcases ht with ht | ⟨text, ht⟩ <;> rw [ht] <;> exact ⟨_, rfl⟩

theorem qha_style {u : Scales} : ∀ p ∈ qhaProperties, p ≠ c!"alphaV" →
    ∃ zl s, setStyle (described qhaDescriptions p) (qhaUnit u p) = (s, zl) ∧ StyleOf p ⟨[], ([], []), s⟩ := by
  have key : ∀ p ∈ qhaProperties, p ≠ c!"alphaV" →
      StyleOf p ⟨[], ([], []), (setStyle (described qhaDescriptions p) []).1⟩ := by
    unfold StyleOf
    decide +kernel
  intro p hp ha
  have h0 : ∀ n a b, (setStyle n a).1 = (setStyle n b).1 := by
    intro n a b
    unfold setStyle
    split <;> [rfl; split <;> [rfl; split <;> rfl]]
  refine ⟨(setStyle (described qhaDescriptions p) (qhaUnit u p)).2,
    (setStyle (described qhaDescriptions p) (qhaUnit u p)).1, rfl, ?_⟩
  rw [h0 _ (qhaUnit u p) []]
  exact key p hp ha

theorem readInput_ok {filename info : Str} {f : H5} {a : Option Approx} (hi : readInfo f = .ok info)
    (h1 : hasSub c!"This file was created with Quantas." info = true) (h : fileData info = a) :
    readInput filename f = .ok (none, ⟨splitext filename, info, a⟩) := by
  rw [readInput, hi]
  simp only [Except.map, h1, h]
  rfl

theorem fileData_qha {info : Str} (h : hasSub c!"(QHA)" info = true) : fileData info = some .qha := by
  simp only [fileData, h, if_true]

theorem fileData_ha {info : Str} (h1 : hasSub c!"(HA)" info = true) (h2 : hasSub c!"(QHA)" info = false) :
    fileData info = some .ha := by
  simp [fileData, h1, h2]

theorem fileData_none {info : Str} (h1 : hasSub c!"(HA)" info = false) (h2 : hasSub c!"(QHA)" info = false) :
    fileData info = none := by
  simp [fileData, h1, h2]

theorem qha_names : ∀ p ∈ qhaProperties, lower p ≠ c!"help" ∧ lower p ≠ c!"quit" := by decide +kernel

theorem ha_names : ∀ p ∈ haProperties, lower p ≠ c!"help" ∧ lower p ≠ c!"quit" := by decide +kernel

theorem qha_read (u : Scales) (job freq : Str) (freqs poly : Bool) (descriptions : Str → Str) (r : QhaRun)
    (filename : Str) :
    ∃ e, readInput filename (saveQha u
        (qhaInfo job u.energy u.volume freq u.temperature u.pressure freqs poly) descriptions r) =
      .ok (none, e) ∧ e.outbase = splitext filename ∧ e.approx = some .qha := by
  obtain ⟨more, hm⟩ := readInfo_ok (f := saveQha u
    (qhaInfo job u.energy u.volume freq u.temperature u.pressure freqs poly) descriptions r) rfl
  have h1 : hasSub c!"This file was created with Quantas."
      (qhaInfo job u.energy u.volume freq u.temperature u.pressure freqs poly ++ more) = true := by
    refine decide_eq_true (infix_right ?_)
    simp only [qhaInfo, List.append_assoc]
    exact infix_right (by decide +kernel)
  have h2 : hasSub c!"(QHA)"
      (qhaInfo job u.energy u.volume freq u.temperature u.pressure freqs poly ++ more) = true := by
    refine decide_eq_true (infix_right ?_)
    simp only [qhaInfo, List.append_assoc]
    exact infix_left (infix_left (infix_right (by decide +kernel)))
  exact ⟨⟨splitext filename, _, some .qha⟩, readInput_ok hm h1 (fileData_qha h2), rfl, rfl⟩

theorem qha_table {u : Scales} {info : Str} {descriptions : Str → Str} {r : QhaRun} {e : State}
    (he : e.approx = some .qha) {p : Str} (hp : p ∈ qhaProperties) :
    tableOf e (saveQha u info descriptions r) p = .ok (writeFile r.temperature c!"Temperature" u.temperature
      r.pressure c!"Pressure" u.pressure (r.results p) (descriptions p) (qhaUnit u p) (descriptions p)) := by
  have hf := saveQha_valid u info descriptions r
  have c1 := collect_ok hf (key := c!"T") (List.mem_cons_self ..)
  have c2 := collect_ok hf (key := c!"P") (List.mem_cons_of_mem _ (List.mem_cons_self ..))
  have c3 := collect_ok hf (key := p) (List.mem_cons_of_mem _ (List.mem_cons_of_mem _
    (List.mem_map.2 ⟨_, hp, rfl⟩)))
  simp only [tableOf, he, Approx.second, c1, c2, c3, Except.bind, Except.map, axisOf, resultOf, Reply.text]

/-- C131, in part: the file of a quasi-harmonic run, whatever the name of the job, is accepted, and every
quantity but the thermal expansion is exported as a table with one line per temperature and one cell per
pressure.  Missing: the thermal expansion, see the next theorem. -/
theorem C131_quasi_harmonic_partial (u : Scales) (job freq : Str) (freqs poly : Bool) (r : QhaRun)
    (filename : Str) (z : Str → ℕ → ℕ → ℚ)
    (hr : ∀ p ∈ qhaProperties, r.results p = matrixOf r.temperature r.pressure (z p))
    (hn : r.pressure ≠ []) (ht : '\n' ∉ u.temperature) (hp : '\n' ∉ u.pressure) :
    let f := saveQha u (qhaInfo job u.energy u.volume freq u.temperature u.pressure freqs poly)
      (described qhaDescriptions) r
    ∃ e, readInput filename f = .ok (none, e) ∧ e.outbase = splitext filename ∧
      ∀ p ∈ qhaProperties, p ≠ c!"alphaV" → ∃ text body, Spec.Saves e f p text ∧
        IsTable (Spec.close p) r.temperature r.pressure (z p) (Spec.qhaTitle p)
          (c!"Data in " ++ qhaUnit u p ++ c!" units") (c!"T (" ++ u.temperature ++ c!")")
          (c!"Pressure (" ++ u.pressure ++ c!")") body text ∧
        (AllFit p r.temperature r.pressure (z p) (c!"T (" ++ u.temperature ++ c!")")
          (c!"Pressure (" ++ u.pressure ++ c!")") → ∀ l ∈ body, l.length = 21 * r.pressure.length + 12) := by
  intro f
  obtain ⟨e, h1, h2, h3⟩ := qha_read u job freq freqs poly (described qhaDescriptions) r filename
  refine ⟨e, h1, h2, fun p hmem ha => ?_⟩
  obtain ⟨zl, s, hs, hst⟩ := qha_style (u := u) p hmem ha
  obtain ⟨c1, c2, c3⟩ := style_close hst
  obtain ⟨text, body, w1, w2, w3⟩ := writeFile_isTable (x := r.temperature) (y := r.pressure)
    (xn := c!"Temperature") (xu := u.temperature) (yn := c!"Pressure") (yu := u.pressure)
    (zn := described qhaDescriptions p) (zu := qhaUnit u p) (desc := described qhaDescriptions p)
    (xl := c!"T (" ++ u.temperature ++ c!")") (yl := c!"Pressure (" ++ u.pressure ++ c!")")
    (by rw [setStyle, if_pos rfl])
    (by rw [setStyle, if_neg (by decide), if_neg (by decide +kernel), if_pos (.inr rfl)])
    hs hn (z p) (by simp [ht]) (by simp [hp])
  refine ⟨text, body, saves_of_table (saveQha_valid ..)
    (List.mem_cons_of_mem _ (List.mem_cons_of_mem _ (List.mem_map.2 ⟨p, hmem, rfl⟩)))
    (qha_names p hmem).1 (qha_names p hmem).2 ?_, qha_title p hmem ▸ c1 ▸ w2, fun h => ?_⟩
  · rw [qha_table h3 hmem, hr p hmem, w1]
  · exact w3 c2 h.temperatures h.columns (fun i hi j hj => c3 _ (h.values i hi j hj)) h.xlabel h.ylabel

/-- C131, violated: thermal expansions are written with eight decimals, because their description contains
"volume".  Those below 5·10⁻⁹, as at low temperatures, are written as zero. -/
theorem C131_expansion_violated (u : Scales) (job freq : Str) (freqs poly : Bool) (r : QhaRun)
    (filename : Str) (z : ℕ → ℕ → ℚ) (hr : r.results c!"alphaV" = matrixOf r.temperature r.pressure z)
    (hz : ∀ i j, 0 < z i j ∧ z i j < 5 / 10 ^ 9)
    (hn : r.pressure ≠ []) (ht : '\n' ∉ u.temperature) (hp : '\n' ∉ u.pressure) :
    let f := saveQha u (qhaInfo job u.energy u.volume freq u.temperature u.pressure freqs poly)
      (described qhaDescriptions) r
    ∃ e, readInput filename f = .ok (none, e) ∧ ∃ text body, Spec.Saves e f c!"alphaV" text ∧
      IsTable (fun _ written => written = 0) r.temperature r.pressure z c!"Volumetric coefficient of thermal expansion"
        (c!"Data in K^-1 units") (c!"T (" ++ u.temperature ++ c!")")
        (c!"Pressure (" ++ u.pressure ++ c!")") body text := by
  intro f
  obtain ⟨e, h1, h2, h3⟩ := qha_read u job freq freqs poly (described qhaDescriptions) r filename
  have hmem : c!"alphaV" ∈ qhaProperties := by decide
  obtain ⟨text, body, w1, w2, -⟩ := writeFile_isTable (x := r.temperature) (y := r.pressure)
    (xn := c!"Temperature") (xu := u.temperature) (yn := c!"Pressure") (yu := u.pressure)
    (zn := described qhaDescriptions c!"alphaV") (zu := qhaUnit u c!"alphaV")
    (desc := described qhaDescriptions c!"alphaV")
    (xl := c!"T (" ++ u.temperature ++ c!")") (yl := c!"Pressure (" ++ u.pressure ++ c!")") (s := .fixed)
    (by rw [setStyle, if_pos rfl])
    (by rw [setStyle, if_neg (by decide), if_neg (by decide +kernel), if_pos (.inr rfl)])
    (by rw [setStyle, if_neg (by decide +kernel), if_pos (by decide +kernel)]) hn z (by simp [ht]) (by simp [hp])
  refine ⟨e, h1, text, body, saves_of_table (saveQha_valid ..)
    (List.mem_cons_of_mem _ (List.mem_cons_of_mem _ (List.mem_map.2 ⟨_, hmem, rfl⟩)))
    (qha_names _ hmem).1 (qha_names _ hmem).2 ?_, ?_⟩
  · rw [qha_table h3 hmem, hr, w1]
  · obtain ⟨b1, b2, r1, labels, cols, r2, rows, r3, g1, g2, g3, g4, g5, g6, g7, g8⟩ := w2
    refine ⟨b1, b2, r1, labels, cols, r2, rows, r3, g1, g2, g3, g4, g5, g6, g7, ?_⟩
    intro i t l hi hl
    obtain ⟨t', vs, v1, v2, v3, v4⟩ := g8 i t l hi hl
    refine ⟨t', vs, v1, v2, fun j v hv => ?_, v4⟩
    obtain ⟨⟨n, rfl⟩, hb⟩ := v3 j v hv
    obtain ⟨z1, z2⟩ := hz i j
    rw [abs_le] at hb
    have n1 : (n : ℚ) < 1 := by
      have := hb.2
      rw [div_sub' (by norm_num), div_le_iff₀ (by norm_num)] at this
      linarith
    have n2 : (-1 : ℚ) < n := by
      have := hb.1
      rw [div_sub' (by norm_num), le_div_iff₀ (by norm_num)] at this
      linarith
    have n3 : n = 0 := by
      have a1 : n < 1 := by exact_mod_cast n1
      have a2 : -1 < n := by exact_mod_cast n2
      omega
    simp [n3]

/-! ### Harmonic files -/

theorem ha_info_sub (job e v f t more : Str) :
    hasSub c!"This file was created with Quantas." (haInfo job e v f t ++ more) = true ∧
    hasSub c!"(HA)" (haInfo job e v f t ++ more) = true := by
  constructor
  · refine decide_eq_true (infix_right ?_)
    simp only [haInfo, List.append_assoc]
    exact infix_right (by decide +kernel)
  · refine decide_eq_true (infix_right ?_)
    simp only [haInfo, List.append_assoc]
    exact infix_left (infix_left (infix_right (by decide +kernel)))

/-- The units of a run, with that of the frequencies, have no `Q`. -/
def Spec.PlainUnits (u : Scales) (freq : Str) : Prop :=
  'Q' ∉ u.energy ∧ 'Q' ∉ u.volume ∧ 'Q' ∉ u.temperature ∧ 'Q' ∉ freq

theorem ha_read {u : Scales} {job freq : Str} (hjob : ¬ c!"(QHA)" <:+: job) (hu : Spec.PlainUnits u freq)
    (r : HaRun) (filename : Str) :
    ∃ e, readInput filename (saveHa u (haInfo job u.energy u.volume freq u.temperature)
        (described haDescriptions) r) = .ok (none, e) ∧ e.outbase = splitext filename ∧
      e.approx = some .ha := by
  obtain ⟨u1, u2, u3, u4⟩ := hu
  set f := saveHa u (haInfo job u.energy u.volume freq u.temperature) (described haDescriptions) r with hf
  have hlist : 'Q' ∉ f.sets.flatMap fun (key, d) => listed key ++ (d.attrs.flatMap fun (a, v) =>
        if a = c!"unit" then '(' :: v ++ [')'] else v ++ [' ']) ++ ['\n'] := by
    refine notMem_listing (by decide) fun p hp => ?_
    rw [hf] at hp
    simp only [saveHa, List.mem_cons, List.mem_map] at hp
    have hd : ∀ q ∈ haProperties, 'Q' ∉ q ∧ 'Q' ∉ described haDescriptions q := by decide +kernel
    rcases hp with rfl | rfl | rfl | ⟨q, hq, rfl⟩
    · exact ⟨(by decide : 'Q' ∉ c!"V"), by simp [dataset, u2]⟩
    · exact ⟨(by decide : 'Q' ∉ c!"T"), by simp [dataset, u3]⟩
    · exact ⟨(by decide : 'Q' ∉ c!"U0"), by simp [dataset, u1]⟩
    · refine ⟨(hd q hq).1, ?_⟩
      have h5 : 'Q' ∉ haUnit u q := by
        unfold haUnit
        split <;> simp [u1]
      simp [dataset, (hd q hq).2, h5]
  have hinfo : readInfo f = .ok (haInfo job u.energy u.volume freq u.temperature ++
      (c!"\nAvailable data:\n" ++ f.sets.flatMap fun (key, d) => listed key ++ (d.attrs.flatMap fun (a, v) =>
        if a = c!"unit" then '(' :: v ++ [')'] else v ++ [' ']) ++ ['\n'])) := by
    rw [readInfo, item, show f.attrs.lookup c!"info" = some _ from rfl]
    simp only [Except.map, List.append_assoc]
  generalize (f.sets.flatMap fun (key, d) => listed key ++ (d.attrs.flatMap fun (a, v) =>
        if a = c!"unit" then '(' :: v ++ [')'] else v ++ [' ']) ++ ['\n']) = more at hlist hinfo
  obtain ⟨h1, h2⟩ := ha_info_sub job u.energy u.volume freq u.temperature (c!"\nAvailable data:\n" ++ more)
  have h3 : hasSub c!"(QHA)" (haInfo job u.energy u.volume freq u.temperature ++
      (c!"\nAvailable data:\n" ++ more)) = false := by
    refine decide_eq_false fun h => ?_
    simp only [haInfo, List.append_assoc] at h
    rw [show c!"\nThis file was created with Quantas.\n\nJob: " =
        c!"\nThis file was created with Quantas.\n" ++ '\n' :: c!"Job: " from rfl,
      show c!"\n\nIt contains the results of the harmonic approximation (HA) calculations\nperformed with the following settings:\n  - energy scale: " =
        '\n' :: c!"\nIt contains the results of the harmonic approximation (HA) calculations\nperformed with the following settings:\n  - energy scale: "
        from rfl, regroup] at h
    rcases infix_split (by decide) h with h | h
    · exact absurd h (by decide +kernel)
    · rcases infix_split (by decide) h with h | h
      · exact hjob (infix_after (by decide) h)
      · refine not_infix_of_notMem (c := 'Q') (by decide) ?_ h
        exact notMem_append (by decide +kernel) (notMem_append u1 (notMem_append (by decide +kernel)
          (notMem_append u2 (notMem_append (by decide +kernel) (notMem_append u4 (notMem_append
          (by decide +kernel) (notMem_append u3 (notMem_append (by decide +kernel)
          (notMem_append (by decide +kernel) hlist)))))))))
  exact ⟨⟨splitext filename, _, some .ha⟩, readInput_ok hinfo h1 (fileData_ha h2 h3), rfl, rfl⟩

theorem ha_table {u : Scales} {info : Str} {descriptions : Str → Str} {r : HaRun} {e : State}
    (he : e.approx = some .ha) {p desc unit : Str} {v : Values}
    (hp : (p, dataset v desc unit) ∈ (saveHa u info descriptions r).sets) :
    tableOf e (saveHa u info descriptions r) p = .ok (writeFile r.temperature c!"Temperature" u.temperature
      r.volume c!"Unit cell volume" u.volume v desc unit desc) := by
  have hf := saveHa_valid u info descriptions r
  have c1 := collect_ok hf (key := c!"T") (List.mem_cons_of_mem _ (List.mem_cons_self ..))
  have c2 := collect_ok hf (key := c!"V") (List.mem_cons_self ..)
  have c3 := collect_ok hf hp
  simp only [tableOf, he, Approx.second, c1, c2, c3, Except.bind, Except.map, axisOf, resultOf, Reply.text]

theorem ha_style (u : Scales) : ∀ p ∈ haProperties,
    ∃ zl, setStyle (described haDescriptions p) (haUnit u p) = (.energy, zl) := by
  have key : ∀ p ∈ haProperties, described haDescriptions p ≠ c!"Temperature" ∧
      ¬ hasSub c!"volume" (lower (described haDescriptions p)) ∧
      ¬ (hasSub c!"bulk modulus" (lower (described haDescriptions p)) ∨
        described haDescriptions p = c!"Pressure") := by
    decide +kernel
  intro p hp
  obtain ⟨k1, k2, k3⟩ := key p hp
  exact ⟨_, by rw [setStyle, if_neg k1, if_neg k2, if_neg k3]⟩

/-- C131, in part: the file of a harmonic run is accepted if the name of the job does not contain "(QHA)",
and the quantities that were calculated for each temperature and each volume can be exported as tables.
The volumes, in cubes of the unit of length, are labelled with the unit of length.  Missing: the static and
the zero-point energies, and jobs with other names, see the next theorems. -/
theorem C131_harmonic_partial (u : Scales) (job freq : Str) (hjob : ¬ c!"(QHA)" <:+: job)
    (hu : Spec.PlainUnits u freq) (r : HaRun) (filename : Str) (hn : r.volume ≠ [])
    (ht : '\n' ∉ u.temperature) (hv : '\n' ∉ u.volume) :
    let f := saveHa u (haInfo job u.energy u.volume freq u.temperature) (described haDescriptions) r
    ∃ e, readInput filename f = .ok (none, e) ∧ e.outbase = splitext filename ∧
      ∀ p ∈ haProperties, ∀ z, r.results p = matrixOf r.temperature r.volume z →
        ∃ text body, Spec.Saves e f p text ∧
          IsTable (Phonon.Spec.Significant 12) r.temperature r.volume z (Spec.haTitle p)
            (c!"Data in " ++ haUnit u p ++ c!" units") (c!"T (" ++ u.temperature ++ c!")")
            (c!"Volume (" ++ u.volume ++ c!")") body text ∧
          (AllFit p r.temperature r.volume z (c!"T (" ++ u.temperature ++ c!")")
            (c!"Volume (" ++ u.volume ++ c!")") → ∀ l ∈ body, l.length = 21 * r.volume.length + 12) := by
  intro f
  obtain ⟨e, h1, h2, h3⟩ := ha_read hjob hu r filename
  refine ⟨e, h1, h2, fun p hmem z hz => ?_⟩
  obtain ⟨zl, hs⟩ := ha_style u p hmem
  obtain ⟨text, body, w1, w2, w3⟩ := writeFile_isTable (x := r.temperature) (y := r.volume)
    (xn := c!"Temperature") (xu := u.temperature) (yn := c!"Unit cell volume") (yu := u.volume)
    (zn := described haDescriptions p) (zu := haUnit u p) (desc := described haDescriptions p)
    (xl := c!"T (" ++ u.temperature ++ c!")") (yl := c!"Volume (" ++ u.volume ++ c!")")
    (by rw [setStyle, if_pos rfl])
    (by rw [setStyle, if_neg (by decide), if_pos (by decide +kernel)])
    hs hn z (by simp [ht]) (by simp [hv])
  have hset : (p, dataset (r.results p) (described haDescriptions p) (haUnit u p)) ∈ f.sets :=
    List.mem_cons_of_mem _ (List.mem_cons_of_mem _ (List.mem_cons_of_mem _ (List.mem_map.2 ⟨p, hmem, rfl⟩)))
  have hfix : p ∉ fixedNames := by
    have : ∀ p ∈ haProperties, p ∉ fixedNames := by decide
    exact this p hmem
  refine ⟨text, body, saves_of_table (saveHa_valid ..) hset (ha_names p hmem).1 (ha_names p hmem).2 ?_, ha_title p hmem ▸ w2,
    fun h => ?_⟩
  · rw [ha_table h3 hset, hz, w1]
  · refine w3 (by decide) h.temperatures h.columns (fun i hi j hj => ?_) h.xlabel h.ylabel
    have := h.values i hi j hj
    rwa [FitsValue, if_neg hfix] at this

/-- C131, violated: the static energy is offered, but has one value per volume and none per temperature; its
export ends with IndexError. -/
theorem C131_static_violated (u : Scales) (job freq : Str) (hjob : ¬ c!"(QHA)" <:+: job)
    (hu : Spec.PlainUnits u freq) (r : HaRun) (filename : Str) (hn : r.volume ≠ [])
    (ht : r.temperature ≠ []) :
    let f := saveHa u (haInfo job u.energy u.volume freq u.temperature) (described haDescriptions) r
    ∃ e, readInput filename f = .ok (none, e) ∧ Spec.Fails e f c!"U0" .indexError := by
  intro f
  obtain ⟨e, h1, h2, h3⟩ := ha_read hjob hu r filename
  have hset : (c!"U0", dataset (.vec r.energy) c!"Static (electronic) energies" u.energy) ∈ f.sets :=
    List.mem_cons_of_mem _ (List.mem_cons_of_mem _ (List.mem_cons_self ..))
  refine ⟨e, h1, fails_of_table (saveHa_valid ..) hset (by decide) (by decide) (.inr ?_)⟩
  obtain ⟨text, hw⟩ := writeFile_error (x := r.temperature) (y := r.volume)
    (xn := c!"Temperature") (xu := u.temperature) (yn := c!"Unit cell volume") (yu := u.volume)
    (zn := c!"Static (electronic) energies") (zu := u.energy) (desc := c!"Static (electronic) energies")
    (z := .vec r.energy) (zf := fun _ _ => 0) (n := 0) (err := .indexError)
    (by rw [setStyle, if_pos rfl]) (by rw [setStyle, if_neg (by decide), if_pos (by decide +kernel)])
    rfl hn (List.length_pos_iff.2 ht) (fun i hi => absurd hi (by omega)) rfl
  exact ⟨text, by rw [ha_table h3 hset, hw]⟩

/-- C131, violated: a harmonic run whose job name contains "(QHA)" is taken for a quasi-harmonic one; the
export of every quantity ends with KeyError, no file is written. -/
theorem C131_job_violated (u : Scales) (job freq : Str) (hjob : c!"(QHA)" <:+: job) (r : HaRun)
    (filename : Str) :
    let f := saveHa u (haInfo job u.energy u.volume freq u.temperature) (described haDescriptions) r
    ∃ e, readInput filename f = .ok (none, e) ∧ ∀ p ∈ haProperties, ∀ file rest disk,
      run e f .quantity (p :: file :: rest) disk = (disk, .crashed .keyError) := by
  intro f
  obtain ⟨more, hm⟩ := readInfo_ok (f := f) rfl
  obtain ⟨h1, h2⟩ := ha_info_sub job u.energy u.volume freq u.temperature more
  have h3 : hasSub c!"(QHA)" (haInfo job u.energy u.volume freq u.temperature ++ more) = true := by
    refine decide_eq_true (infix_right ?_)
    simp only [haInfo, List.append_assoc]
    exact infix_left (infix_right hjob)
  refine ⟨⟨splitext filename, _, some .qha⟩, readInput_ok hm h1 (fileData_qha h3), ?_⟩
  intro p hmem file rest disk
  have hset : (p, dataset (r.results p) (described haDescriptions p) (haUnit u p)) ∈ f.sets :=
    List.mem_cons_of_mem _ (List.mem_cons_of_mem _ (List.mem_cons_of_mem _ (List.mem_map.2 ⟨p, hmem, rfl⟩)))
  have hf : f.Valid := saveHa_valid ..
  have hP : f.sets.lookup c!"P" = none := by
    refine lookup_absent fun q hq => ?_
    have hk : ∀ p ∈ haProperties, p ≠ c!"P" := by decide
    simp only [f, saveHa, List.mem_cons, List.mem_map] at hq
    rcases hq with rfl | rfl | rfl | ⟨q, hq, rfl⟩
    · exact (by decide : c!"V" ≠ c!"P")
    · exact (by decide : c!"T" ≠ c!"P")
    · exact (by decide : c!"U0" ≠ c!"P")
    · exact hk q hq
  have c1 := collect_ok hf (key := c!"T") (List.mem_cons_of_mem _ (List.mem_cons_self ..))
  have c2 : collect f c!"P" = .error .keyError := by
    simp [collect, getData, getAttribute, hasDataset, hasAttribute, item, hP, Except.bind, Except.map,
      Check.truthy]
  rw [run_file hf hset (ha_names p hmem).1 (ha_names p hmem).2, run]
  simp only [tableOf, Approx.second, c1, c2, Except.bind]

/-! ### Other files -/

/-- C131, violated: the result files of the elastic and seismic modules are accepted, but the export of
every data set ends with AttributeError. -/
theorem C131_elastic_violated (punit : Str) (hu : 'H' ∉ punit) (f : H5) (hf : f.Valid)
    (hi : f.attrs.lookup c!"info" = some (elasticInfo punit) ∨
      f.attrs.lookup c!"info" = some (seismicInfo punit))
    (hs : ∀ p ∈ f.sets, 'H' ∉ p.1 ∧ ∀ a ∈ p.2.attrs, 'H' ∉ a.2) (filename : Str) :
    ∃ e, readInput filename f = .ok (none, e) ∧ ∀ p ∈ f.sets, lower p.1 ≠ c!"help" → lower p.1 ≠ c!"quit" →
      ∀ file rest disk, run e f .quantity (p.1 :: file :: rest) disk = (disk, .crashed .attributeError) := by
  have hlist := notMem_listing (c := 'H') (by decide) hs
  obtain ⟨info, h1, h2, h3⟩ : ∃ info, f.attrs.lookup c!"info" = some info ∧
      c!"This file was created with Quantas." <:+: info ∧ 'H' ∉ info := by
    rcases hi with hi | hi
    · refine ⟨_, hi, ?_, notMem_append (notMem_append (by decide +kernel) hu) (by decide +kernel)⟩
      unfold elasticInfo
      exact infix_right (infix_right (by decide +kernel))
    · refine ⟨_, hi, ?_, notMem_append (notMem_append (by decide +kernel) hu) (by decide +kernel)⟩
      unfold seismicInfo
      exact infix_right (infix_right (by decide +kernel))
  have hinfo : readInfo f = .ok (info ++
      (c!"\nAvailable data:\n" ++ f.sets.flatMap fun (key, d) => listed key ++ (d.attrs.flatMap fun (a, v) =>
        if a = c!"unit" then '(' :: v ++ [')'] else v ++ [' ']) ++ ['\n'])) := by
    rw [readInfo, item, h1]
    simp only [Except.map, List.append_assoc]
  generalize (f.sets.flatMap fun (key, d) => listed key ++ (d.attrs.flatMap fun (a, v) =>
        if a = c!"unit" then '(' :: v ++ [')'] else v ++ [' ']) ++ ['\n']) = more at hlist hinfo
  have hH : 'H' ∉ info ++ (c!"\nAvailable data:\n" ++ more) :=
    notMem_append h3 (notMem_append (by decide +kernel) hlist)
  have s1 : hasSub c!"This file was created with Quantas." (info ++ (c!"\nAvailable data:\n" ++ more)) = true :=
    decide_eq_true (infix_right h2)
  have s2 : hasSub c!"(HA)" (info ++ (c!"\nAvailable data:\n" ++ more)) = false :=
    decide_eq_false (not_infix_of_notMem (c := 'H') (by decide) hH)
  have s3 : hasSub c!"(QHA)" (info ++ (c!"\nAvailable data:\n" ++ more)) = false :=
    decide_eq_false (not_infix_of_notMem (c := 'H') (by decide) hH)
  refine ⟨⟨splitext filename, _, none⟩, readInput_ok hinfo s1 (fileData_none s2 s3), ?_⟩
  intro p hp n1 n2 file rest disk
  rw [run_file hf (d := p.2) hp n1 n2, run]
  rfl

/-- C131, violated: a file without the text is not refused with a message, the reader raises KeyError. -/
theorem C131_foreign_violated (f : H5) (h : f.attrs.lookup c!"info" = none) (filename : Str) :
    readInput filename f = .error .keyError := by
  simp [readInput, readInfo, item, h, Except.map]

/-- C131: whatever is typed, only files are changed whose names were typed, or that are named after the
result file and something typed; `help` and `quit` change none. -/
theorem C131_untouched (e : State) (f : H5) (input : List Str) (disk : Disk) (path : Str)
    (h : ∀ s ∈ input, path ≠ s ∧ path ≠ e.outbase ++ '_' :: s ++ c!".dat") :
    (run e f .quantity input disk).1 path = disk path := by
  suffices H : ∀ (input : List Str) (prompt : Prompt) (disk : Disk),
      (∀ s ∈ input, path ≠ s ∧ path ≠ e.outbase ++ '_' :: s ++ c!".dat") →
      (∀ s, prompt = .file s → path ≠ e.outbase ++ '_' :: s ++ c!".dat") →
      (run e f prompt input disk).1 path = disk path from
    H input .quantity disk h (fun s hs => by cases hs)
  intro input
  induction input with
  | nil => intro prompt disk _ _; cases prompt <;> rfl
  | cons a rest ih =>
    intro prompt disk h hp
    have hrest : ∀ s ∈ rest, path ≠ s ∧ path ≠ e.outbase ++ '_' :: s ++ c!".dat" :=
      fun s hs => h s (List.mem_cons_of_mem _ hs)
    have hq : ∀ s, Prompt.quantity = .file s → path ≠ e.outbase ++ '_' :: s ++ c!".dat" :=
      fun s hs => by cases hs
    have hm : ∀ s, Prompt.more = .file s → path ≠ e.outbase ++ '_' :: s ++ c!".dat" :=
      fun s hs => by cases hs
    cases prompt with
    | quantity =>
      rw [run]
      have hsel : ∀ n, select f a = .exporting n → n = a := by
        intro n hn
        unfold select at hn
        split at hn
        · cases hn
        · split at hn
          · cases hn
          · split at hn
            · cases hn
            · cases hn; rfl
      cases hs : select f a with
      | help => exact ih _ _ hrest hq
      | quit => rfl
      | refused => exact ih _ _ hrest hq
      | exporting n =>
        refine ih _ _ hrest fun s hs' => ?_
        cases hs'
        rw [hsel _ hs]
        exact (h a (by simp)).2
    | more =>
      rw [run]
      split
      · rfl
      · split
        · exact ih _ _ hrest hq
        · exact ih _ _ hrest hm
    | file n =>
      rw [run]
      have hne : path ≠ (if a ≠ [] then a else e.outbase ++ '_' :: n ++ c!".dat") := by
        split
        · exact (h a (by simp)).1
        · exact hp n rfl
      cases tableOf e f n with
      | error err => rfl
      | ok w =>
        dsimp only
        cases w.error with
        | some err => exact Function.update_of_ne hne _ _
        | none =>
          rw [ih _ _ hrest hm]
          exact Function.update_of_ne hne _ _

/-- The file of a choice, and its text. -/
structure Spec.Choice where
  name : Str
  file : Str
  text : Str

/-- C131: a session in which several quantities are exported ends with all of their tables on the disk, each
in its file, later ones in place of earlier ones of the same name. -/
theorem C131_session (e : State) (f : H5) (choices : List Spec.Choice)
    (h : ∀ c ∈ choices, Spec.Saves e f c.name c.text) (last : Str) (hl : lower last = c!"quit") (disk : Disk) :
    run e f .quantity ((choices.flatMap fun c => [c.name, c.file, c!"y"]) ++ [last]) disk =
      (choices.foldl (fun disk c => Function.update disk
        (if c.file = [] then e.outbase ++ '_' :: c.name ++ c!".dat" else c.file) (some c.text)) disk,
        .finished) := by
  induction choices generalizing disk with
  | nil =>
    have : select f last = .quit := by
      rw [select, if_neg (by rw [hl]; decide), if_pos hl]
    simp only [List.flatMap_nil, List.nil_append, run, this, List.foldl_nil]
  | cons c cs ih =>
    have h1 := h c (by simp)
    have e1 : ((c :: cs).flatMap fun c => [c.name, c.file, c!"y"]) ++ [last] =
        c.name :: c.file :: c!"y" :: ((cs.flatMap fun c => [c.name, c.file, c!"y"]) ++ [last]) := by simp
    rw [e1, h1, run, if_neg (by decide), if_pos (by decide), ih fun c hc => h c (List.mem_cons_of_mem _ hc)]
    rfl

theorem lower_letter {l : Str} {d u : Char} (hu : u.val + 32 = d.val) (h : lower l = [d]) : l = [d] ∨ l = [u] := by
  match l, h with
  | [c], h =>
    have hc : c.toLower = d := by simpa [lower] using h
    unfold Char.toLower at hc
    split at hc
    · refine .inr ?_
      have : c.val = u.val := (UInt32.add_left_inj 32).1 (Eq.trans (by rw [← hc]; rfl) hu.symm)
      rw [Char.ext this]
    · rw [hc]
      exact .inl rfl

/-- C131: after a table, the question whether to go on is repeated until it is answered: nothing, `n` or `N` ends the session, `y` or
`Y` asks for the next quantity, and nothing is written meanwhile. -/
theorem C131_more (e : State) (f : H5) (other : List Str)
    (h : ∀ l ∈ other, l ≠ [] ∧ l ∉ [c!"n", c!"N", c!"y", c!"Y"]) (rest : List Str) (disk : Disk) :
    (∀ answer ∈ [[], c!"n", c!"N"], run e f .more (other ++ answer :: rest) disk = (disk, .finished)) ∧
    (∀ answer ∈ [c!"y", c!"Y"], run e f .more (other ++ answer :: rest) disk = run e f .quantity rest disk) := by
  induction other with
  | nil =>
    constructor
    · intro answer ha
      simp only [List.mem_cons, List.not_mem_nil, or_false] at ha
      rcases ha with rfl | rfl | rfl
      · rw [List.nil_append, run, if_pos (.inl rfl)]
      · rw [List.nil_append, run, if_pos (.inr (by decide))]
      · rw [List.nil_append, run, if_pos (.inr (by decide))]
    · intro answer ha
      simp only [List.mem_cons, List.not_mem_nil, or_false] at ha
      rcases ha with rfl | rfl
      · rw [List.nil_append, run, if_neg (by decide), if_pos (by decide)]
      · rw [List.nil_append, run, if_neg (by decide), if_pos (by decide)]
  | cons l ls ih =>
    obtain ⟨h1, h2⟩ := h l (by simp)
    have ih' := ih fun l hl => h l (List.mem_cons_of_mem _ hl)
    have n1 : ¬ (l = [] ∨ lower l = c!"n") := by
      rintro (h | h)
      · exact h1 h
      · rcases lower_letter (u := 'N') (by decide) h with rfl | rfl <;> simp at h2
    have n2 : ¬ lower l = c!"y" := by
      intro h
      rcases lower_letter (u := 'Y') (by decide) h with rfl | rfl <;> simp at h2
    constructor
    · intro answer ha
      rw [List.cons_append, run, if_neg n1, if_neg n2, ih'.1 answer ha]
    · intro answer ha
      rw [List.cons_append, run, if_neg n1, if_neg n2, ih'.2 answer ha]

end Verif.Export.Generic
