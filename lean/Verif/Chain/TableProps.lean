/-
Property C153: from the vibrations of a calculation to the numbers of an exported table.
-/
import Verif.Chain.TableSpec
import Verif.Chain.PhononProps
import Verif.Chain.DispersionProps
import Verif.Chain.PhonopyProps

noncomputable section

namespace Verif.Chain
open Verif.Py Verif.IO Verif.IO.Spec Verif.Interfaces Verif.Interfaces.Spec Verif.Phonon Verif.Phonon.Spec Verif.Units
  Verif.Units.Spec Spec
open Verif.Export (HaRun Scales saveHa haUnit)
open Verif.Export.Generic (haInfo described haDescriptions readInput)

/-! ### Lemmas -/

theorem tabulated_name (c : Tabulated) : c.name ∈ Export.haProperties := by cases c <;> decide

theorem table_shows {close : ℚ → ℚ → Prop} {x y : List ℚ} {z : ℕ → ℕ → ℚ} {desc unit xl yl text : Str} {body : List Str}
    (h : Export.Spec.IsTable close x y z desc unit xl yl body text) (hd : '\n' ∉ desc) (hu : '\n' ∉ unit) {i j : ℕ} {q : ℚ}
    (hi : x[i]? = some q) (hj : j < y.length) : ∃ t w, Shows text i j t w ∧ Rounded 2 q t ∧ close (z i j) w := by
  obtain ⟨r1, labels, cols, r2, rows, r3, hb, -, -, -, -, -, hlen, hrows⟩ := h.body_eq
  have hi' : i < rows.length := by
    rw [hlen]
    exact (List.getElem?_eq_some_iff.1 hi).1
  obtain ⟨l, hl⟩ : ∃ l, rows[i]? = some l := ⟨_, List.getElem?_eq_getElem hi'⟩
  obtain ⟨t, vs, h1, h2, h3, h4⟩ := hrows i q l hi hl
  obtain ⟨w, hw⟩ : ∃ w, vs[j]? = some w := ⟨_, List.getElem?_eq_getElem (by rw [h2]; exact hj)⟩
  refine ⟨t, w, ⟨_, l, vs, ?_, h.text_eq, ?_, h4, hw⟩, h1, h3 j w hw⟩
  · intro a ha
    rcases List.mem_append.1 ha with ha | ha
    · simp only [List.mem_cons, List.not_mem_nil, or_false] at ha
      rcases ha with rfl | rfl | rfl | rfl | rfl
      · decide
      · simp
      · exact hd
      · exact hu
      · simp
    · exact h.lines a ha
  · rw [hb, List.getElem?_append_right (by simp; omega)]
    simp only [List.length_cons, List.length_nil]
    rw [show 9 + i - (0 + 1 + 1 + 1 + 1 + 1) = i + 4 by omega]
    simp only [List.getElem?_cons_succ]
    rw [List.getElem?_append_left hi', hl]

theorem ha_title_line (c : Tabulated) : '\n' ∉ Export.Generic.Spec.haTitle c.name := by cases c <;> decide +kernel

theorem describes_true {k : Consts} {E unit T U t : ℝ} {pts : List (ℚ × List ℚ)} {nt nv : ℕ} {res : HA.Results nt nv}
    {i : Fin nt} {v : Fin nv} (hE : 0 < E) (ht : 0 ≤ t)
    (h : Describes k E unit T U t pts (res.Uzp 0 v) (res.Uth i v) (res.S i v) (res.Cv i v) (res.Fvib i v) (res.Utot i v)
      (res.F i v)) (c : Tabulated) :
    |c.result res i v - c.true k E unit T U pts| ≤ t * |U| := by
  have h0 : 0 ≤ t * |U| := mul_nonneg ht (abs_nonneg _)
  have hE' := hE.ne'
  cases c with
  | thermal => simpa [Tabulated.result, Tabulated.true, ← h.thermal, hE'] using h0
  | total =>
    have := h.total
    have e : U + (cellMean (zeroPoint k) unit pts + cellMean (Spec.thermal k T) unit pts) / E = U + res.Uzp 0 v + res.Uth i v := by
      rw [← h.zeroPoint, ← h.thermal]
      field_simp
      ring
    simp only [Tabulated.result, Tabulated.true]
    rwa [e]
  | entropy =>
    have e : 1000 * cellMean (entropyOf k T) unit pts / E = res.S i v := by
      rw [← h.entropy]
      field_simp
    simp only [Tabulated.result, Tabulated.true]
    rw [e]
    simpa using h0
  | vibrational => simpa [Tabulated.result, Tabulated.true, ← h.vibrational, hE'] using h0
  | free =>
    have := h.free
    have e : U + cellMean (Spec.free k T) unit pts / E = U + res.Fvib i v := by
      rw [← h.vibrational]
      field_simp
    simp only [Tabulated.result, Tabulated.true]
    rwa [e]
  | heat =>
    have e : 1000 * cellMean (heatCapacity k T) unit pts / E = res.Cv i v := by
      rw [← h.heat]
      field_simp
    simp only [Tabulated.result, Tabulated.true]
    rw [e]
    simpa using h0

theorem error_sum {ε y w U q x : ℝ} (h0 : 0 ≤ ε) (hε : ε ≤ 1 / 2) (h1 : |y - w| ≤ 1 / (2 * 10 ^ 12) * |U|)
    (h2 : |q - y| ≤ ε * |y|) (h3 : |x - q| * (2 * 10 ^ 12) ≤ |q|) : |x - w| ≤ (ε + 1 / 10 ^ 12) * (|w| + |U|) := by
  have a1 : |y| ≤ |w| + 1 / (2 * 10 ^ 12) * |U| := by
    have := abs_sub_abs_le_abs_sub y w
    linarith
  have a2 : |q| ≤ |y| + ε * |y| := by
    have := abs_sub_abs_le_abs_sub q y
    linarith
  have a3 : |x - w| ≤ |x - q| + (|q - y| + |y - w|) :=
    (abs_sub_le x q w).trans (add_le_add le_rfl (abs_sub_le q y w))
  have hy := abs_nonneg y
  have hw := abs_nonneg w
  have hU := abs_nonneg U
  have a4 : |x - q| ≤ 1 / (2 * 10 ^ 12) * |q| := by linarith
  have a5 : ε * |y| ≤ ε * (|w| + 1 / (2 * 10 ^ 12) * |U|) := mul_le_mul_of_nonneg_left a1 h0
  have a6 : ε * |U| ≤ 1 / 2 * |U| := mul_le_mul_of_nonneg_right hε hU
  have a7 : ε * |w| ≤ 1 / 2 * |w| := mul_le_mul_of_nonneg_right hε hw
  nlinarith [mul_nonneg h0 hU, mul_nonneg h0 hw]

/-! ### The theorems -/

/-- **C153 (export).**  Whatever doubles the run saved, within the relative error `ε`, each table that the user asks for shows
the true quantities. -/
theorem C153_export {nt nv : ℕ} {k : Consts} {E unit ε : ℝ} (hE : 0 < E) (h0 : 0 ≤ ε) (hε : ε ≤ 1 / 2)
    {job e v f t : Str} (hjob : ¬ c!"(QHA)" <:+: job) (hu : 'Q' ∉ e ∧ 'Q' ∉ v ∧ 'Q' ∉ f ∧ 'Q' ∉ t)
    (hlines : '\n' ∉ e ∧ '\n' ∉ v ∧ '\n' ∉ t) {r : HaRun} {T Tk : Fin nt → ℝ}
    {res : HA.Results nt nv} (hr : Holds ε r T res) (hv : 0 < nv) {U : Fin nv → ℝ} {pts : Fin nv → List (ℚ × List ℚ)}
    (h : ∀ i v, 0 < Tk i → Describes k E unit (Tk i) (U v) (1 / (2 * 10 ^ 12)) (pts v) (res.Uzp 0 v) (res.Uth i v) (res.S i v)
      (res.Cv i v) (res.Fvib i v) (res.Utot i v) (res.F i v)) : Exports k E unit ε (haFile job e v f t r) T Tk U pts := by
  intro filename
  have hne : r.volume ≠ [] := fun hc => by
    have := hr.volumes
    rw [hc] at this
    simp at this
    omega
  obtain ⟨e', e1, -, e2⟩ := Export.Generic.C131_harmonic_partial ⟨e, v, t, []⟩ job f hjob
    ⟨hu.1, hu.2.1, hu.2.2.2, hu.2.2.1⟩ r filename hne hlines.2.2 hlines.2.1
  refine ⟨e', e1, fun c => ?_⟩
  obtain ⟨z, z1, z2⟩ := hr.values c
  obtain ⟨text, body, s1, s2, -⟩ := e2 c.name (tabulated_name c) z (by
    rw [z1, Export.matrixOf, hr.temperatures, hr.volumes])
  refine ⟨text, s1, fun i w hT => ?_⟩
  obtain ⟨q, hq⟩ : ∃ q, r.temperature[(i : ℕ)]? = some q :=
    ⟨_, List.getElem?_eq_getElem (by rw [hr.temperatures]; exact i.2)⟩
  have hunit : '\n' ∉ c!"Data in " ++ haUnit ⟨e, v, t, []⟩ c.name ++ c!" units" := by
    have : '\n' ∉ haUnit ⟨e, v, t, []⟩ c.name := by
      unfold haUnit
      split
      · simpa using hlines.1
      · exact hlines.1
    simp only [List.mem_append, not_or]
    exact ⟨⟨by decide, this⟩, by decide⟩
  obtain ⟨t', x, k1, k2, k3⟩ := table_shows s2 (ha_title_line c) hunit hq (j := w) (by rw [hr.volumes]; exact w.2)
  refine ⟨t', x, k1, ?_, ?_⟩
  · have a1 := hr.temperature i q hq
    have a2 : |(t' : ℝ) - q| ≤ 1 / 200 := by
      have := k2.2
      have h' : ((|t' - q| : ℚ) : ℝ) ≤ ((1 / (2 * 10 ^ 2) : ℚ) : ℝ) := by exact_mod_cast this
      push_cast at h'
      norm_num at h' ⊢
      exact h'
    have := abs_sub_le (t' : ℝ) q (T i)
    linarith
  · have a3 : |(x : ℝ) - z i w| * (2 * 10 ^ 12) ≤ |(z i w : ℝ)| := by
      have := k3.2
      exact_mod_cast this
    exact error_sum h0 hε (describes_true hE (by norm_num) (h i w hT) c) (z2 i w) a3

/-- **C153 (CRYSTAL).**  From the outputs of CRYSTAL at the zone centre through `quantas inpgen ha`, `quantas ha` with the
default units of energy and frequency and `quantas export` to the numbers of the tables. -/
theorem C153_crystal {nt : ℕ} (k : Consts) {disk : Str → Option Str} {filename : Str} {isList : Bool} {files : List Str}
    (hr : isList = false ∧ files = [filename] ∨
      isList = true ∧ ∃ text, disk filename = some text ∧ Listed (readlines text) files)
    {os : List Vibrations}
    (ho : List.Forall₂ (fun f o => ∃ text, disk f = some text ∧ GammaOutput text o) files os)
    {n : ℕ} (hn : 0 < n) (hsame : ∀ o ∈ os, o.natom = n) {ref : ℕ} (href : ref < os.length)
    {job : Str} (hj : Phonon.Spec.Plain job) (hjob : ¬ c!"(QHA)" <:+: job) (outfile : Str) {t : Str} (ht : t ∈ [c!"K", c!"C"])
    {C : Scale} (hC : Means temperatures t C) (T : Fin nt → ℝ) {vol : Str} (hvol : vol ∈ [c!"A", c!"bohr"]) :
    ∃ fuel₀, ∀ fuel, fuel₀ ≤ fuel → ∃ s text doc,
      inpgen (crystalFiles fuel disk) ⟨[]⟩ filename outfile isList ref c!"crystal" job =
        (s, .written (outfile ++ c!".yaml") text) ∧ Denotes text doc ∧
      ∃ res : HA.Results nt os.length,
        harmonic k ⟨c!"Ha", c!"cm^-1", t, T⟩ (.tree doc) = .ok (.ok ⟨os.length, res⟩) ∧
        ∀ r ε, 0 ≤ ε → ε ≤ 1 / 2 → Holds ε r T res →
          Exports k k.Ha (100 * k.c) ε (haFile job c!"Ha" vol c!"cm^-1" t r) T (fun i => C.toRef (T i))
            (fun v => (os[v].energy : ℝ)) (fun v => [(1, os[v].freqs)]) := by
  obtain ⟨fuel₀, hf⟩ := C144_crystal (nt := nt) k hr ho hn hsame href hj outfile ht hC T
  refine ⟨fuel₀, fun fuel hle => ?_⟩
  obtain ⟨s, text, doc, h1, h2, -, ⟨nv, res⟩, h4, h5, h6⟩ := hf fuel hle
  simp only at h5
  subst h5
  refine ⟨s, text, doc, h1, h2, res, h4, fun r ε h0 hε hh => ?_⟩
  have hQ : 'Q' ∉ vol ∧ '\n' ∉ vol := by
    simp only [List.mem_cons, List.not_mem_nil, or_false] at hvol
    rcases hvol with rfl | rfl <;> decide
  have hQt : 'Q' ∉ t ∧ '\n' ∉ t := by
    simp only [List.mem_cons, List.not_mem_nil, or_false] at ht
    rcases ht with rfl | rfl <;> decide
  exact C153_export k.Ha_pos h0 hε hjob ⟨by decide, hQ.1, by decide, hQt.1⟩ ⟨by decide, hQ.2, hQt.2⟩ hh (by omega)
    fun i v hT => h6 i v _ hT (List.getElem?_eq_getElem v.2)

/-- **C153 (dispersion).**  The same from CRYSTAL outputs with phonon dispersion. -/
theorem C153_dispersion {nt : ℕ} (k : Consts) {disk : Str → Option Str} {filename : Str} {isList : Bool} {files : List Str}
    (hr : isList = false ∧ files = [filename] ∨
      isList = true ∧ ∃ text, disk filename = some text ∧ Listed (readlines text) files)
    {os : List Sampling}
    (ho : List.Forall₂ (fun f o => ∃ text, disk f = some text ∧ DispersionOutput text o) files os)
    {ref : ℕ} {r : Sampling} (href : os[ref]? = some r) (hn : 0 < r.natom)
    (hsame : ∀ o ∈ os, o.natom = r.natom ∧ o.points.length = r.points.length)
    {job : Str} (hj : Phonon.Spec.Plain job) (hjob : ¬ c!"(QHA)" <:+: job) (outfile : Str) {t : Str} (ht : t ∈ [c!"K", c!"C"])
    {C : Scale} (hC : Means temperatures t C) (T : Fin nt → ℝ) (hw : (r.points.map fun p => p.1).sum ≠ 0)
    {vol : Str} (hvol : vol ∈ [c!"A", c!"bohr"]) :
    ∃ fuel₀, ∀ fuel, fuel₀ ≤ fuel → ∃ s text doc,
      inpgen (crystalFiles fuel disk) ⟨[]⟩ filename outfile isList ref c!"crystal" job =
        (s, .written (outfile ++ c!".yaml") text) ∧ Denotes text doc ∧
      ∃ res : HA.Results nt os.length,
        harmonic k ⟨c!"Ha", c!"cm^-1", t, T⟩ (.tree doc) = .ok (.ok ⟨os.length, res⟩) ∧
        ∀ run ε, 0 ≤ ε → ε ≤ 1 / 2 → Holds ε run T res →
          Exports k k.Ha (100 * k.c) ε (haFile job c!"Ha" vol c!"cm^-1" t run) T (fun i => C.toRef (T i))
            (fun v => (os[v].energy : ℝ)) (fun v => pointsOf r os[v]) := by
  obtain ⟨fuel₀, hf⟩ := C147_dispersion (nt := nt) k hr ho href hn hsame hj outfile ht hC T hw
  refine ⟨fuel₀, fun fuel hle => ?_⟩
  obtain ⟨s, text, doc, h1, h2, -, ⟨nv, res⟩, h4, h5, h6⟩ := hf fuel hle
  simp only at h5
  subst h5
  refine ⟨s, text, doc, h1, h2, res, h4, fun run ε h0 hε hh => ?_⟩
  have hQ : 'Q' ∉ vol ∧ '\n' ∉ vol := by
    simp only [List.mem_cons, List.not_mem_nil, or_false] at hvol
    rcases hvol with rfl | rfl <;> decide
  have hQt : 'Q' ∉ t ∧ '\n' ∉ t := by
    simp only [List.mem_cons, List.not_mem_nil, or_false] at ht
    rcases ht with rfl | rfl <;> decide
  have hpos : 0 < os.length := (List.getElem?_eq_some_iff.1 href).1.trans_le' (Nat.zero_le _)
  exact C153_export k.Ha_pos h0 hε hjob ⟨by decide, hQ.1, by decide, hQt.1⟩ ⟨by decide, hQ.2, hQt.2⟩ hh hpos
    fun i v hT => h6 i v _ hT (List.getElem?_eq_getElem v.2)

/-- **C153 (phonopy), in part.**  The same from phonopy calculations, if the user asks for electronvolt.  Missing: the default
unit of energy, with which `quantas ha` takes the energies of VASP for hartree (`C149_default_violated`). -/
theorem C153_phonopy_partial {nt : ℕ} {k : Consts} (hk : k.c = 299792458) {d : Folder} {filename : Str} {isList : Bool}
    {files : List Str}
    (hr : isList = false ∧ files = [filename] ∨
      isList = true ∧ ∃ text, d.text filename = some text ∧ Listed (readlines text) files)
    {os : List Spectrum} (ho : List.Forall₂ (fun f o => PhonopyCalculation (calculationFiles d f) o) files os)
    {ref : ℕ} {r : Spectrum} (href : os[ref]? = some r) (hn : 0 < r.natom)
    (hsame : ∀ o ∈ os, o.natom = r.natom ∧ o.points.length = r.points.length)
    {job : Str} (hj : Phonon.Spec.Plain job) (hjob : ¬ c!"(QHA)" <:+: job) (outfile : Str)
    (hw : (r.points.map fun p => p.weight).sum ≠ 0)
    {t : Str} (ht : t ∈ [c!"K", c!"C"]) {C : Scale} (hC : Means temperatures t C) (T : Fin nt → ℝ)
    {vol : Str} (hvol : vol ∈ [c!"A", c!"bohr"]) :
    ∃ s text doc, inpgen (phonopyFiles k d) ⟨[]⟩ filename outfile isList ref c!"phonopy" job =
        (s, .written (outfile ++ c!".yaml") text) ∧ Denotes text doc ∧
      ∃ (res : HA.Results nt os.length) (pts : Fin os.length → List (ℚ × List ℚ)),
        harmonic k ⟨c!"eV", c!"cm^-1", t, T⟩ (.tree doc) = .ok (.ok ⟨os.length, res⟩) ∧
        (∀ v, Sampled k r os[v] (pts v)) ∧
        ∀ run ε, 0 ≤ ε → ε ≤ 1 / 2 → Holds ε run T res →
          Exports k k.eV (100 * k.c) ε (haFile job c!"eV" vol c!"cm^-1" t run) T (fun i => C.toRef (T i))
            (fun v => (os[v].energy : ℝ)) pts := by
  obtain ⟨s, text, doc, h1, h2, -, x, x1, x2, x3, x4, x5, x6, x7⟩ := phonopy_input hk hr ho href hn hsame hj outfile hw
  obtain ⟨⟨nv, res⟩, r1, r2, r3⟩ := C144_input (nt := nt) k x1 x2 x5 x6 (e := c!"eV") (f := c!"cm^-1")
    (by simp) (by simp) ht (means_eV k) (means_cm k) hC T
  rw [x3, List.length_map] at r2
  simp only at r2
  subst r2
  refine ⟨s, text, doc, h1, h2, res, fun v => vibrationsAt x v, r1, fun v => x7 v _ (List.getElem?_eq_getElem v.2),
    fun run ε h0 hε hh => ?_⟩
  have hQ : 'Q' ∉ vol ∧ '\n' ∉ vol := by
    simp only [List.mem_cons, List.not_mem_nil, or_false] at hvol
    rcases hvol with rfl | rfl <;> decide
  have hQt : 'Q' ∉ t ∧ '\n' ∉ t := by
    simp only [List.mem_cons, List.not_mem_nil, or_false] at ht
    rcases ht with rfl | rfl <;> decide
  have hpos : 0 < os.length := (List.getElem?_eq_some_iff.1 href).1.trans_le' (Nat.zero_le _)
  exact C153_export k.eV_pos h0 hε hjob ⟨by decide, hQ.1, by decide, hQt.1⟩ ⟨by decide, hQ.2, hQt.2⟩ hh hpos
    fun i v hT => r3 i v _ hT (by rw [x4]; simp)

end Verif.Chain
