/-
Property C155: from the vibrations of calculations to the numbers of an exported table of quasi-harmonic results.
-/
import Verif.Chain.QuasiTableSpec
import Verif.Chain.TableProps
import Verif.Chain.QuasiProps
import Verif.Chain.PhonopyProps

noncomputable section

namespace Verif.Chain
open Verif.Py Verif.IO Verif.IO.Spec Verif.Interfaces Verif.Interfaces.Spec Verif.Phonon Verif.Phonon.Spec Verif.Units
  Verif.Units.Spec Verif.QHA.Spec Spec
open Verif.Export (QhaRun Scales saveQha qhaUnit)
open Verif.Export.Generic (qhaInfo described qhaDescriptions readInput)

/-! ### Lemmas -/

theorem reported_name {nt np : ℕ} (r : QHA.Results nt np) : (reported r).map (fun x => x.1) =
    [c!"Uzp", c!"Uth", c!"Utot", c!"S", c!"Fvib", c!"F", c!"Cv", c!"VT", c!"Cp", c!"Cp-Cv", c!"KT", c!"KS", c!"Kp", c!"H", c!"G",
      c!"alphaV", c!"gruneisen"] := rfl

theorem reported_mem {nt np : ℕ} {r : QHA.Results nt np} {p : Str} (h : p ∈ Export.qhaProperties) :
    ∃ x ∈ reported r, x.1 = p := by
  have : p ∈ (reported r).map (fun x => x.1) := by
    rw [reported_name]
    exact h
  exact List.mem_map.1 this

theorem mem_reported {nt np : ℕ} {r : QHA.Results nt np} {x : Str × (Fin nt → Fin np → ℝ)} (h : x ∈ reported r) :
    x.1 ∈ Export.qhaProperties := by
  have : x.1 ∈ (reported r).map (fun x => x.1) := List.mem_map.2 ⟨x, h, rfl⟩
  rw [reported_name] at this
  exact this

theorem qha_title_line : ∀ p ∈ Export.qhaProperties, '\n' ∉ Export.Generic.Spec.qhaTitle p := by decide +kernel

theorem table_heads {close : ℚ → ℚ → Prop} {x y : List ℚ} {z : ℕ → ℕ → ℚ} {desc unit xl yl text : Str} {body : List Str}
    (h : Export.Spec.IsTable close x y z desc unit xl yl body text) (hd : '\n' ∉ desc) (hu : '\n' ∉ unit) {j : ℕ} {q : ℚ}
    (hj : y[j]? = some q) : ∃ p, Heads text j p ∧ Rounded 8 q p := by
  obtain ⟨r1, labels, cols, r2, rows, r3, hb, -, -, -, -, ⟨ys, y1, y2⟩, -, -⟩ := h.body_eq
  obtain ⟨p, hp⟩ : ∃ p, ys[j]? = some p :=
    ⟨_, List.getElem?_eq_getElem (by rw [← y1.length_eq]; exact (List.getElem?_eq_some_iff.1 hj).1)⟩
  refine ⟨p, ⟨_, cols, ys, ?_, h.text_eq, ?_, y2, hp⟩, ?_⟩
  · intro a ha
    rcases List.mem_append.1 ha with ha | ha
    · simp only [List.mem_cons, List.not_mem_nil, or_false] at ha
      rcases ha with rfl | rfl | rfl | rfl | rfl
      · decide
      · simp
      · exact hd
      · exact hu
      · simp
    · exact h.lines a ha
  · rw [hb]
    rfl
  · obtain ⟨h1, e1⟩ := List.getElem?_eq_some_iff.1 hj
    obtain ⟨h2, e2⟩ := List.getElem?_eq_some_iff.1 hp
    rw [← e1, ← e2]
    exact (List.forall₂_iff_get.1 y1).2 j h1 h2

theorem rounded_near {d : ℕ} {q p : ℚ} {P ε : ℝ} (h : Rounded d q p) (hq : |q - P| ≤ ε * |P|) :
    |(p : ℝ) - P| ≤ 1 / (2 * 10 ^ d) + ε * |P| := by
  have h' : ((|p - q| : ℚ) : ℝ) ≤ ((1 / (2 * 10 ^ d) : ℚ) : ℝ) := by exact_mod_cast h.2
  push_cast at h'
  have := abs_sub_le (p : ℝ) q P
  linarith

theorem significant_near {q x : ℚ} {y ε : ℝ} (hε : ε ≤ 1 / 2) (h : Significant 12 q x) (hq : |q - y| ≤ ε * |y|) :
    |(x : ℝ) - y| ≤ ε * |y| + 1 / 10 ^ 12 * |y| := by
  have h' : |(x : ℝ) - q| * (2 * 10 ^ 12) ≤ |(q : ℝ)| := by exact_mod_cast h.2
  have a1 := abs_sub_le (x : ℝ) q y
  have a2 : |(q : ℝ)| ≤ |y| + ε * |y| := by
    have := abs_sub_abs_le_abs_sub (q : ℝ) y
    linarith
  have a3 : ε * |y| ≤ 1 / 2 * |y| := mul_le_mul_of_nonneg_right hε (abs_nonneg y)
  have := abs_nonneg y
  linarith

/-! ### The theorems -/

/-- **C155 (export).**  Whatever doubles the run saved, within the relative error `ε`, each table that the user asks for shows
the results. -/
theorem C155_export {nt np : ℕ} {ε : ℝ} (hε : ε ≤ 1 / 2) (job : Str) {u : Choice} {s : QHA.Settings nt np} (hu : u.Of s)
    {r : QhaRun} {res : QHA.Results nt np} (hr : HoldsQuasi ε r s.temperature s.pressure res) (hp : 0 < np) :
    ExportsQuasi ε (qhaFile job s r) s.temperature s.pressure res := by
  intro filename
  have hne : r.pressure ≠ [] := fun hc => by
    have := hr.pressures
    rw [hc] at this
    simp at this
    omega
  have hlines : '\n' ∉ s.eunit ∧ '\n' ∉ s.vunit ∧ '\n' ∉ s.tunit ∧ '\n' ∉ s.punit := by
    rw [hu.e, hu.v, hu.t, hu.p]
    refine ⟨?_, ?_, ?_, ?_⟩
    · cases u.e <;> decide
    · cases u.v <;> decide
    · cases u.t <;> decide
    · cases u.p <;> decide
  have hz : ∀ p : Str, ∃ z : ℕ → ℕ → ℚ, p ∈ Export.qhaProperties →
      r.results p = .mat ((List.range nt).map fun i => (List.range np).map (z i)) ∧
        ∀ x ∈ reported res, x.1 = p → ∀ (i : Fin nt) (j : Fin np), |z i j - x.2 i j| ≤ ε * |x.2 i j| := by
    intro p
    by_cases h : p ∈ Export.qhaProperties
    · obtain ⟨x, x1, rfl⟩ := reported_mem (r := res) h
      obtain ⟨z, z1, z2⟩ := hr.values x x1
      refine ⟨z, fun _ => ⟨z1, fun y y1 e => ?_⟩⟩
      have : y = x := by
        have hn : ((reported res).map fun x => x.1).Nodup := by
          rw [reported_name]
          decide
        exact List.inj_on_of_nodup_map hn y1 x1 e
      rw [this]
      exact z2
    · exact ⟨fun _ _ => 0, fun h' => absurd h' h⟩
  choose z hz using hz
  obtain ⟨e', e1, -, e2⟩ := Export.Generic.C131_quasi_harmonic_partial ⟨s.eunit, s.vunit, s.tunit, s.punit⟩ job s.funit
    (decide (s.scheme = .freq)) (decide (s.minimization = .poly)) r filename z
    (fun p hp => by rw [(hz p hp).1, Export.matrixOf, hr.temperatures, hr.pressures]) hne hlines.2.2.1 hlines.2.2.2
  refine ⟨e', e1, fun x hx ha => ?_⟩
  have hx' := mem_reported hx
  obtain ⟨text, body, s1, s2, -⟩ := e2 x.1 hx' ha
  refine ⟨text, s1, fun i j => ?_⟩
  obtain ⟨q, hq⟩ : ∃ q, r.temperature[(i : ℕ)]? = some q :=
    ⟨_, List.getElem?_eq_getElem (by rw [hr.temperatures]; exact i.2)⟩
  obtain ⟨q', hq'⟩ : ∃ q, r.pressure[(j : ℕ)]? = some q :=
    ⟨_, List.getElem?_eq_getElem (by rw [hr.pressures]; exact j.2)⟩
  have hunit : '\n' ∉ c!"Data in " ++ qhaUnit ⟨s.eunit, s.vunit, s.tunit, s.punit⟩ x.1 ++ c!" units" := by
    have : '\n' ∉ qhaUnit ⟨s.eunit, s.vunit, s.tunit, s.punit⟩ x.1 := by
      unfold qhaUnit
      split_ifs <;> simp [hlines.1, hlines.2.1, hlines.2.2.2]
    simp only [List.mem_append, not_or]
    exact ⟨⟨by decide, this⟩, by decide⟩
  obtain ⟨t, w, k1, k2, k3⟩ := table_shows s2 (qha_title_line _ hx') hunit hq (j := j) (by rw [hr.pressures]; exact j.2)
  obtain ⟨p, l1, l2⟩ := table_heads s2 (qha_title_line _ hx') hunit hq'
  have hv := (hz x.1 hx').2 x hx rfl i j
  refine ⟨t, p, w, k1, l1, ?_, rounded_near l2 (hr.pressure j _ hq'), ?_⟩
  · refine (rounded_near k2 (hr.temperature i _ hq)).trans (le_of_eq ?_)
    norm_num
  · unfold Export.Spec.close Export.Spec.fixedNames at k3
    unfold printing
    split_ifs at k3 ⊢ with hc
    · exact (rounded_near k3 hv).trans (le_of_eq (add_comm _ _))
    · exact significant_near hε k3 hv

/-- **C155 (volumes).**  The table of the volumes shows equilibrium volumes of the fitted free energies, where the potential is
smaller than nearby; with the interpolation of thermodynamic functions the tables of entropy, heat capacity, internal and free
energy show the values there of fitted polynomials. -/
theorem C155_volumes {nt np nv : ℕ} {k : Consts} {u : Choice} {s : QHA.Settings nt np} {volumes energies : List ℚ}
    {points : Fin nv → List (ℚ × List ℚ)} {ha : HA.Results nt nv} {out : Except PyErr (Except QuasiError (QHA.Results nt np))}
    (h : Analysed k u s volumes energies points ha out) (hu : u.Of s) (hp : 0 < np) (job : Str) :
    Tabled k u s job volumes ha out := by
  obtain ⟨X, c, -, hX, -, hc, hbad, hgood⟩ := h
  refine ⟨X, c, fun n V hV => ?_, hc, hbad, fun heq => ?_⟩
  · obtain ⟨y, y1, y2⟩ := hX n V hV
    rw [y1]
    have h' : ((|y - V| : ℚ) : ℝ) ≤ ((1 / (2 * 10 ^ 8) : ℚ) : ℝ) := by exact_mod_cast y2.2
    push_cast at h'
    exact h'
  · obtain ⟨res, r1, r2⟩ := hgood heq
    refine ⟨res, r1, res.VT, fun i j => ⟨(r2 i j).1, (r2 i j).2.1⟩, fun ε run hε hh filename => ?_⟩
    obtain ⟨e, e1, e2⟩ := C155_export hε job hu hh hp filename
    refine ⟨e, e1, e2 (c!"VT", res.VT) (by simp [reported]) (by simp), fun htd q hq => ?_⟩
    simp only [List.mem_cons, List.not_mem_nil, or_false] at hq
    rcases hq with rfl | rfl | rfl | rfl
    · obtain ⟨text, t1, t2⟩ := e2 (c!"S", res.S) (by simp [reported]) (by simp)
      exact ⟨text, res.S, t1, fun i j => ((r2 i j).2.2.1 htd).1, t2⟩
    · obtain ⟨text, t1, t2⟩ := e2 (c!"Cv", res.Cv) (by simp [reported]) (by simp)
      exact ⟨text, res.Cv, t1, fun i j => ((r2 i j).2.2.1 htd).2.1, t2⟩
    · obtain ⟨text, t1, t2⟩ := e2 (c!"Utot", res.Utot) (by simp [reported]) (by simp)
      exact ⟨text, res.Utot, t1, fun i j => ((r2 i j).2.2.1 htd).2.2.1, t2⟩
    · obtain ⟨text, t1, t2⟩ := e2 (c!"F", res.F) (by simp [reported]) (by simp)
      exact ⟨text, res.F, t1, fun i j => ⟨c i, hc i, ((r2 i j).2.2.1 htd).2.2.2⟩, t2⟩

/-- **C155 (CRYSTAL).**  From the outputs of CRYSTAL at the zone centre, at four or more volumes, through `quantas inpgen`,
`quantas qha` with polynomials and `quantas export` to the numbers of the tables. -/
theorem C155_crystal {nt np : ℕ} (k : Consts) {ext : QHA.Ext} (hext : Numerics ext) {disk : Str → Option Str}
    {filename listing : Str} {files : List Str} (hl : disk filename = some listing) (hr : Listed (readlines listing) files)
    {os : List Vibrations}
    (ho : List.Forall₂ (fun f o => ∃ text, disk f = some text ∧ GammaOutput text o) files os)
    {n : ℕ} (hn : 0 < n) (hsame : ∀ o ∈ os, o.natom = n) {ref : ℕ} (href : ref < os.length) (h4 : 4 ≤ os.length)
    {job : Str} (hj : Phonon.Spec.Plain job) (outfile : Str) {s : QHA.Settings nt np} {u : Choice} (hu : u.Of s)
    (hm : s.minimization = .poly) (hk : s.kieffer = false) (hp : 0 < np) :
    ∃ fuel₀, ∀ fuel, fuel₀ ≤ fuel → ∃ st text doc,
      inpgen (crystalFiles fuel disk) ⟨[]⟩ filename outfile true ref c!"crystal" job =
        (st, .written (outfile ++ c!".yaml") text) ∧ Denotes text doc ∧
      ∃ res : Σ nv, HA.Results nt nv, harmonic k (harmonicSettings s) (.tree doc) = .ok (.ok res) ∧
        Tabled k u s job (os.map fun o => o.volume) res.2 (quasiHarmonic k ext s (.tree doc)) := by
  obtain ⟨fuel₀, hf⟩ := C148_crystal k hext hl hr ho hn hsame href h4 hj outfile hu hm hk
  refine ⟨fuel₀, fun fuel hle => ?_⟩
  obtain ⟨st, text, doc, h1, h2, -, res, h3, h5⟩ := hf fuel hle
  exact ⟨st, text, doc, h1, h2, res, h3, C155_volumes h5 hu hp job⟩

/-- **C155 (dispersion).**  The same from CRYSTAL outputs with phonon dispersion. -/
theorem C155_dispersion {nt np : ℕ} (k : Consts) {ext : QHA.Ext} (hext : Numerics ext) {disk : Str → Option Str}
    {filename listing : Str} {files : List Str} (hl : disk filename = some listing) (hr : Listed (readlines listing) files)
    {os : List Sampling}
    (ho : List.Forall₂ (fun f o => ∃ text, disk f = some text ∧ DispersionOutput text o) files os)
    {ref : ℕ} {r : Sampling} (href : os[ref]? = some r) (hn : 0 < r.natom)
    (hsame : ∀ o ∈ os, o.natom = r.natom ∧ o.points.length = r.points.length) (h4 : 4 ≤ os.length)
    {job : Str} (hj : Phonon.Spec.Plain job) (outfile : Str) (hw : (r.points.map fun p => p.1).sum ≠ 0)
    {s : QHA.Settings nt np} {u : Choice} (hu : u.Of s) (hm : s.minimization = .poly) (hk : s.kieffer = false)
    (hp : 0 < np) :
    ∃ fuel₀, ∀ fuel, fuel₀ ≤ fuel → ∃ st text doc,
      inpgen (crystalFiles fuel disk) ⟨[]⟩ filename outfile true ref c!"crystal" job =
        (st, .written (outfile ++ c!".yaml") text) ∧ Denotes text doc ∧
      ∃ res : Σ nv, HA.Results nt nv, harmonic k (harmonicSettings s) (.tree doc) = .ok (.ok res) ∧
        Tabled k u s job (os.map fun o => o.volume) res.2 (quasiHarmonic k ext s (.tree doc)) := by
  obtain ⟨fuel₀, hf⟩ := C148_dispersion k hext hl hr ho href hn hsame h4 hj outfile hw hu hm hk
  refine ⟨fuel₀, fun fuel hle => ?_⟩
  obtain ⟨st, text, doc, h1, h2, -, res, h3, h5⟩ := hf fuel hle
  exact ⟨st, text, doc, h1, h2, res, h3, C155_volumes h5 hu hp job⟩

/-- **C155 (quasi-harmonic output).**  The same from a CRYSTAL output of a quasi-harmonic calculation. -/
theorem C155_quasi_harmonic {nt np : ℕ} (k : Consts) {ext : QHA.Ext} (hext : Numerics ext) {disk : Str → Option Str}
    {filename text : Str} (hd : disk filename = some text) {x : Expanded} (ho : QuasiOutput text x) (hn : 0 < x.natom)
    (h4 : 4 ≤ x.volumes.length) {job : Str} (hj : Phonon.Spec.Plain job) (st : Phonon.State) (outfile : Str) (ref : ℤ)
    {s : QHA.Settings nt np} {u : Choice} (hu : u.Of s) (hm : s.minimization = .poly) (hk : s.kieffer = false)
    (hp : 0 < np) :
    ∃ text doc, inpgen (quasiFiles disk) st filename outfile false ref c!"crystal-qha" job =
        (st, .written (outfile ++ c!".yaml") text) ∧ Denotes text doc ∧
      ∃ res : Σ nv, HA.Results nt nv, harmonic k (harmonicSettings s) (.tree doc) = .ok (.ok res) ∧
        Tabled k u s job x.volumes res.2 (quasiHarmonic k ext s (.tree doc)) := by
  obtain ⟨text', doc, h1, h2, -, res, h3, h5⟩ := C148_quasi_harmonic k hext hd ho hn h4 hj st outfile ref hu hm hk
  exact ⟨text', doc, h1, h2, res, h3, C155_volumes h5 hu hp job⟩

/-- **C155 (phonopy), in part.**  The same from phonopy calculations, if the user asks for electronvolt.  Missing: the default
unit of energy, with which `quantas qha` takes the energies of VASP for hartree (`C149_default_violated`). -/
theorem C155_phonopy_partial {nt np : ℕ} {k : Consts} (hk : k.c = 299792458) {ext : QHA.Ext} (hext : Numerics ext) {d : Folder}
    {filename listing : Str} {files : List Str} (hl : d.text filename = some listing) (hr : Listed (readlines listing) files)
    {os : List Spectrum} (ho : List.Forall₂ (fun f o => PhonopyCalculation (calculationFiles d f) o) files os)
    {ref : ℕ} {r : Spectrum} (href : os[ref]? = some r) (hn : 0 < r.natom)
    (hsame : ∀ o ∈ os, o.natom = r.natom ∧ o.points.length = r.points.length) (h4 : 4 ≤ os.length)
    {job : Str} (hj : Phonon.Spec.Plain job) (outfile : Str) (hw : (r.points.map fun p => p.weight).sum ≠ 0)
    {s : QHA.Settings nt np} {p : PressureUnit} {t : TemperatureUnit} (hu : (⟨.eV, .A, p, t, .cm⟩ : Choice).Of s)
    (hm : s.minimization = .poly) (hkf : s.kieffer = false) (hp : 0 < np) :
    ∃ st text doc, inpgen (phonopyFiles k d) ⟨[]⟩ filename outfile true ref c!"phonopy" job =
        (st, .written (outfile ++ c!".yaml") text) ∧ Denotes text doc ∧
      ∃ res : Σ nv, HA.Results nt nv, harmonic k (harmonicSettings s) (.tree doc) = .ok (.ok res) ∧
        Tabled k ⟨.eV, .A, p, t, .cm⟩ s job (os.map fun o => o.volume) res.2 (quasiHarmonic k ext s (.tree doc)) := by
  obtain ⟨st, text, doc, h1, h2, -, res, pts, h3, -, h5⟩ :=
    C149_quasi_partial hk hext hl hr ho href hn hsame h4 hj outfile hw hu hm hkf
  exact ⟨st, text, doc, h1, h2, res, h3, C155_volumes h5 hu hp job⟩

end Verif.Chain
