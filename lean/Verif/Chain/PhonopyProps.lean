/-
Property C149: from phonopy calculations to the harmonic and quasi-harmonic results.
-/
import Verif.Chain.PhonopyModel
import Verif.Chain.PhonopySpec
import Verif.Chain.QuasiProps
import Verif.Command.Model

noncomputable section

namespace Verif.Chain
open Verif.Py Verif.IO Verif.IO.Spec Verif.Interfaces Verif.Interfaces.Spec Verif.Phonon Verif.Phonon.Spec Verif.Units
  Verif.Units.Spec Verif.QHA.Spec Spec

/-! ### Inputs with frequencies of more than ten decimals -/

theorem rounded_self {d : ℕ} {x y : ℚ} (h : Rounded d x y) : Rounded d y y :=
  ⟨h.1, by simp⟩

theorem forall₂_exists {α β γ : Type} {R : α → β → Prop} {S : γ → β → Prop} {Q : α → γ → Prop} {l : List α} {m : List β}
    (h : List.Forall₂ R l m) (H : ∀ a b, R a b → ∃ c, S c b ∧ Q a c) : ∃ n, List.Forall₂ S n m ∧ List.Forall₂ Q l n := by
  induction h with
  | nil => exact ⟨[], .nil, .nil⟩
  | cons hab _ ih =>
    obtain ⟨n, h1, h2⟩ := ih
    obtain ⟨c, h3, h4⟩ := H _ _ hab
    exact ⟨c :: n, .cons h3 h1, .cons h4 h2⟩

/-- The frequencies of `p'` are those of `p` with ten decimals; the weights and the coordinates are the same. -/
def PointRounded (p p' : Point) : Prop :=
  p'.weight = p.weight ∧ p'.coords = p.coords ∧ List.Forall₂ (List.Forall₂ (Rounded 10)) p.bands p'.bands

theorem point_rounded {p : Point} {x : Node} (h : IsPoint p x) : ∃ p', IsPoint p' x ∧ PointRounded p p' := by
  obtain ⟨h1, h2, bs, h3, h4⟩ := h
  obtain ⟨n, h5, h6⟩ := forall₂_exists (S := fun f b => ∃ v, Entry b c!"frequency" v ∧ FloatsFixed 10 f v)
    (Q := List.Forall₂ (Rounded 10)) h4 fun f b hfb => by
      obtain ⟨v, hv, ys, rfl, hr⟩ := hfb
      refine ⟨ys, ⟨_, hv, ys, rfl, ?_⟩, hr⟩
      rw [List.forall₂_same]
      intro y hy
      obtain ⟨x, -, hx⟩ := forall₂_right hr y hy
      exact rounded_self hx
  exact ⟨⟨p.coords, p.weight, n⟩, ⟨h1, h2, bs, h3, h5⟩, rfl, rfl, h6⟩

theorem input_rounded {job : Node} {d : Content} (hc : Complete d) {doc : Node} (h : IsInput job d doc) :
    ∃ d', Complete d' ∧ IsInput job d' doc ∧ d'.volumes = d.volumes ∧ d'.energies = d.energies ∧
      (∀ p ∈ d'.points, ∀ f ∈ p.bands, ∀ ν ∈ f, ∃ n : ℤ, ν = n / 10 ^ 10) ∧
      (d'.points.map fun p => p.weight) = (d.points.map fun p => p.weight) ∧
      ∀ v < d.volumes.length, List.Forall₂ (fun x y => x.1 = y.1 ∧ List.Forall₂ (fun a b => Rounded 10 b a) x.2 y.2)
        (vibrationsAt d' v) (vibrationsAt d v) := by
  obtain ⟨ps, h1, h2⟩ := h.phonon
  obtain ⟨n, h3, h4⟩ := forall₂_exists h2 fun p x hp => point_rounded hp
  have hb : ∀ p' ∈ n, ∃ p ∈ d.points, PointRounded p p' := fun p' hp => forall₂_right h4 p' hp
  refine ⟨{ d with points := n }, ⟨hc.atoms, hc.some_volume, hc.energies, ?_, ?_, ?_⟩,
    ⟨h.job, h.natom, h.supercell, ?_, h.volume, h.energy, ps, h1, h3⟩, rfl, rfl, ?_, ?_, ?_⟩
  · rintro rfl
    exact hc.some_point (List.forall₂_nil_right_iff.1 h4)
  · intro p' hp
    obtain ⟨p, hm, -, -, hr⟩ := hb p' hp
    rw [← hr.length_eq]; exact hc.bands p hm
  · intro p' hp f hf
    obtain ⟨p, hm, -, -, hr⟩ := hb p' hp
    obtain ⟨g, hg, hgf⟩ := forall₂_right hr f hf
    rw [← hgf.length_eq]; exact hc.freqs p hm g hg
  · rw [← h4.length_eq]; exact h.qpoints
  · intro p' hp f hf ν hν
    obtain ⟨p, hm, -, -, hr⟩ := hb p' hp
    obtain ⟨g, hg, hgf⟩ := forall₂_right hr f hf
    obtain ⟨x, -, hx⟩ := forall₂_right hgf ν hν
    exact hx.1
  · have : List.Forall₂ (fun a b => b = a) (d.points.map fun p => p.weight) (n.map fun p => p.weight) := by
      rw [List.forall₂_map_left_iff, List.forall₂_map_right_iff]
      exact h4.imp fun _ _ h => h.1
    exact forall₂_eq this fun _ _ _ h => h
  · intro v hv
    simp only [vibrationsAt]
    rw [List.forall₂_map_left_iff, List.forall₂_map_right_iff]
    refine (forall₂_mem h4.flip fun p' p hp hr => ?_)
    refine ⟨by rw [hr.1], ?_⟩
    rw [List.forall₂_map_left_iff, List.forall₂_map_right_iff]
    refine (forall₂_mem hr.2.2.flip fun f' f hf hff => ?_)
    have hl : v < f.length := by rw [hc.freqs p hp f hf]; exact hv
    obtain ⟨b, hb, hr⟩ := forall₂_get hff (List.getElem?_eq_getElem hl)
    rw [List.getD_eq_getElem?_getD, List.getD_eq_getElem?_getD, hb, List.getElem?_eq_getElem hl]
    exact hr

/-! ### Phonopy calculations -/

/-- Wavenumbers (per centimetre) of a frequency in terahertz. -/
def perCentimetre (f : ℚ) : ℚ := 10 ^ 12 * f / 29979245800

/-- The data of a phonopy calculation in the units of the input. -/
def samplingOf (o : Spectrum) : Sampling where
  natom := o.natom
  dim := o.dim
  volume := o.volume
  energy := o.energy
  shrink := fun _ => 1
  points := o.points.map fun p => (⌊p.weight⌋, p.position)
  freqs := o.points.map fun p => p.freqs.map perCentimetre

theorem rational_cast (q : ℚ) : rational (q : ℝ) = q := by
  have h : ∃ p : ℚ, (p : ℝ) = (q : ℝ) := ⟨q, rfl⟩
  rw [rational, dif_pos h]
  exact_mod_cast h.choose_spec

theorem vector3_of {x : Node} {v : Fin 3 → ℚ} (h : IsVector x v) : vector3 x = .ok v := by
  obtain ⟨a, b, c, rfl, ha, hb, hc⟩ := h
  simp only [vector3, number_of ha, number_of hb, number_of hc, Except.bind, Except.map, Except.ok.injEq]
  funext i
  fin_cases i <;> rfl

theorem rational_wavenumber {k : Consts} (hk : k.c = 299792458) {y : ℝ} {f : ℚ} (h : 100 * k.c * y = 10 ^ 12 * (f : ℝ)) :
    rational y = perCentimetre f := by
  have : y = (perCentimetre f : ℚ) := by
    rw [hk] at h
    rw [perCentimetre]
    push_cast
    linarith
  rw [this, rational_cast]

theorem read_phonopy {k : Consts} (hk : k.c = 299792458) {d : Folder} {file : Str} {o : Spectrum}
    (h : PhonopyCalculation (calculationFiles d file) o) :
    readPhonopy k d file = .ok (.done (calcSampling (samplingOf o))) ∧ (d.yaml file).isSome = true ∧
      ∀ p ∈ o.points, p.freqs.length = 3 * o.natom := by
  obtain ⟨out, disp, atoms, satoms, lattice, slattice, expansion, h1, h2, h3, h4, h5, h6, h7, h8, -, h10⟩ := h
  have hfiles : calculationFiles d file =
      ⟨some (.tree disp), (calculationFiles d file).vasprun, some (.tree out)⟩ := by
    rw [← h1, ← h2]
  obtain ⟨r, r1, r2, -, r3, r4, r5, -, -, ⟨x, r6, r7⟩, r8, r9, r10, r11, r12⟩ := C83_read_partial k h3 h4 h5
  refine ⟨?_, ?_, ?_⟩
  · rw [readPhonopy, hfiles, r1]
    have hw : each number r.weights = .ok (o.points.map fun p => p.weight) :=
      Interfaces.each_ok (by
        rw [List.forall₂_map_right_iff]
        exact r11.imp fun _ _ h => number_of h)
    have hq : each vector3 r.qcoords = .ok (o.points.map fun p => p.position) :=
      Interfaces.each_ok (by
        rw [List.forall₂_map_right_iff]
        exact r10.imp fun _ _ h => vector3_of h)
    have hf : (r.phonons.map fun f => f.map rational) = o.points.map fun p => p.freqs.map perCentimetre := by
      refine forall₂_eq (R := fun a b => a = b) ?_ (fun a _ b h => h.symm) |>.symm
      rw [List.forall₂_map_left_iff, List.forall₂_map_right_iff]
      refine r12.imp fun row p hrow => ?_
      refine forall₂_eq (R := fun a b => a = b) ?_ (fun a _ b h => h.symm) |>.symm
      rw [List.forall₂_map_left_iff, List.forall₂_map_right_iff]
      exact hrow.imp fun y f hy => rational_wavenumber hk hy
    have hws : (o.points.map fun p => p.weight) = o.points.map fun p => ((⌊p.weight⌋ : ℤ) : ℚ) := by
      refine List.map_congr_left fun p hp => ?_
      obtain ⟨n, hn⟩ := h10 p hp
      rw [hn]
      simp
    have hd : (fun i j => expansion i j) = fun i j => (o.dim i j : ℚ) := by
      funext i j; exact h8 i j
    simp only [Except.bind, r2, if_true, phonopyCalcOf, r4, r5, r6, Option.map_some, Option.getD_some, matrix3_of r7, hw, hq,
      Except.map, calcSampling, samplingOf, hf, r3, r8, r9, h6, h7, hd, List.map_map, Function.comp_def, List.length_map,
      mul_comm 3, ← hws]
  · simpa [calculationFiles] using congrArg Option.isSome h1
  · rw [h6]; exact h3.bands

theorem phonopy_calculations {k : Consts} (hk : k.c = 299792458) {d : Folder} {files : List Str} {os : List Spectrum}
    (h : List.Forall₂ (fun f o => PhonopyCalculation (calculationFiles d f) o) files os) :
    Calculations (phonopyFiles k d) .phonopy files ((os.map samplingOf).map calcSampling) := by
  induction h with
  | nil => exact .nil
  | cons hab _ ih =>
    obtain ⟨h1, h2, -⟩ := read_phonopy hk hab
    exact .cons ⟨h2, h1⟩ ih

theorem sampled_of {k : Consts} (hk : k.c = 299792458) {r o : Spectrum} (hr : ∀ p ∈ r.points, ∃ n : ℤ, p.weight = n)
    {pts : List (ℚ × List ℚ)}
    (h : List.Forall₂ (fun x y => x.1 = y.1 ∧ List.Forall₂ (fun a b => Rounded 10 b a) x.2 y.2) pts
      (pointsOf (samplingOf r) (samplingOf o))) : Sampled k r o pts := by
  have e : pointsOf (samplingOf r) (samplingOf o) =
      (r.points.zip o.points).map fun pq => (((⌊pq.1.weight⌋ : ℤ) : ℚ), pq.2.freqs.map perCentimetre) := by
    simp only [pointsOf, samplingOf, List.zipWith_map, List.zip, List.map_zipWith]
  rw [e, List.forall₂_map_right_iff] at h
  refine forall₂_mem h fun x pq hpq hx => ⟨?_, ?_⟩
  · obtain ⟨n, hn⟩ := hr pq.1 (List.of_mem_zip hpq).1
    rw [hx.1, hn]
    simp
  · have h2 := hx.2
    rw [List.forall₂_map_right_iff] at h2
    refine h2.imp fun ν f hf => ?_
    have h3 : |ν - perCentimetre f| ≤ 1 / (2 * 10 ^ 10) := hf.2
    have h4 : ((|ν - perCentimetre f| : ℚ) : ℝ) ≤ ((1 / (2 * 10 ^ 10) : ℚ) : ℝ) := Rat.cast_le.2 h3
    rw [perCentimetre] at h4
    push_cast at h4
    rw [hk]
    rw [abs_le] at h4 ⊢
    constructor <;> linarith [h4.1, h4.2]

/-- The input that is generated from phonopy calculations, with the frequencies it contains. -/
theorem phonopy_input {k : Consts} (hk : k.c = 299792458) {d : Folder} {filename : Str} {isList : Bool} {files : List Str}
    (hr : isList = false ∧ files = [filename] ∨
      isList = true ∧ ∃ text, d.text filename = some text ∧ Listed (readlines text) files)
    {os : List Spectrum} (ho : List.Forall₂ (fun f o => PhonopyCalculation (calculationFiles d f) o) files os)
    {ref : ℕ} {r : Spectrum} (href : os[ref]? = some r) (hn : 0 < r.natom)
    (hsame : ∀ o ∈ os, o.natom = r.natom ∧ o.points.length = r.points.length)
    {job : Str} (hj : Phonon.Spec.Plain job) (outfile : Str) (hw : (r.points.map fun p => p.weight).sum ≠ 0) :
    ∃ s text doc, inpgen (phonopyFiles k d) ⟨[]⟩ filename outfile isList ref c!"phonopy" job =
        (s, .written (outfile ++ c!".yaml") text) ∧
      Denotes text doc ∧ (∀ doc', Denotes text doc' → doc' = doc) ∧
      ∃ x : Content, Complete x ∧ IsInput (.str job) x doc ∧ x.volumes = (os.map fun o => o.volume) ∧
        x.energies = (os.map fun o => o.energy) ∧
        (∀ p ∈ x.points, ∀ f ∈ p.bands, ∀ ν ∈ f, ∃ n : ℤ, ν = n / 10 ^ 10) ∧
        (x.points.map fun p => p.weight).sum ≠ 0 ∧ ∀ v o, os[v]? = some o → Sampled k r o (vibrationsAt x v) := by
  have hall : ∀ o ∈ os, (∀ p ∈ o.points, p.freqs.length = 3 * o.natom) ∧ o.points ≠ [] ∧
      ∀ p ∈ o.points, ∃ n : ℤ, p.weight = n := by
    intro o hm
    obtain ⟨f, -, h⟩ := forall₂_right ho o hm
    obtain ⟨-, -, h1⟩ := read_phonopy hk h
    obtain ⟨_, _, _, _, _, _, _, _, _, _, _, _, _, _, _, h2, h3⟩ := h
    exact ⟨h1, h2, h3⟩
  have hmem := List.mem_of_getElem? href
  have hsize : SameSize (samplingOf r) (os.map samplingOf) := by
    intro s hs
    obtain ⟨o, hm, rfl⟩ := List.mem_map.1 hs
    refine ⟨by simp [samplingOf, (hsame o hm).2], fun f hf => ?_⟩
    obtain ⟨p, hp, rfl⟩ := List.mem_map.1 hf
    rw [List.length_map, (hall o hm).1 p hp, (hsame o hm).1]
    rfl
  have hcomp : Complete (contentSampling (samplingOf r) (os.map samplingOf)) :=
    sampling_complete hn (by simpa [samplingOf] using (hall r hmem).2.1) (by simpa using List.ne_nil_of_mem hmem)
  have hreq : Requested (phonopyFiles k d) filename isList files := by
    rcases hr with h | ⟨h1, text, h2, h3⟩
    · exact .inl h
    · exact .inr ⟨h1, by simpa [phonopyFiles, h2] using h3⟩
  obtain ⟨s, text, doc, h1, h2, h3⟩ := C53_fresh_partial (k := ref) (.inr ⟨rfl, rfl⟩) hreq (phonopy_calculations hk ho)
    (ref := calcSampling (samplingOf r)) (by simp [href]) (sampling_provides hsize) hcomp hj outfile
  obtain ⟨x, x1, x2, x3, x4, x5, x6, x7⟩ := input_rounded hcomp h3
  refine ⟨s, text, doc, h1, h2, fun doc' hd => C85_one_tree hd h2, x, x1, x2, ?_, ?_, x5, ?_, ?_⟩
  · rw [x3]; simp [contentSampling, samplingOf, Function.comp_def]
  · rw [x4]; simp [contentSampling, samplingOf, Function.comp_def]
  · have e : (contentSampling (samplingOf r) (os.map samplingOf)).points.map (fun p => p.weight) =
        r.points.map fun p => ⌊p.weight⌋ := by
      refine List.ext_getElem (by simp [contentSampling, samplingOf]) fun i k1 k2 => by simp [contentSampling, samplingOf]
    rw [x6, e]
    intro h0
    apply hw
    have : (r.points.map fun p => p.weight) = (r.points.map fun p => ⌊p.weight⌋).map fun n : ℤ => (n : ℚ) := by
      rw [List.map_map]
      refine List.map_congr_left fun p hp => ?_
      obtain ⟨n, hn⟩ := (hall r hmem).2.2 p hp
      simp [hn]
    rw [this, ← Int.cast_list_sum, h0, Int.cast_zero]
  · intro v o hv
    have hlt : v < (contentSampling (samplingOf r) (os.map samplingOf)).volumes.length := by
      simpa [contentSampling] using (List.getElem?_eq_some_iff.1 hv).1
    have := x7 v hlt
    rw [sampling_vibrations hsize (o := samplingOf o) (by simp [hv])] at this
    exact sampled_of hk (hall r hmem).2.2 this

theorem means_eV (k : Consts) : Means (energiesShort k) c!"eV" ⟨[c!"electron volt", c!"ev"], k.eV, 0⟩ :=
  ⟨by simp [energiesShort], by simp [lower]⟩

/-- **C149 (harmonic results).**  For phonopy calculations of the same crystal, one or a list of them, sampled at the same number
of points, a new process of `quantas inpgen ha` with the interface `phonopy` writes an input.  `quantas ha` on it with the unit
`eV` returns for each calculation, at every temperature above zero, the means over the sampled points, with the weights of the
reference calculation, of the results of Planck's oscillators with the frequencies of that calculation (up to half a unit of the
tenth decimal of a wavenumber), on top of the energy of VASP.  Missing from the full property: with the default unit the energy
is misread, see `C149_default_violated`. -/
theorem C149_harmonic_partial {nt : ℕ} {k : Consts} (hk : k.c = 299792458) {d : Folder} {filename : Str} {isList : Bool}
    {files : List Str}
    (hr : isList = false ∧ files = [filename] ∨
      isList = true ∧ ∃ text, d.text filename = some text ∧ Listed (readlines text) files)
    {os : List Spectrum} (ho : List.Forall₂ (fun f o => PhonopyCalculation (calculationFiles d f) o) files os)
    {ref : ℕ} {r : Spectrum} (href : os[ref]? = some r) (hn : 0 < r.natom)
    (hsame : ∀ o ∈ os, o.natom = r.natom ∧ o.points.length = r.points.length)
    {job : Str} (hj : Phonon.Spec.Plain job) (outfile : Str) (hw : (r.points.map fun p => p.weight).sum ≠ 0)
    {t : Str} (ht : t ∈ [c!"K", c!"C"]) {C : Scale} (hC : Means temperatures t C) (T : Fin nt → ℝ) :
    ∃ s text doc, inpgen (phonopyFiles k d) ⟨[]⟩ filename outfile isList ref c!"phonopy" job =
        (s, .written (outfile ++ c!".yaml") text) ∧
      Denotes text doc ∧ (∀ doc', Denotes text doc' → doc' = doc) ∧
      ∃ res : Σ nv, HA.Results nt nv,
        harmonic k ⟨c!"eV", c!"cm^-1", t, T⟩ (.tree doc) = .ok (.ok res) ∧ res.1 = os.length ∧
        ∀ (i : Fin nt) (v : Fin res.1) (o : Spectrum), 0 < C.toRef (T i) → os[(v : ℕ)]? = some o →
          ∃ pts, Sampled k r o pts ∧
            Describes k k.eV (100 * k.c) (C.toRef (T i)) o.energy (1 / (2 * 10 ^ 12)) pts (res.2.Uzp 0 v)
              (res.2.Uth i v) (res.2.S i v) (res.2.Cv i v) (res.2.Fvib i v) (res.2.Utot i v) (res.2.F i v) := by
  obtain ⟨s, text, doc, h1, h2, h3, x, x1, x2, x3, x4, x5, x6, x7⟩ := phonopy_input hk hr ho href hn hsame hj outfile hw
  obtain ⟨res, r1, r2, r3⟩ := C144_input (nt := nt) k x1 x2 x5 x6 (e := c!"eV") (f := c!"cm^-1")
    (by simp) (by simp) ht (means_eV k) (means_cm k) hC T
  refine ⟨s, text, doc, h1, h2, h3, res, r1, by rw [r2, x3]; simp, fun i v o hT hv => ⟨_, x7 v o hv, ?_⟩⟩
  exact r3 i v o.energy hT (by rw [x4]; simp [hv])

/-- C149 fails with the default units: the number that VASP gives in electronvolt is taken for hartree, and the free energy is
wrong by more than twenty-six times the static energy. -/
theorem C149_default_violated {nt : ℕ} {d : Folder} {filename : Str} {isList : Bool} {files : List Str}
    (hr : isList = false ∧ files = [filename] ∨
      isList = true ∧ ∃ text, d.text filename = some text ∧ Listed (readlines text) files)
    {os : List Spectrum} (ho : List.Forall₂ (fun f o => PhonopyCalculation (calculationFiles d f) o) files os)
    {ref : ℕ} {r : Spectrum} (href : os[ref]? = some r) (hn : 0 < r.natom)
    (hsame : ∀ o ∈ os, o.natom = r.natom ∧ o.points.length = r.points.length)
    {job : Str} (hj : Phonon.Spec.Plain job) (outfile : Str) (hw : (r.points.map fun p => p.weight).sum ≠ 0)
    (T : Fin nt → ℝ) {e v' f t p : Str} (hdef : Command.unitsOf none none none none none = some (e, v', f, t, p)) :
    ∃ s text doc, inpgen (phonopyFiles codata d) ⟨[]⟩ filename outfile isList ref c!"phonopy" job =
        (s, .written (outfile ++ c!".yaml") text) ∧
      Denotes text doc ∧ (∀ doc', Denotes text doc' → doc' = doc) ∧
      ∃ res : Σ nv, HA.Results nt nv, harmonic codata ⟨e, f, t, T⟩ (.tree doc) = .ok (.ok res) ∧ res.1 = os.length ∧
        ∀ (i : Fin nt) (v : Fin res.1) (o : Spectrum), 0 < T i → os[(v : ℕ)]? = some o → o.energy ≠ 0 →
          ∃ pts, Sampled codata r o pts ∧
            26 * (codata.eV * |(o.energy : ℝ)|) <
              |codata.Ha * res.2.F i v - (codata.eV * o.energy + cellMean (Spec.free codata (T i)) (100 * codata.c) pts)| := by
  have hd : some (c!"Ha", c!"A", c!"cm^-1", c!"K", c!"GPa") = some (e, v', f, t, p) := hdef ▸ rfl
  simp only [Option.some.injEq, Prod.mk.injEq] at hd
  obtain ⟨rfl, rfl, rfl, rfl, rfl⟩ := hd
  obtain ⟨s, text, doc, h1, h2, h3, x, x1, x2, x3, x4, x5, x6, x7⟩ :=
    phonopy_input (k := codata) rfl hr ho href hn hsame hj outfile hw
  obtain ⟨res, r1, r2, r3⟩ := C144_input (nt := nt) codata x1 x2 x5 x6 (e := c!"Ha") (f := c!"cm^-1") (t := c!"K")
    (C := ⟨[c!"kelvin", c!"k"], 1, 0⟩) (by simp) (by simp) (by simp) (means_Ha codata) (means_cm codata)
    ⟨by simp [temperatures], by simp [lower]⟩ T
  refine ⟨s, text, doc, h1, h2, h3, res, r1, by rw [r2, x3]; simp, fun i v o hT hv he => ⟨_, x7 v o hv, ?_⟩⟩
  have hT' : (⟨[c!"kelvin", c!"k"], 1, 0⟩ : Scale).toRef (T i) = T i := by simp [Scale.toRef]
  have h := r3 i v o.energy (by rw [hT']; exact hT) (by rw [x4]; simp [hv])
  rw [hT'] at h
  have hF := h.free
  rw [← h.vibrational]
  have hU : (0 : ℝ) < |(o.energy : ℝ)| := by simpa using he
  have hH : (⟨[c!"ha"], codata.Ha, 0⟩ : Scale).slope = codata.Ha := rfl
  rw [hH]
  have key : codata.Ha * res.2.F i v - (codata.eV * o.energy + codata.Ha * res.2.Fvib i v) =
      (codata.Ha - codata.eV) * o.energy + codata.Ha * (res.2.F i v - (o.energy + res.2.Fvib i v)) := by ring
  rw [key]
  have a1 : |(codata.Ha - codata.eV) * (o.energy : ℝ)| = (codata.Ha - codata.eV) * |(o.energy : ℝ)| := by
    rw [abs_mul, abs_of_pos (by norm_num [codata])]
  have a2 : |codata.Ha * (res.2.F i v - (o.energy + res.2.Fvib i v))| ≤ codata.Ha * (1 / (2 * 10 ^ 12) * |(o.energy : ℝ)|) := by
    rw [abs_mul, abs_of_pos codata.Ha_pos]
    exact mul_le_mul_of_nonneg_left hF codata.Ha_pos.le
  have a3 := abs_sub_abs_le_abs_sub ((codata.Ha - codata.eV) * (o.energy : ℝ))
    (-(codata.Ha * (res.2.F i v - (o.energy + res.2.Fvib i v))))
  rw [abs_neg, sub_neg_eq_add, a1] at a3
  refine lt_of_lt_of_le ?_ a3
  refine lt_of_lt_of_le ?_ (sub_le_sub_left a2 _)
  have : 26 * (codata.eV * |(o.energy : ℝ)|) = 26 * codata.eV * |(o.energy : ℝ)| := by ring
  rw [this, show (codata.Ha - codata.eV) * |(o.energy : ℝ)| - codata.Ha * (1 / (2 * 10 ^ 12) * |(o.energy : ℝ)|) =
    (codata.Ha - codata.eV - codata.Ha / (2 * 10 ^ 12)) * |(o.energy : ℝ)| by ring]
  exact mul_lt_mul_of_pos_right (by norm_num [codata]) hU

/-- **C149 (equilibrium volumes).**  For a list of phonopy calculations at four or more volumes, `quantas qha` on the generated
input with the unit `eV` and minimisation by polynomials returns the equilibrium volumes and the functions there. -/
theorem C149_quasi_partial {nt np : ℕ} {k : Consts} (hk : k.c = 299792458) {ext : QHA.Ext} (hext : Numerics ext) {d : Folder}
    {filename listing : Str} {files : List Str} (hl : d.text filename = some listing) (hr : Listed (readlines listing) files)
    {os : List Spectrum} (ho : List.Forall₂ (fun f o => PhonopyCalculation (calculationFiles d f) o) files os)
    {ref : ℕ} {r : Spectrum} (href : os[ref]? = some r) (hn : 0 < r.natom)
    (hsame : ∀ o ∈ os, o.natom = r.natom ∧ o.points.length = r.points.length) (h4 : 4 ≤ os.length)
    {job : Str} (hj : Phonon.Spec.Plain job) (outfile : Str) (hw : (r.points.map fun p => p.weight).sum ≠ 0)
    {s : QHA.Settings nt np} {p : PressureUnit} {t : TemperatureUnit} (hu : (⟨.eV, .A, p, t, .cm⟩ : Choice).Of s)
    (hm : s.minimization = .poly) (hkf : s.kieffer = false) :
    ∃ st text doc, inpgen (phonopyFiles k d) ⟨[]⟩ filename outfile true ref c!"phonopy" job =
        (st, .written (outfile ++ c!".yaml") text) ∧
      Denotes text doc ∧ (∀ doc', Denotes text doc' → doc' = doc) ∧
      ∃ (res : Σ nv, HA.Results nt nv) (pts : ℕ → List (ℚ × List ℚ)),
        harmonic k (harmonicSettings s) (.tree doc) = .ok (.ok res) ∧
        (∀ v o, os[v]? = some o → Sampled k r o (pts v)) ∧
        Analysed k ⟨.eV, .A, p, t, .cm⟩ s (os.map fun o => o.volume) (os.map fun o => o.energy) (fun v => pts v) res.2
          (quasiHarmonic k ext s (.tree doc)) := by
  obtain ⟨st, text, doc, h1, h2, h3, x, x1, x2, x3, x4, x5, x6, x7⟩ :=
    phonopy_input hk (.inr ⟨rfl, listing, hl, hr⟩) ho href hn hsame hj outfile hw
  obtain ⟨res, r1, r2⟩ := C148_input k hext x1 x2 x5 x6 (by rw [x3]; simpa using h4) hu hm hkf
  rw [x3, x4] at r2
  exact ⟨st, text, doc, h1, h2, h3, res, vibrationsAt x, r1, x7, r2⟩

end Verif.Chain
