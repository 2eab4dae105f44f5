/-
Property C147: from the phonon dispersion and the quasi-harmonic outputs of CRYSTAL to the harmonic results.
-/
import Verif.Chain.PhononProps
import Verif.Chain.DispersionSpec
import Verif.Chain.DispersionModel
import Verif.Interfaces.CrystalQHAProps

noncomputable section

namespace Verif.Chain
open Verif.Py Verif.IO Verif.IO.Spec Verif.Interfaces Verif.Interfaces.Spec Verif.Phonon Verif.Phonon.Spec Verif.Units
  Verif.Units.Spec Spec

/-! ### Dispersion outputs -/

/-- The properties that the reader returns for a dispersion output. -/
def calcSampling (o : Sampling) : Calc where
  natom := o.natom
  dim := fun i j => o.dim i j
  qpoints := o.points.length
  volume := o.volume
  energy := o.energy
  qcoords := o.points.map (·.2)
  shrinkf := o.shrink
  weights := o.points.map fun p => (p.1 : ℚ)
  nphonon := o.natom * 3
  phonons := o.freqs

theorem read_dispersion {text : Str} {o : Sampling} (h : DispersionOutput text o) :
    (o.freqs.length = o.points.length ∧ o.points ≠ [] ∧ (∀ f ∈ o.freqs, f.length = 3 * o.natom) ∧
      ∀ f ∈ o.freqs, ∀ ν ∈ f, ∃ m : ℤ, ν = m / 10 ^ 10) ∧
    ∃ fuel₀, ∀ fuel, fuel₀ ≤ fuel → readCrystal fuel text = .ok (.done (calcSampling o)) := by
  obtain ⟨ls, d, n, tables, h1, h2, h3, h4, h5, h6, h7, h8, h9, b1, b2, b3, b4, b5, b6, b7, b8, b9⟩ := h
  have hl : o.freqs.length = o.points.length := by rw [b7, List.length_map, h8, b6, List.length_map]
  refine ⟨⟨hl, ?_, b8, b9⟩, ls.length + 2, fun fuel hf => ?_⟩
  · rintro h
    rw [h] at b6
    exact h9 b6
  have hn : (n : ℚ) ≠ 0 := by exact_mod_cast h4.ne'
  obtain ⟨r, r1, r2, -, r3, -, -, ⟨x, r4, r5⟩, r6, r7, r8, r9, r10, r11, r12⟩ :=
    C78_dispersion_partial h1 d h2 h3 h4 h5 h6 h7 h8 h9 fun t ht => by
      rw [b8 (expand t) (by rw [b7]; exact List.mem_map_of_mem ht), b1]
  have hx : x = o.energy := mul_left_cancel₀ hn (r5.trans b4.symm)
  have hv : r.volume = o.volume := mul_left_cancel₀ hn (r6.trans b3.symm)
  have hp : r.nphonon = o.natom * 3 := by
    have : r.nphonon = r.natom * 3 := rfl
    rw [this, r3, b1]
  have hd : (fun i j => r.dim i j) = fun i j => (o.dim i j : ℚ) := by
    funext i j; rw [r12]; exact b2 i j
  rw [readCrystal, r1 fuel hf]
  simp only [r2, if_true, calcOf, r4, Except.map, calcSampling, hx, hv, hp, hd, r3, r7, r8, r9, r10, r11, b1, b5, b6, b7,
    List.length_map, List.map_map, Function.comp_def]

/-- The data of the input for these outputs, with the points of the output `r`. -/
def contentSampling (r : Sampling) (os : List Sampling) : Content where
  natom := r.natom
  dim := r.dim
  volumes := os.map fun o => o.volume
  energies := os.map fun o => o.energy
  points := r.points.mapIdx fun i p => ⟨fun k => p.2 k / r.shrink k, p.1,
    (List.range (3 * r.natom)).map fun j => os.map fun o => (o.freqs.getD i []).getD j 0⟩

theorem sampling_complete {r : Sampling} (hn : 0 < r.natom) (hr : r.points ≠ []) {os : List Sampling} (ho : os ≠ []) :
    Complete (contentSampling r os) := by
  refine ⟨hn, by simpa [contentSampling] using ho, by simp [contentSampling], by simpa [contentSampling] using hr, ?_, ?_⟩
  · intro p hp
    obtain ⟨i, hi, rfl⟩ := List.mem_mapIdx.1 hp
    simp [contentSampling]
  · intro p hp f hf
    obtain ⟨i, hi, rfl⟩ := List.mem_mapIdx.1 hp
    obtain ⟨j, -, rfl⟩ := List.mem_map.1 hf
    simp [contentSampling]

/-- All outputs have the size of the output `r`. -/
def SameSize (r : Sampling) (os : List Sampling) : Prop :=
  ∀ o ∈ os, o.freqs.length = r.points.length ∧ ∀ f ∈ o.freqs, f.length = 3 * r.natom

theorem sampling_get {r o : Sampling} {os : List Sampling} (h : SameSize r os) (ho : o ∈ os) {i j : ℕ}
    (hi : i < r.points.length) (hj : j < 3 * r.natom) :
    ∃ row, o.freqs[i]? = some row ∧ row[j]? = some ((o.freqs.getD i []).getD j 0) := by
  obtain ⟨h1, h2⟩ := h o ho
  have hi' : i < o.freqs.length := by rwa [h1]
  have hj' : j < (o.freqs[i]).length := by rwa [h2 _ (List.getElem_mem hi')]
  exact ⟨_, List.getElem?_eq_getElem hi', by
    simp [List.getD_eq_getElem?_getD, List.getElem?_eq_getElem hi', List.getElem?_eq_getElem hj']⟩

theorem sampling_provides {r : Sampling} {os : List Sampling} (h : SameSize r os) :
    Provides (os.map calcSampling) (calcSampling r) (contentSampling r os) := by
  refine ⟨rfl, fun i j => rfl, by simp [contentSampling, calcSampling, Function.comp_def],
    by simp [contentSampling, calcSampling, Function.comp_def], by simp [contentSampling, calcSampling], ?_, ?_, ?_, ?_⟩
  · intro i p hp
    simp only [contentSampling, List.getElem?_mapIdx, Option.map_eq_some_iff] at hp
    obtain ⟨q, hq, rfl⟩ := hp
    exact ⟨q.2, by simp [calcSampling, hq], fun k => rfl⟩
  · intro i p hp
    simp only [contentSampling, List.getElem?_mapIdx, Option.map_eq_some_iff] at hp
    obtain ⟨q, hq, rfl⟩ := hp
    simp [calcSampling, hq]
  · intro p hp
    obtain ⟨i, hi, rfl⟩ := List.mem_mapIdx.1 hp
    simp [calcSampling, mul_comm]
  · intro i p hp j g hg
    simp only [contentSampling, List.getElem?_mapIdx, Option.map_eq_some_iff] at hp
    obtain ⟨q, hq, rfl⟩ := hp
    have hi := (List.getElem?_eq_some_iff.1 hq).1
    simp only [List.getElem?_map, Option.map_eq_some_iff] at hg
    obtain ⟨j', hj, rfl⟩ := hg
    obtain ⟨hj1, rfl⟩ := List.getElem?_eq_some_iff.1 hj
    simp only [List.length_range] at hj1
    rw [List.forall₂_map_left_iff, List.forall₂_map_right_iff, List.forall₂_same]
    intro o ho
    obtain ⟨row, e1, e2⟩ := sampling_get h ho hi hj1
    refine ⟨row, e1, ?_⟩
    rw [e2]
    simp

/-- The points of the output `r` with the frequencies of the output `o`. -/
def Spec.pointsOf (r o : Sampling) : List (ℚ × List ℚ) := List.zipWith (fun p f => ((p.1 : ℚ), f)) r.points o.freqs

theorem sampling_vibrations {r o : Sampling} {os : List Sampling} (h : SameSize r os) {v : ℕ} (ho : os[v]? = some o) :
    vibrationsAt (contentSampling r os) v = pointsOf r o := by
  obtain ⟨h1, h2⟩ := h o (List.mem_of_getElem? ho)
  refine List.ext_getElem (by simp [vibrationsAt, contentSampling, pointsOf, h1]) fun i k1 k2 => ?_
  have hi : i < o.freqs.length := by simp [pointsOf] at k2; omega
  have hr : i < r.points.length := by simp [pointsOf] at k2; omega
  have e : (List.range (3 * r.natom)).map (fun j => (o.freqs.getD i []).getD j 0) = o.freqs[i] := by
    refine List.ext_getElem (by simp [h2 _ (List.getElem_mem hi)]) fun j m1 m2 => ?_
    simp [List.getD_eq_getElem?_getD, List.getElem?_eq_getElem hi, List.getElem?_eq_getElem m2]
  simp only [vibrationsAt, contentSampling, pointsOf, List.getElem_map, List.getElem_mapIdx, List.getElem_zipWith, List.map_map]
  congr 1
  rw [← e]
  refine List.map_congr_left fun j _ => ?_
  simp [List.getD_eq_getElem?_getD, ho]

theorem sampling_fuel {disk : Str → Option Str} {files : List Str} {os : List Sampling}
    (h : List.Forall₂ (fun f o => ∃ text, disk f = some text ∧ DispersionOutput text o) files os) :
    ∃ fuel₀, ∀ fuel, fuel₀ ≤ fuel → Calculations (crystalFiles fuel disk) .crystal files (os.map calcSampling) := by
  induction h with
  | nil => exact ⟨0, fun _ _ => .nil⟩
  | cons hab _ ih =>
    obtain ⟨text, h1, h2⟩ := hab
    obtain ⟨-, a, ha⟩ := read_dispersion h2
    obtain ⟨b, hb⟩ := ih
    refine ⟨max a b, fun fuel hf => .cons ⟨by simp [crystalFiles, h1], ?_⟩ (hb fuel (le_trans (le_max_right _ _) hf))⟩
    simp [crystalFiles, h1, ha fuel (le_trans (le_max_left _ _) hf)]

/-- The input that is generated from dispersion outputs. -/
theorem dispersion_input {disk : Str → Option Str} {filename : Str} {isList : Bool} {files : List Str}
    (hr : isList = false ∧ files = [filename] ∨
      isList = true ∧ ∃ text, disk filename = some text ∧ Listed (readlines text) files)
    {os : List Sampling}
    (ho : List.Forall₂ (fun f o => ∃ text, disk f = some text ∧ DispersionOutput text o) files os)
    {ref : ℕ} {r : Sampling} (href : os[ref]? = some r) (hn : 0 < r.natom)
    (hsame : ∀ o ∈ os, o.natom = r.natom ∧ o.points.length = r.points.length)
    {job : Str} (hj : Phonon.Spec.Plain job) (outfile : Str) (hw : (r.points.map fun p => p.1).sum ≠ 0) :
    Complete (contentSampling r os) ∧
    (∀ p ∈ (contentSampling r os).points, ∀ f ∈ p.bands, ∀ ν ∈ f, ∃ n : ℤ, ν = n / 10 ^ 10) ∧
    ((contentSampling r os).points.map fun p => p.weight).sum ≠ 0 ∧
    (∀ v o, os[v]? = some o → vibrationsAt (contentSampling r os) v = pointsOf r o) ∧
    ∃ fuel₀, ∀ fuel, fuel₀ ≤ fuel → ∃ s text doc,
      inpgen (crystalFiles fuel disk) ⟨[]⟩ filename outfile isList ref c!"crystal" job =
        (s, .written (outfile ++ c!".yaml") text) ∧
      Denotes text doc ∧ (∀ doc', Denotes text doc' → doc' = doc) ∧ IsInput (.str job) (contentSampling r os) doc := by
  obtain ⟨fuel₀, hfu⟩ := sampling_fuel ho
  have hall : ∀ o ∈ os, (o.freqs.length = o.points.length ∧ o.points ≠ [] ∧ (∀ f ∈ o.freqs, f.length = 3 * o.natom) ∧
      ∀ f ∈ o.freqs, ∀ ν ∈ f, ∃ m : ℤ, ν = m / 10 ^ 10) := by
    intro o hm
    obtain ⟨f, -, text, -, h⟩ := forall₂_right ho o hm
    exact (read_dispersion h).1
  have hmem := List.mem_of_getElem? href
  have hsize : SameSize r os := fun o hm =>
    ⟨by rw [(hall o hm).1, (hsame o hm).2], fun f hf => by rw [(hall o hm).2.2.1 f hf, (hsame o hm).1]⟩
  have hcomp := sampling_complete hn (hall r hmem).2.1 (List.ne_nil_of_mem hmem)
  refine ⟨hcomp, ?_, ?_, fun v o hv => sampling_vibrations hsize hv, fuel₀, fun fuel hle => ?_⟩
  · intro p hp f hf ν hν
    obtain ⟨i, hi, rfl⟩ := List.mem_mapIdx.1 hp
    obtain ⟨j, hj, rfl⟩ := List.mem_map.1 hf
    obtain ⟨o, hm, rfl⟩ := List.mem_map.1 hν
    obtain ⟨row, e1, e2⟩ := sampling_get hsize hm hi (by simpa using hj)
    exact (hall o hm).2.2.2 row (List.mem_of_getElem? e1) _ (List.mem_of_getElem? e2)
  · have e : (contentSampling r os).points.map (fun p => p.weight) = r.points.map fun p => p.1 := by
      refine List.ext_getElem (by simp [contentSampling]) fun i k1 k2 => by simp [contentSampling]
    rw [e]; exact hw
  · have hreq : Requested (crystalFiles fuel disk) filename isList files := by
      rcases hr with h | ⟨h1, text, h2, h3⟩
      · exact .inl h
      · exact .inr ⟨h1, by simpa [crystalFiles, h2] using h3⟩
    obtain ⟨s, text, doc, h1, h2, h3⟩ := C53_fresh_partial (k := ref) (.inl ⟨rfl, rfl⟩) hreq (hfu fuel hle)
      (ref := calcSampling r) (by simp [href]) (sampling_provides hsize) hcomp hj outfile
    exact ⟨s, text, doc, h1, h2, fun doc' hd => C85_one_tree hd h2, h3⟩

/-- **C147 (dispersion).**  For CRYSTAL outputs of phonon dispersions of the same crystal, one or a list of them, sampled at the
same number of points, a new process of `quantas inpgen ha` writes an input.  `quantas ha` on it returns for each output, at
every temperature above zero, the means over the sampled points, with the weights of the reference output, of the results of
Planck's oscillators with the frequencies printed there, on top of the energy printed there divided by the number of unit cells
in the supercell. -/
theorem C147_dispersion {nt : ℕ} (k : Consts) {disk : Str → Option Str} {filename : Str} {isList : Bool} {files : List Str}
    (hr : isList = false ∧ files = [filename] ∨
      isList = true ∧ ∃ text, disk filename = some text ∧ Listed (readlines text) files)
    {os : List Sampling}
    (ho : List.Forall₂ (fun f o => ∃ text, disk f = some text ∧ DispersionOutput text o) files os)
    {ref : ℕ} {r : Sampling} (href : os[ref]? = some r) (hn : 0 < r.natom)
    (hsame : ∀ o ∈ os, o.natom = r.natom ∧ o.points.length = r.points.length)
    {job : Str} (hj : Phonon.Spec.Plain job) (outfile : Str) {t : Str} (ht : t ∈ [c!"K", c!"C"]) {C : Scale}
    (hC : Means temperatures t C) (T : Fin nt → ℝ) (hw : (r.points.map fun p => p.1).sum ≠ 0) :
    ∃ fuel₀, ∀ fuel, fuel₀ ≤ fuel → ∃ s text doc,
      inpgen (crystalFiles fuel disk) ⟨[]⟩ filename outfile isList ref c!"crystal" job =
        (s, .written (outfile ++ c!".yaml") text) ∧
      Denotes text doc ∧ (∀ doc', Denotes text doc' → doc' = doc) ∧
      ∃ res : Σ nv, HA.Results nt nv,
        harmonic k ⟨c!"Ha", c!"cm^-1", t, T⟩ (.tree doc) = .ok (.ok res) ∧ res.1 = os.length ∧
        ∀ (i : Fin nt) (v : Fin res.1) (o : Sampling), 0 < C.toRef (T i) → os[(v : ℕ)]? = some o →
          Describes k k.Ha (100 * k.c) (C.toRef (T i)) o.energy (1 / (2 * 10 ^ 12)) (pointsOf r o) (res.2.Uzp 0 v)
            (res.2.Uth i v) (res.2.S i v) (res.2.Cv i v) (res.2.Fvib i v) (res.2.Utot i v) (res.2.F i v) := by
  obtain ⟨hcomp, hdec, hw', hvib, fuel₀, hfu⟩ := dispersion_input hr ho href hn hsame hj outfile hw
  refine ⟨fuel₀, fun fuel hle => ?_⟩
  obtain ⟨s, text, doc, h1, h2, h3, h4⟩ := hfu fuel hle
  obtain ⟨res, r1, r2, r3⟩ := C144_input (nt := nt) k hcomp h4 hdec hw' (e := c!"Ha") (f := c!"cm^-1")
    (by simp) (by simp) ht (means_Ha k) (means_cm k) hC T
  refine ⟨s, text, doc, h1, h2, h3, res, r1, by rw [r2]; simp [contentSampling], fun i v o hT hv => ?_⟩
  have := r3 i v o.energy hT (by simp [contentSampling, hv])
  rwa [hvib v o hv] at this

/-! ### Quasi-harmonic outputs -/

/-- The data of the input for a quasi-harmonic output. -/
def contentQuasi (E : Fin 3 → Fin 3 → ℤ) (x : Expanded) : Content where
  natom := x.natom
  dim := E
  volumes := x.volumes
  energies := x.energies
  points := x.bands.map fun b => ⟨fun _ => 0, 1, b⟩

/-- The points of a quasi-harmonic output with their frequencies at the volume with the number `v`. -/
def Spec.pointsAt (x : Expanded) (v : ℕ) : List (ℚ × List ℚ) := x.bands.map fun b => (1, b.map fun f => f.getD v 0)

theorem split_bands {m : ℕ} {L : List (List (List ℚ))} (h : ∀ b ∈ L, b.length = m) {q : ℕ} {b : List (List ℚ)}
    (hq : L[q]? = some b) : ∀ j < m, L.flatten[q * m + j]? = b[j]? := by
  induction L generalizing q with
  | nil => simp at hq
  | cons c L ih =>
    intro j hj
    have hc := h c (by simp)
    match q, hq with
    | 0, hq =>
      obtain rfl := Option.some.inj hq
      rw [List.flatten_cons, List.getElem?_append_left (by omega)]
      simp
    | q + 1, hq =>
      rw [List.flatten_cons, List.getElem?_append_right (by rw [hc, Nat.succ_mul]; omega)]
      rw [show (q + 1) * m + j - c.length = q * m + j by rw [hc, Nat.succ_mul]; omega]
      exact ih (fun b hb => h b (by simp [hb])) (by simpa using hq) j hj

/-- What the reader delivers for a quasi-harmonic output in a new process. -/
theorem read_quasi {text : Str} {x : Expanded} (h : QuasiOutput text x) :
    ∃ E c, readQuasi QhaData.initial text = .ok (.done c) ∧ ProvidesQha c (contentQuasi E x) ∧
      x.volumes ≠ [] ∧ x.energies.length = x.volumes.length ∧ x.bands ≠ [] ∧
      ∀ b ∈ x.bands, ∀ f ∈ b, f.length = x.volumes.length := by
  obtain ⟨ls, o, p, E, n, h1, h2, h3, h4, h5, h6, h7, h8, h9, b1, b2, b3, b4, b5⟩ := h
  have hE : (IsSupercell ls ∧ Expansion ls (Matrix.of fun i j => (E i j : ℚ))) ∨
      (¬ IsSupercell ls ∧ QhaData.initial.dim = Matrix.of fun i j => (E i j : ℚ)) := by
    rcases h3 with h | ⟨h, rfl⟩
    · exact .inl h
    · refine .inr ⟨h, ?_⟩
      show (1 : Matrix (Fin 3) (Fin 3) ℚ) = _
      ext i j
      simp [Matrix.one_apply]
  have hn0 : (n : ℚ) ≠ 0 := by exact_mod_cast h5.ne'
  obtain ⟨d, d1, d2, d3, -, ⟨vols, d5, d6, d7⟩, d8, d9, d10, d11, d12, d13, d14⟩ :=
    C60_cells_partial h1 o h2 QhaData.initial hE h4 h5 h6 h7
  obtain ⟨inv, hinv⟩ := exists_inverse h2.range h2.injective
  have hlen := o.same
  have hv : vols = x.volumes := by
    refine List.ext_getElem? fun i => ?_
    by_cases hi : i < o.cells.length
    · obtain ⟨a, b⟩ := hinv i hi
      have hc := List.getElem?_eq_getElem a
      have e1 := d7 _ _ hc
      obtain ⟨v, e2, e3⟩ := h9 _ _ hc
      rw [b] at e1 e2
      rw [e1, e2, ← e3, mul_div_cancel_left₀ _ hn0]
    · rw [List.getElem?_eq_none (by omega), List.getElem?_eq_none (by omega)]
  have he : d.energies = x.energies := by
    rw [d8]
    refine forall₂_eq (R := fun a b => b = a) ?_ (fun a _ b h => h) |>.symm
    rw [List.forall₂_map_left_iff]
    refine b1.imp fun v e hve => ?_
    rw [← hve, mul_div_cancel_left₀ _ hn0]
  have hph : d.phonons = x.bands := by
    refine List.ext_getElem? fun q => ?_
    by_cases hq : q < n
    · obtain ⟨bands, e1, e2, e3⟩ := d12 q hq
      have hq' : q < x.bands.length := by omega
      rw [e1, List.getElem?_eq_getElem hq']
      congr 1
      have hb := b3 _ (List.getElem_mem hq')
      refine List.ext_getElem? fun j => ?_
      by_cases hj : j < 3 * x.natom
      · rw [e3 j hj, ← b4, split_bands b3 (List.getElem?_eq_getElem hq') j hj]
      · rw [List.getElem?_eq_none (by omega), List.getElem?_eq_none (by omega)]
    · rw [List.getElem?_eq_none (by omega), List.getElem?_eq_none (by omega)]
  have hmany := o.many
  refine ⟨E, _, by rw [readQuasi, d1]; simp only [quasiCalcOf, d9, d5, Except.map, Except.bind]; rfl, ?_, ?_, ?_, ?_, ?_⟩
  · refine ⟨rfl, fun i j => by simp [contentQuasi, d14], ?_, hv, he, ?_, ?_, ?_, ?_, ?_⟩
    · simp [contentQuasi, d2, h8]
    · simp [contentQuasi, d10, b2]
    · intro i p hp
      simp only [contentQuasi, List.getElem?_map, Option.map_eq_some_iff] at hp
      obtain ⟨b, hb, rfl⟩ := hp
      have := (List.getElem?_eq_some_iff.1 hb).1
      exact ⟨0, (d13 i (by omega)).2, fun k => by simp⟩
    · intro i p hp
      simp only [contentQuasi, List.getElem?_map, Option.map_eq_some_iff] at hp
      obtain ⟨b, hb, rfl⟩ := hp
      have := (List.getElem?_eq_some_iff.1 hb).1
      simpa using (d13 i (by omega)).1
    · intro p hp
      obtain ⟨b, hb, rfl⟩ := List.mem_map.1 hp
      rw [b3 b hb]
      show _ = ((x.natom : ℤ) * 3).toNat
      omega
    · intro i p hp
      simp only [contentQuasi, List.getElem?_map, Option.map_eq_some_iff] at hp
      obtain ⟨b, hb, rfl⟩ := hp
      simp [hph, hb]
  · rintro h
    rw [h] at h8
    simp at h8
    omega
  · rw [← b1.length_eq, h8]
  · rintro h
    rw [h] at b2
    simp at b2
    omega
  · intro b hb f hf
    rw [h8]
    exact o.full f (by rw [← b4]; exact List.mem_flatten.2 ⟨b, hb, hf⟩)

/-- The input that is generated from a quasi-harmonic output. -/
theorem quasi_input {disk : Str → Option Str} {filename text : Str}
    (hd : disk filename = some text) {x : Expanded} (ho : QuasiOutput text x) (hn : 0 < x.natom)
    {job : Str} (hj : Phonon.Spec.Plain job) (s : Phonon.State) (outfile : Str) (ref : ℤ) :
    ∃ E, Complete (contentQuasi E x) ∧
    (∀ p ∈ (contentQuasi E x).points, ∀ f ∈ p.bands, ∀ ν ∈ f, ∃ n : ℤ, ν = n / 10 ^ 10) ∧
    ((contentQuasi E x).points.map fun p => p.weight).sum ≠ 0 ∧
    (∀ v, vibrationsAt (contentQuasi E x) v = pointsAt x v) ∧
    ∃ text doc, inpgen (quasiFiles disk) s filename outfile false ref c!"crystal-qha" job =
        (s, .written (outfile ++ c!".yaml") text) ∧
      Denotes text doc ∧ (∀ doc', Denotes text doc' → doc' = doc) ∧ IsInput (.str job) (contentQuasi E x) doc := by
  obtain ⟨E, c, hc, hp, k1, k2, k3, k4⟩ := read_quasi ho
  have hdec : ∀ b ∈ x.bands, ∀ f ∈ b, ∀ ν ∈ f, ∃ m : ℤ, ν = m / 10 ^ 10 := by
    obtain ⟨_, _, _, _, _, _, _, _, _, _, _, _, _, _, _, _, _, _, h⟩ := ho
    exact h
  have hb3 : ∀ b ∈ x.bands, b.length = 3 * x.natom := by
    obtain ⟨_, _, _, _, _, _, _, _, _, _, _, _, _, _, _, _, h, _⟩ := ho
    exact h
  have hcomp : Complete (contentQuasi E x) := by
    refine ⟨hn, k1, k2, by simpa [contentQuasi] using k3, ?_, ?_⟩
    · intro p hp
      obtain ⟨b, hb, rfl⟩ := List.mem_map.1 hp
      exact hb3 b hb
    · intro p hp f hf
      obtain ⟨b, hb, rfl⟩ := List.mem_map.1 hp
      exact k4 b hb f hf
  refine ⟨E, hcomp, ?_, ?_, ?_, ?_⟩
  · intro p hp f hf ν hν
    obtain ⟨b, hb, rfl⟩ := List.mem_map.1 hp
    exact hdec b hb f hf ν hν
  · have e : (contentQuasi E x).points.map (fun p => p.weight) = x.bands.map fun _ => (1 : ℤ) := by
      simp only [contentQuasi, List.map_map, Function.comp_def]
    rw [e, List.map_const', List.sum_replicate]
    simpa using k3
  · intro v
    simp only [vibrationsAt, contentQuasi, pointsAt, List.map_map, Function.comp_def, Int.cast_one]
  · obtain ⟨text', doc, h1, h2, h3⟩ := C53_quasi_harmonic (fs := quasiFiles disk) (filename := filename)
      (by simp only [quasiFiles, hd, Option.isSome_some]) (c := c) (by simp only [quasiFiles, hd, hc]) hp hcomp hj s outfile ref
    exact ⟨text', doc, h1, h2, fun doc' hd => C85_one_tree hd h2, h3⟩

/-- **C147 (quasi-harmonic output).**  For a CRYSTAL output of a quasi-harmonic calculation, on the unit cell or a supercell,
`quantas inpgen ha` with the interface `crystal-qha` writes an input, whatever was generated before with other interfaces.
`quantas ha` on it returns for each volume of the table, at every temperature above zero, the means over the points of the
results of Planck's oscillators with the frequencies printed for that volume, on top of the energy of the unit cell. -/
theorem C147_quasi_harmonic {nt : ℕ} (k : Consts) {disk : Str → Option Str} {filename text : Str}
    (hd : disk filename = some text) {x : Expanded} (ho : QuasiOutput text x) (hn : 0 < x.natom)
    {job : Str} (hj : Phonon.Spec.Plain job) (s : Phonon.State) (outfile : Str) (ref : ℤ) {t : Str} (ht : t ∈ [c!"K", c!"C"])
    {C : Scale} (hC : Means temperatures t C) (T : Fin nt → ℝ) :
    ∃ text doc, inpgen (quasiFiles disk) s filename outfile false ref c!"crystal-qha" job =
        (s, .written (outfile ++ c!".yaml") text) ∧
      Denotes text doc ∧ (∀ doc', Denotes text doc' → doc' = doc) ∧
      ∃ res : Σ nv, HA.Results nt nv,
        harmonic k ⟨c!"Ha", c!"cm^-1", t, T⟩ (.tree doc) = .ok (.ok res) ∧ res.1 = x.volumes.length ∧
        ∀ (i : Fin nt) (v : Fin res.1) (U : ℚ), 0 < C.toRef (T i) → x.energies[(v : ℕ)]? = some U →
          Describes k k.Ha (100 * k.c) (C.toRef (T i)) U (1 / (2 * 10 ^ 12)) (pointsAt x v) (res.2.Uzp 0 v)
            (res.2.Uth i v) (res.2.S i v) (res.2.Cv i v) (res.2.Fvib i v) (res.2.Utot i v) (res.2.F i v) := by
  obtain ⟨E, hcomp, hdec, hw, hvib, text', doc, h1, h2, h3, h4⟩ := quasi_input hd ho hn hj s outfile ref
  obtain ⟨res, r1, r2, r3⟩ := C144_input (nt := nt) k hcomp h4 hdec hw (e := c!"Ha") (f := c!"cm^-1")
    (by simp) (by simp) ht (means_Ha k) (means_cm k) hC T
  refine ⟨text', doc, h1, h2, h3, res, r1, r2, fun i v U hT hU => ?_⟩
  have := r3 i v U hT hU
  rwa [hvib v] at this

end Verif.Chain
