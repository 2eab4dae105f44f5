/-
Property C144: from the vibrations of a calculation to the harmonic results.
-/
import Verif.Chain.PhononModel
import Verif.Chain.Oscillators
import Verif.Phonon.YamlUnique

noncomputable section

namespace Verif.Chain
open Verif.Py Verif.IO Verif.IO.Spec Verif.Interfaces Verif.Interfaces.Spec Verif.Phonon Verif.Phonon.Spec Verif.Units
  Verif.Units.Spec Spec

/-! ### Lemmas -/

theorem rounded_exact {d : ℕ} {x y : ℚ} (h : Rounded d x y) (hx : ∃ n : ℤ, x = n / 10 ^ d) : y = x := by
  obtain ⟨⟨m, rfl⟩, hr⟩ := h
  obtain ⟨n, rfl⟩ := hx
  have hp : (0 : ℚ) < 10 ^ d := by positivity
  rw [← sub_div, abs_div, abs_of_pos hp, div_le_iff₀ hp] at hr
  have e : (1 : ℚ) / (2 * 10 ^ d) * 10 ^ d = 1 / 2 := by field_simp
  rw [e] at hr
  have h1 : |m - n| < 1 := by
    have : ((|m - n| : ℤ) : ℚ) < 1 := by push_cast; linarith
    exact_mod_cast this
  rw [Int.abs_lt_one_iff] at h1
  rw [show m = n by omega]

theorem forall₂_eq {α : Type} {R : α → α → Prop} {l m : List α} (h : List.Forall₂ R l m)
    (H : ∀ a ∈ l, ∀ b, R a b → b = a) : m = l := by
  induction h with
  | nil => rfl
  | cons hab _ ih => rw [H _ (by simp) _ hab, ih fun a ha => H a (by simp [ha])]

theorem forall₂_get {α β : Type} {R : α → β → Prop} {l : List α} {m : List β} (h : List.Forall₂ R l m) {i : ℕ}
    {a : α} (ha : l[i]? = some a) : ∃ b, m[i]? = some b ∧ R a b := by
  obtain ⟨hi, rfl⟩ := List.getElem?_eq_some_iff.1 ha
  have hi' : i < m.length := h.length_eq ▸ hi
  exact ⟨m[i], List.getElem?_eq_getElem hi', (List.forall₂_iff_get.1 h).2 i hi hi'⟩

theorem forall₂_right {α β : Type} {R : α → β → Prop} {l : List α} {m : List β} (h : List.Forall₂ R l m) :
    ∀ b ∈ m, ∃ a ∈ l, R a b := by
  induction h with
  | nil => simp
  | cons hab _ ih =>
    intro b hb
    rcases List.mem_cons.1 hb with rfl | hb
    · exact ⟨_, by simp, hab⟩
    · obtain ⟨a, ha, h⟩ := ih b hb
      exact ⟨a, by simp [ha], h⟩

theorem means_Ha (k : Consts) : Means (energiesShort k) c!"Ha" ⟨[c!"ha"], k.Ha, 0⟩ := by
  constructor
  · simp [energiesShort]
  · simp [lower]

theorem means_cm (k : Consts) : Means (Units.Spec.frequencies k) c!"cm^-1" ⟨[c!"cm^-1"], 100 * k.c, 0⟩ := by
  constructor
  · simp [Units.Spec.frequencies]
  · simp [lower]

theorem frequencies_exact {d : Content} (hd : ∀ p ∈ d.points, ∀ f ∈ p.bands, ∀ ν ∈ f, ∃ n : ℤ, ν = n / 10 ^ 10)
    {fs : List (List (List ℚ))}
    (h : List.Forall₂ (fun (p : Point) b => List.Forall₂ (List.Forall₂ (Rounded 10)) p.bands b) d.points fs) :
    fs = d.points.map fun p => p.bands := by
  have h2 : List.Forall₂ (fun a b => b = a) (d.points.map fun p => p.bands) fs := by
    rw [List.forall₂_map_left_iff]
    refine (forall₂_mem h.flip fun b p hp hb => ?_ : List.Forall₂ (fun b (p : Point) => b = p.bands) fs d.points).flip
    exact forall₂_eq hb fun f hf g hg => forall₂_eq hg fun ν hν y hy => rounded_exact hy (hd p hp f hf ν hν)
  exact forall₂_eq h2 fun a _ b hb => hb

/-! ### From an input to the results -/

/-- **C144 (from the input).**  `quantas ha` accepts an input that the generator wrote, and its results at every temperature
above zero and every volume are those of Planck's oscillators with the frequencies of the input, on top of the static energy. -/
theorem C144_input {nt : ℕ} (k : Consts) {job : Str} {d : Content} (hc : Complete d) {doc : Node}
    (h : IsInput (.str job) d doc)
    (hd : ∀ p ∈ d.points, ∀ f ∈ p.bands, ∀ ν ∈ f, ∃ n : ℤ, ν = n / 10 ^ 10)
    (_hw : (d.points.map fun p => p.weight).sum ≠ 0) {e f t : Str}
    (he : e ∈ [c!"Ha", c!"eV", c!"Ry"]) (hf : f ∈ [c!"cm^-1", c!"THz", c!"Hz"]) (ht : t ∈ [c!"K", c!"C"])
    {A B C : Scale} (hA : Means (energiesShort k) e A) (hB : Means (frequencies k) f B) (hC : Means temperatures t C)
    (T : Fin nt → ℝ) :
    ∃ res : Σ nv, HA.Results nt nv, harmonic k ⟨e, f, t, T⟩ (.tree doc) = .ok (.ok res) ∧
      res.1 = d.volumes.length ∧
      ∀ (i : Fin nt) (v : Fin res.1) (U : ℚ), 0 < C.toRef (T i) → d.energies[(v : ℕ)]? = some U →
        Describes k A.slope B.slope (C.toRef (T i)) U (1 / (2 * 10 ^ 12)) (vibrationsAt d v) (res.2.Uzp 0 v)
          (res.2.Uth i v) (res.2.S i v) (res.2.Cv i v) (res.2.Fvib i v) (res.2.Utot i v) (res.2.F i v) := by
  obtain ⟨r, h1, h2, -, -, h3, -, h4, ⟨vs, h5, h6⟩, ⟨es, h7, h8⟩, fs, h9, h10⟩ := C85_read hc h
  have hnv : r.nvol = .ok vs.length := by rw [Reader.nvol, h5]; simp [Except.map]
  obtain rfl := frequencies_exact hd h10
  set ws : List Fl := d.points.map fun p => some (p.weight : ℚ) with hws
  set F : List (List (List Fl)) := (d.points.map fun p => p.bands).map fun b => b.map fun f => f.map some with hF
  set x : HA.Input ws.length (3 * (d.natom : ℤ).toNat) vs.length :=
      { U0 := fun i => element (elements (.vec (es.map some))) i
        freq := fun j m i => element (((F[(j : ℕ)]?).getD [])[(m : ℕ)]?.getD []) i
        weights := fun j => element ws j } with hx
  obtain ⟨res, hr⟩ := HA.C14_selectable_units k x T he hf ht
  refine ⟨⟨vs.length, res⟩, ?_, h6.length_eq.symm, ?_⟩
  · simp only [harmonic, h1, h2, h4, h9, h3, hnv, h7, bind, Except.bind, if_true]
    rw [← hx, hr]
    rfl
  · intro i v U hT hU
    obtain ⟨a1, a2, a3, a4, a5⟩ := HA.C14_in_users_units hr hA hB hC i v
    have zA : A.offset = 0 := by
      have : ∀ A ∈ energiesShort k, A.offset = 0 := by simp [energiesShort]
      exact this A hA.1
    have zB : B.offset = 0 := by
      have : ∀ B ∈ Units.Spec.frequencies k, B.offset = 0 := by simp [Units.Spec.frequencies]
      exact this B hB.1
    have pB : 0 < B.slope := frequencies_slopes k B hB.1
    have hv : (v : ℕ) < d.volumes.length := by have := v.2; rw [h6.length_eq]; exact this
    -- the sums are means
    have hlen : (vibrationsAt d v).length = ws.length := by simp [vibrationsAt, hws]
    have hband : ∀ p ∈ vibrationsAt d v, p.2.length = 3 * (d.natom : ℤ).toNat := by
      intro p hp
      obtain ⟨q, hq, rfl⟩ := List.mem_map.1 hp
      simpa using hc.bands q hq
    have hω : ∀ (j : Fin ws.length) p, (vibrationsAt d v)[(j : ℕ)]? = some p →
        ∀ (m : Fin (3 * (d.natom : ℤ).toNat)) ν, p.2[(m : ℕ)]? = some ν →
        B.toRef (x.freq j m v) = B.slope * ν := by
      intro j p hp m ν hν
      simp only [vibrationsAt, List.getElem?_map, Option.map_eq_some_iff] at hp
      obtain ⟨q, hq, rfl⟩ := hp
      simp only [List.getElem?_map, Option.map_eq_some_iff] at hν
      obtain ⟨g, hg, rfl⟩ := hν
      have hgl : (v : ℕ) < g.length := by
        rw [hc.freqs q (List.mem_of_getElem? hq) g (List.mem_of_getElem? hg)]; exact hv
      simp only [hx, hF, List.getElem?_map, hq, hg, Option.map_some, Option.getD_some, element, Scale.toRef, zB,
        add_zero, List.getElem?_eq_getElem hgl, List.getD_eq_getElem?_getD]
    have hw : ∀ (j : Fin ws.length) p, (vibrationsAt d v)[(j : ℕ)]? = some p → x.weights j = p.1 := by
      intro j p hp
      simp only [vibrationsAt, List.getElem?_map, Option.map_eq_some_iff] at hp
      obtain ⟨q, hq, rfl⟩ := hp
      simp [hx, hws, element, hq]
    have key := fun (g f : ℝ → ℝ) (c : ℝ) (h0 : ∀ ω, ω ≤ 0 → g ω = 0) (hg : ∀ ω, 0 < ω → c * g ω = f ω) =>
      sum_mean (points := vibrationsAt d v) hlen hband (unit := B.slope) pB h0 hg hω hw
    obtain ⟨y, hy, hys⟩ := forall₂_get h8 hU
    have hU0 : x.U0 v = y := by simp [hx, element, elements, hy]
    have hclose : |x.U0 v - (U : ℝ)| ≤ 1 / (2 * 10 ^ 12) * |(U : ℝ)| := by
      have h := hys.2
      have h' : |(y : ℝ) - U| * (2 * 10 ^ 12) ≤ |(U : ℝ)| := by exact_mod_cast h
      rw [hU0, div_mul_eq_mul_div, one_mul, le_div_iff₀ (by positivity)]
      exact h'
    obtain ⟨_, _, _, _, _, _, _, _, _, _, _, _, _, _, u, w⟩ := HA.run_ok hr
    simp only [Scale.toRef, zA, add_zero, StatMech.zeroPointEnergy, StatMech.thermalEnergy, StatMech.entropy,
      StatMech.vibrationalFreeEnergy, StatMech.isochoricHeatCapacity, StatMech.kernel_eq] at a1 a2 a3 a4 a5
    refine ⟨?_, ?_, ?_, ?_, ?_, ?_, ?_⟩
    · rw [a1]
      exact key _ _ _ (fun ω hω => by simp [StatMech.hoZpe, hω]) fun ω hω => planck_zero k _ hω
    · rw [a2]
      exact key _ _ _ (fun ω hω => by simp [StatMech.hoEth, hω]) fun ω hω => planck_thermal k hT.ne' hω
    · rw [a4, mul_div_right_comm]
      exact key _ _ _ (fun ω hω => by simp [StatMech.hoS, hω]) fun ω hω => by
        rw [div_mul_eq_mul_div]; exact planck_entropy k hT hω
    · rw [a5, mul_div_right_comm]
      exact key _ _ _ (fun ω hω => by simp [StatMech.hoCv, hω]) fun ω hω => by
        rw [div_mul_eq_mul_div]; exact planck_heat k hT hω
    · rw [a3]
      exact key _ _ _ (fun ω hω => by simp [StatMech.hoF, hω]) fun ω hω => planck_free k hT hω
    · rw [u]
      calc _ = |x.U0 v - (U : ℝ)| := by congr 1; ring
        _ ≤ _ := hclose
    · rw [w]
      calc _ = |x.U0 v - (U : ℝ)| := by congr 1; ring
        _ ≤ _ := hclose

/-! ### From the outputs to the results -/

/-- The properties that the reader returns for an output at the zone centre. -/
def calcGamma (o : Vibrations) : Calc where
  natom := o.natom
  dim := fun i j => (1 : Matrix (Fin 3) (Fin 3) ℚ) i j
  qpoints := 1
  volume := o.volume
  energy := o.energy
  qcoords := [![0, 0, 0]]
  shrinkf := 1
  weights := [1]
  nphonon := o.natom * 3
  phonons := [o.freqs]

theorem read_gamma {text : Str} {o : Vibrations} (h : GammaOutput text o) :
    ∃ fuel₀, ∀ fuel, fuel₀ ≤ fuel → readCrystal fuel text = .ok (.done (calcGamma o)) := by
  obtain ⟨ls, atoms, M, k, modes, h1, h2, h3, h4, h5, h6, h7, h8, h9, h10, -⟩ := h
  obtain ⟨r, r1, r2, -, r4, -, -, -, r5, r6, r7, r8, r9, r10, r11, r12⟩ :=
    C77_gamma h1 h2 h3 h4 h5 h6 (by rw [← h7, h10, h8])
  refine ⟨ls.length + 2, fun fuel hf => ?_⟩
  rw [readCrystal, r1 fuel hf]
  have hn : r.nphonon = o.natom * 3 := by
    have : r.nphonon = r.natom * 3 := rfl
    rw [this, r4, h8]
  simp only [r2, if_true, calcOf, r6, Except.map, calcGamma, r4, r5, r7, r8, r9, r10, r11, r12, h7, h8, h9, hn]

/-- The data of the input for these outputs. -/
def contentGamma (n : ℕ) (os : List Vibrations) : Content where
  natom := n
  dim := fun i j => if i = j then 1 else 0
  volumes := os.map fun o => o.volume
  energies := os.map fun o => o.energy
  points := [⟨fun _ => 0, 1, (List.range (3 * n)).map fun j => os.map fun o => o.freqs.getD j 0⟩]

theorem gamma_complete {n : ℕ} (hn : 0 < n) {os : List Vibrations} (ho : os ≠ []) : Complete (contentGamma n os) := by
  refine ⟨hn, by simpa [contentGamma] using ho, by simp [contentGamma], by simp [contentGamma], ?_, ?_⟩
  · intro p hp
    obtain rfl := List.mem_singleton.1 hp
    simp [contentGamma]
  · intro p hp f hf
    obtain rfl := List.mem_singleton.1 hp
    obtain ⟨j, -, rfl⟩ := List.mem_map.1 hf
    simp [contentGamma]

theorem gamma_provides {n : ℕ} {os : List Vibrations} (hn : ∀ o ∈ os, o.natom = n)
    (hl : ∀ o ∈ os, o.freqs.length = 3 * o.natom) {o : Vibrations} (ho : o ∈ os) :
    Provides (os.map calcGamma) (calcGamma o) (contentGamma n os) := by
  refine ⟨by simp [calcGamma, contentGamma, hn o ho], fun i j => ?_, by simp [contentGamma, calcGamma, Function.comp_def],
    by simp [contentGamma, calcGamma, Function.comp_def], by simp [contentGamma, calcGamma], ?_, ?_, ?_, ?_⟩
  · by_cases h : i = j
    · subst h; simp [calcGamma, contentGamma]
    · simp [calcGamma, contentGamma, h]
  · intro i p hp
    match i, hp with
    | 0, hp =>
      obtain rfl := Option.some.inj hp
      exact ⟨_, rfl, fun k => by fin_cases k <;> simp [calcGamma]⟩
  · intro i p hp
    match i, hp with
    | 0, hp =>
      obtain rfl := Option.some.inj hp
      simp [calcGamma]
  · intro p hp
    obtain rfl := List.mem_singleton.1 hp
    simp [calcGamma, hn o ho, mul_comm]
  · intro i p hp j g hg
    match i, hp with
    | 0, hp =>
      obtain rfl := Option.some.inj hp
      simp only [List.getElem?_map, Option.map_eq_some_iff] at hg
      obtain ⟨j', hj, rfl⟩ := hg
      obtain ⟨hj1, rfl⟩ := List.getElem?_eq_some_iff.1 hj
      simp only [List.length_range] at hj1
      rw [List.forall₂_map_left_iff, List.forall₂_map_right_iff, List.forall₂_same]
      intro q hq
      have : j < q.freqs.length := by rw [hl q hq, hn q hq]; exact hj1
      refine ⟨q.freqs, rfl, ?_⟩
      simp [List.getD_eq_getElem?_getD, List.getElem?_eq_getElem this]

theorem gamma_vibrations {n : ℕ} {os : List Vibrations} {v : ℕ} {o : Vibrations} (ho : os[v]? = some o)
    (hl : o.freqs.length = 3 * n) : vibrationsAt (contentGamma n os) v = [(1, o.freqs)] := by
  have e : (List.range (3 * n)).map (fun j => o.freqs.getD j 0) = o.freqs := by
    refine List.ext_getElem (by simp [hl]) fun i h1 h2 => ?_
    simp [List.getD_eq_getElem?_getD, List.getElem?_eq_getElem h2]
  simp only [vibrationsAt, contentGamma, List.map_cons, List.map_nil, Int.cast_one, List.map_map]
  congr 2
  rw [← e]
  refine List.map_congr_left fun j _ => ?_
  simp [List.getD_eq_getElem?_getD, ho]

theorem common_fuel {disk : Str → Option Str} {files : List Str} {os : List Vibrations}
    (h : List.Forall₂ (fun f o => ∃ text, disk f = some text ∧ GammaOutput text o) files os) :
    ∃ fuel₀, ∀ fuel, fuel₀ ≤ fuel → Calculations (crystalFiles fuel disk) .crystal files (os.map calcGamma) := by
  induction h with
  | nil => exact ⟨0, fun _ _ => .nil⟩
  | cons hab _ ih =>
    obtain ⟨text, h1, h2⟩ := hab
    obtain ⟨a, ha⟩ := read_gamma h2
    obtain ⟨b, hb⟩ := ih
    refine ⟨max a b, fun fuel hf => .cons ⟨by simp [crystalFiles, h1], ?_⟩ (hb fuel (le_trans (le_max_right _ _) hf))⟩
    simp [crystalFiles, h1, ha fuel (le_trans (le_max_left _ _) hf)]

/-- The input that is generated from outputs at the zone centre. -/
theorem gamma_input {disk : Str → Option Str} {filename : Str} {isList : Bool} {files : List Str}
    (hr : isList = false ∧ files = [filename] ∨
      isList = true ∧ ∃ text, disk filename = some text ∧ Listed (readlines text) files)
    {os : List Vibrations}
    (ho : List.Forall₂ (fun f o => ∃ text, disk f = some text ∧ GammaOutput text o) files os)
    {n : ℕ} (hn : 0 < n) (hsame : ∀ o ∈ os, o.natom = n) {ref : ℕ} (href : ref < os.length)
    {job : Str} (hj : Phonon.Spec.Plain job) (outfile : Str) :
    Complete (contentGamma n os) ∧
    (∀ p ∈ (contentGamma n os).points, ∀ f ∈ p.bands, ∀ ν ∈ f, ∃ n : ℤ, ν = n / 10 ^ 10) ∧
    ((contentGamma n os).points.map fun p => p.weight).sum ≠ 0 ∧
    (∀ v o, os[v]? = some o → vibrationsAt (contentGamma n os) v = [(1, o.freqs)]) ∧
    ∃ fuel₀, ∀ fuel, fuel₀ ≤ fuel → ∃ s text doc,
      inpgen (crystalFiles fuel disk) ⟨[]⟩ filename outfile isList ref c!"crystal" job =
        (s, .written (outfile ++ c!".yaml") text) ∧
      Denotes text doc ∧ (∀ doc', Denotes text doc' → doc' = doc) ∧ IsInput (.str job) (contentGamma n os) doc := by
  obtain ⟨fuel₀, hfu⟩ := common_fuel ho
  have hfreq : ∀ o ∈ os, o.freqs.length = 3 * o.natom ∧ ∀ ν ∈ o.freqs, ∃ n : ℤ, ν = n / 10 ^ 10 := by
    intro o hm
    obtain ⟨f, -, text, -, ls, atoms, M, k, modes, h⟩ := forall₂_right ho o hm
    exact ⟨h.2.2.2.2.2.2.2.2.2.1, h.2.2.2.2.2.2.2.2.2.2⟩
  have hmem : os[ref] ∈ os := List.getElem_mem href
  have hcomp := gamma_complete hn (List.ne_nil_of_mem hmem)
  refine ⟨hcomp, ?_, by simp [contentGamma], fun v o hv => ?_, fuel₀, fun fuel hle => ?_⟩
  · intro p hp f hf ν hν
    obtain rfl := List.mem_singleton.1 hp
    obtain ⟨j, hj, rfl⟩ := List.mem_map.1 hf
    obtain ⟨o, hm, rfl⟩ := List.mem_map.1 hν
    have : j < o.freqs.length := by rw [(hfreq o hm).1, hsame o hm]; simpa using hj
    rw [List.getD_eq_getElem?_getD, List.getElem?_eq_getElem this, Option.getD_some]
    exact (hfreq o hm).2 _ (List.getElem_mem this)
  · have hm := List.mem_of_getElem? hv
    exact gamma_vibrations hv (by rw [(hfreq o hm).1, hsame o hm])
  · have hreq : Requested (crystalFiles fuel disk) filename isList files := by
      rcases hr with h | ⟨h1, text, h2, h3⟩
      · exact .inl h
      · exact .inr ⟨h1, by simpa [crystalFiles, h2] using h3⟩
    obtain ⟨s, text, doc, h1, h2, h3⟩ := C53_fresh_partial (k := ref) (.inl ⟨rfl, rfl⟩) hreq (hfu fuel hle)
      (ref := calcGamma os[ref]) (by simp [href])
      (gamma_provides hsame (fun o hm => (hfreq o hm).1) hmem) hcomp hj outfile
    exact ⟨s, text, doc, h1, h2, fun doc' hd => C85_one_tree hd h2, h3⟩

/-- **C144 (from the outputs).**  For CRYSTAL outputs of the same crystal at the zone centre, one or a list of them, a new
process of `quantas inpgen ha` writes an input.  The input denotes one tree only, and `quantas ha` with the default units of
energy and frequency returns for each output, at every temperature above zero, the results of Planck's oscillators with the
frequencies printed there, on top of the energy printed there up to its thirteenth digit. -/
theorem C144_crystal {nt : ℕ} (k : Consts) {disk : Str → Option Str} {filename : Str} {isList : Bool} {files : List Str}
    (hr : isList = false ∧ files = [filename] ∨
      isList = true ∧ ∃ text, disk filename = some text ∧ Listed (readlines text) files)
    {os : List Vibrations}
    (ho : List.Forall₂ (fun f o => ∃ text, disk f = some text ∧ GammaOutput text o) files os)
    {n : ℕ} (hn : 0 < n) (hsame : ∀ o ∈ os, o.natom = n) {ref : ℕ} (href : ref < os.length)
    {job : Str} (hj : Phonon.Spec.Plain job) (outfile : Str) {t : Str} (ht : t ∈ [c!"K", c!"C"]) {C : Scale}
    (hC : Means temperatures t C) (T : Fin nt → ℝ) :
    ∃ fuel₀, ∀ fuel, fuel₀ ≤ fuel → ∃ s text doc,
      inpgen (crystalFiles fuel disk) ⟨[]⟩ filename outfile isList ref c!"crystal" job =
        (s, .written (outfile ++ c!".yaml") text) ∧
      Denotes text doc ∧ (∀ doc', Denotes text doc' → doc' = doc) ∧
      ∃ res : Σ nv, HA.Results nt nv,
        harmonic k ⟨c!"Ha", c!"cm^-1", t, T⟩ (.tree doc) = .ok (.ok res) ∧ res.1 = os.length ∧
        ∀ (i : Fin nt) (v : Fin res.1) (o : Vibrations), 0 < C.toRef (T i) → os[(v : ℕ)]? = some o →
          Describes k k.Ha (100 * k.c) (C.toRef (T i)) o.energy (1 / (2 * 10 ^ 12)) [(1, o.freqs)] (res.2.Uzp 0 v)
            (res.2.Uth i v) (res.2.S i v) (res.2.Cv i v) (res.2.Fvib i v) (res.2.Utot i v) (res.2.F i v) := by
  obtain ⟨hcomp, hdec, hw, hvib, fuel₀, hfu⟩ := gamma_input hr ho hn hsame href hj outfile
  refine ⟨fuel₀, fun fuel hle => ?_⟩
  obtain ⟨s, text, doc, h1, h2, h3, h4⟩ := hfu fuel hle
  obtain ⟨res, r1, r2, r3⟩ := C144_input (nt := nt) k hcomp h4 hdec hw (e := c!"Ha") (f := c!"cm^-1")
    (by simp) (by simp) ht (means_Ha k) (means_cm k) hC T
  refine ⟨s, text, doc, h1, h2, h3, res, r1, by rw [r2]; simp [contentGamma], fun i v o hT hv => ?_⟩
  have := r3 i v o.energy hT (by simp [contentGamma, hv])
  rwa [hvib v o hv] at this

end Verif.Chain
