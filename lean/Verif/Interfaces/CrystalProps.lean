/-
Reading CRYSTAL phonon outputs: C59, C77, C78 and C79.
-/
import Verif.Interfaces.CrystalLemmas

noncomputable section

namespace Verif.Interfaces
open Verif.Py Verif.IO Verif.IO.Spec Spec

/-! ### C59: termination and degenerate modes -/

theorem first_title {ls : List Str} {k : ℕ} (h : First frequencyTitle ls k) {fuel n : ℕ} :
    phononsFrom fuel ls n 1 0 ls [] =
      match bandLoop ls k n fuel ⟨false, 0, []⟩ with
      | none => none
      | some (.error e) => some (.error e)
      | some (.ok band) => some (.ok [band]) := by
  rw [phononsFrom_first (rest := ls) rfl (Nat.zero_le k) h.1 h.2]
  rcases bandLoop ls k n fuel ⟨false, 0, []⟩ with _ | _ | _ <;> simp

theorem gamma_phonon {ls : List Str} {text : Str} (hf : IsText ls text)
    {atoms : List (ℤ × (Fin 3 → ℚ))} {M : Matrix (Fin 3) (Fin 3) ℚ} {e : ℚ}
    (h : GammaCell ls atoms M e) :
    ∃ r : PhononReader, loadCell ls = .ok r ∧ r.supercellOn = false ∧
      r.unitcell = ⟨atoms.map (·.1), atoms.map (·.2), M⟩ ∧ r.mesh = ⟨[![0, 0, 0]], [1], 1⟩ ∧
      r.rawEnergy = e ∧ r.dim = 1 ∧ r.qpoints = 1 ∧ r.error = none ∧ r.completed = false ∧
      ∀ fuel, loadPhonon fuel text = match phononsFrom fuel ls (3 * atoms.length) 1 0 ls [] with
      | none => none
      | some (.error e) => some (.error e)
      | some (.ok bands) => some ({ r with phonons := bands }.check) := by
  refine ⟨_, loadCell_gamma h, rfl, rfl, rfl, rfl, rfl, rfl, rfl, rfl, fun fuel => ?_⟩
  rw [loadPhonon_cell hf h.1 (loadCell_gamma h) fuel]
  have e : (3 * atoms.length) = atoms.length * 3 := by ring
  simp only [PhononReader.nphonon, PhononReader.cell, Bool.false_eq_true, false_and, if_false,
    Cell.natom, List.length_map, e, PhononReader.empty]
  rfl

/-- **C59 (never returns, partial).**  A phonon output at the zone centre is read for ever exactly
when its first table of frequencies ends with an empty line before three modes per atom have been
listed. -/
theorem C59_never_returns_partial {ls : List Str} {text : Str} (hf : IsText ls text) (hp : Plain ls)
    {atoms : List (ℤ × (Fin 3 → ℚ))} {M : Matrix (Fin 3) (Fin 3) ℚ} {e : ℚ}
    (h : GammaCell ls atoms M e) :
    (∀ fuel, loadPhonon fuel text = none) ↔
      ∃ k, First frequencyTitle ls k ∧ ShortAt ls (k + 2) (3 * atoms.length) := by
  obtain ⟨r, -, -, -, -, -, -, -, -, -, hl⟩ := gamma_phonon hf h
  have hdrop : ∀ k, Plain (ls.drop k) := fun k l hl => hp l (List.mem_of_mem_drop hl)
  constructor
  · intro hn
    have h1 := hn (ls.length + 2)
    rw [hl] at h1
    by_cases hc : Contains frequencyTitle ls
    · -- the first title
      obtain ⟨k, hk⟩ : ∃ k, First frequencyTitle ls k := by
        obtain ⟨l, hm, hs⟩ := hc
        obtain ⟨i, hi⟩ := List.getElem?_of_mem hm
        classical
        have hex : ∃ i, ∃ l, ls[i]? = some l ∧ frequencyTitle <:+: l := ⟨i, l, hi, hs⟩
        exact ⟨Nat.find hex, Nat.find_spec hex, fun j hj l h1 h2 => Nat.find_min hex hj ⟨l, h1, h2⟩⟩
      refine ⟨k, hk, ?_⟩
      rw [first_title hk] at h1
      cases hs : scanTable (3 * atoms.length) (ls.drop (k + 2)) [] with
      | none =>
        obtain ⟨rows, blank, post, counts, a, b, c, d⟩ := (scanTable_none_iff (hdrop _) (by simp)).1 hs
        exact ⟨rows, blank, post, counts, a, b, c, by simpa using d⟩
      | some x =>
        have hb := bandLoop_some (k := 0) (i := k) rfl hs (fuel := ls.length + 2) (by simp)
        rw [hb] at h1
        cases x <;> simp at h1
    · exfalso
      cases hs : phononsFrom (ls.length + 2) ls (3 * atoms.length) 1 0 ls [] with
      | none =>
        obtain ⟨k, l, a, b, -⟩ := phononsFrom_none rfl hs
        exact hc ⟨l, List.mem_of_getElem? a, b⟩
      | some x => rw [hs] at h1; cases x <;> simp at h1
  · rintro ⟨k, hk, rows, blank, post, counts, a, b, c, d⟩ fuel
    have hs : scanTable (3 * atoms.length) (ls.drop (k + 2)) [] = none :=
      (scanTable_none_iff (hdrop _) (by simp)).2 ⟨rows, blank, post, counts, a, b, c, by simpa using d⟩
    rw [hl, first_title hk, bandLoop_none (k := 0) rfl hs]

/-- **C59 violated.**  Reading never ends when the table lists fewer modes than three per atom. -/
theorem C59_hang_violated {ls : List Str} {text : Str} (hf : IsText ls text)
    {atoms : List (ℤ × (Fin 3 → ℚ))} {M : Matrix (Fin 3) (Fin 3) ℚ} {e : ℚ}
    (h : GammaCell ls atoms M e) {k : ℕ} (hk : First frequencyTitle ls k)
    {modes : List (ℤ × ℤ × ℚ)} (hm : ModesAt ls (k + 2) modes)
    (hn : (expand modes).length < 3 * atoms.length) (fuel : ℕ) : loadPhonon fuel text = none := by
  obtain ⟨r, -, -, -, -, -, -, -, -, -, hl⟩ := gamma_phonon hf h
  rw [hl, first_title hk, (bandLoop_modes hm).1 hn]

/-- **C59 (too many modes).**  A table with more than three modes per atom is refused. -/
theorem C59_too_many {ls : List Str} {text : Str} (hf : IsText ls text)
    {atoms : List (ℤ × (Fin 3 → ℚ))} {M : Matrix (Fin 3) (Fin 3) ℚ} {e : ℚ}
    (h : GammaCell ls atoms M e) {k : ℕ} (hk : First frequencyTitle ls k)
    {modes : List (ℤ × ℤ × ℚ)} (hm : ModesAt ls (k + 2) modes)
    (hn : 3 * atoms.length < (expand modes).length) {fuel : ℕ} (hfu : ls.length + 2 ≤ fuel) :
    loadPhonon fuel text = some (.error .indexError) := by
  obtain ⟨r, -, -, -, -, -, -, -, -, -, hl⟩ := gamma_phonon hf h
  rw [hl, first_title hk, (bandLoop_modes hm).2.2 hn fuel hfu]

/-- **C59 (stops, partial).**  On every text whatsoever, reading ends, with a result or with an
exception, unless an empty line follows the title of a table of frequencies. -/
theorem C59_stops_partial {ls : List Str} {text : Str} (hf : IsText ls text)
    (h : ∀ (k j : ℕ) l l', ls[k]? = some l → frequencyTitle <:+: l → k + 2 ≤ j → ls[j]? = some l' →
      ∃ c ∈ l', c ∉ whitespace) :
    ∃ r, loadPhonon (ls.length + 2) text = some r := by
  rw [loadPhonon_text hf, loadPhononLines]
  split
  · exact ⟨_, rfl⟩
  · cases hc : loadCell ls with
    | error e => exact ⟨_, rfl⟩
    | ok r =>
      simp only
      cases hs : setPhonons (ls.length + 2) ls r.nphonon r.qpoints with
      | none =>
        exfalso
        obtain ⟨k, l, h1, h2, h3⟩ := phononsFrom_none rfl hs
        obtain ⟨l', h4, h5⟩ := scanTable_white h3
        obtain ⟨j, hj⟩ := List.getElem?_of_mem h4
        rw [List.getElem?_drop] at hj
        obtain ⟨c, hc1, hc2⟩ := h k (k + 2 + j) l l' h1 h2 (by omega) hj
        exact hc2 (h5 c hc1)
      | some x => cases x <;> exact ⟨_, rfl⟩

/-! ### C77: outputs at the zone centre -/

theorem kpoints_one : kpointsOf (1 : Matrix (Fin 3) (Fin 3) ℚ) = 1 := by
  rw [kpointsOf, Matrix.det_one]
  exact_mod_cast roundHalfEven_int 1

/-- **C77 (zone centre).**  From an output at the zone centre the reader returns the atoms, lattice,
volume and energy printed there, one q point with weight one at the origin, and its frequencies,
each one repeated for all its degenerate modes. -/
theorem C77_gamma {ls : List Str} {text : Str} (hf : IsText ls text)
    {atoms : List (ℤ × (Fin 3 → ℚ))} {M : Matrix (Fin 3) (Fin 3) ℚ} {e : ℚ}
    (h : GammaCell ls atoms M e) (he : e ≠ 0) (hM : M ≠ 0) {k : ℕ} (hk : First frequencyTitle ls k)
    {modes : List (ℤ × ℤ × ℚ)} (hm : ModesAt ls (k + 2) modes)
    (hn : (expand modes).length = 3 * atoms.length) :
    ∃ r : PhononReader, (∀ fuel, ls.length + 2 ≤ fuel → loadPhonon fuel text = some (.ok r)) ∧
      r.completed = true ∧ r.error = none ∧ r.natom = atoms.length ∧
      r.cell.numbers = atoms.map (·.1) ∧ r.cell.positions = atoms.map (·.2) ∧ r.cell.lattice = M ∧
      r.volume = M.det ∧ r.energy = .ok e ∧ r.qpoints = 1 ∧ r.mesh.weights = [1] ∧
      r.mesh.coords = [![0, 0, 0]] ∧ r.mesh.shrink = 1 ∧ r.dim = 1 ∧ r.phonons = [expand modes] := by
  obtain ⟨r, -, h1, h2, h3, h4, h5, h6, h7, -, hl⟩ := gamma_phonon hf h
  have hcell : ∀ r' : PhononReader, r'.supercellOn = r.supercellOn → r'.unitcell = r.unitcell →
      r'.cell = ⟨atoms.map (·.1), atoms.map (·.2), M⟩ := by
    intro r' a b
    rw [PhononReader.cell, if_neg (by rw [a, h1]; simp), b, h2]
  have hen : ∀ r' : PhononReader, r'.supercellOn = r.supercellOn → r'.dim = r.dim →
      r'.rawEnergy = r.rawEnergy → r'.energy = .ok e := by
    intro r' a b c
    rw [PhononReader.energy, if_neg (by rw [a, h1]; simp), b, c, h5, h4, kpoints_one,
      if_neg (by norm_num)]
    simp
  have hc0 := hcell { r with phonons := [expand modes] } rfl rfl
  have hc1 := hcell { r with phonons := [expand modes], completed := true } rfl rfl
  refine ⟨{ r with phonons := [expand modes], completed := true }, fun fuel hfu => ?_, rfl, h7, ?_, ?_,
    ?_, ?_, ?_, hen _ rfl rfl rfl, h6, ?_, ?_, ?_, h5, rfl⟩
  · rw [hl, first_title hk, (bandLoop_modes hm).2.1 hn fuel hfu]
    simp only [Option.some.injEq]
    rw [PhononReader.check, hen { r with phonons := [expand modes] } rfl rfl rfl, ok_bind, if_neg he,
      hc0, if_neg hM, if_neg (by simp)]
  · rw [PhononReader.natom, hc1]
    simp [Cell.natom]
  · rw [hc1]
  · rw [hc1]
  · rw [hc1]
  · rw [PhononReader.volume, hc1]
  · rw [h3]
  · rw [h3]
  · rw [h3]

/-- **C77 (other files).**  A file that is not the output of a frequency calculation is reported as
such. -/
theorem C77_not_output {ls : List Str} {text : Str} (hf : IsText ls text) (h : ¬ IsFrequency ls)
    (fuel : ℕ) : ∃ r, loadPhonon fuel text = some (.ok r) ∧ r.completed = false ∧
      r.error = some .notOutput := by
  have hb : ls.any (hasSub frequencyCalculation) = false := by
    rw [Bool.eq_false_iff]
    exact fun hh => h (any_contains.1 hh)
  refine ⟨{ PhononReader.empty with error := some .notOutput }, ?_, rfl, rfl⟩
  rw [loadPhonon_text hf, loadPhononLines, hb]
  rfl

/-- **C77 (completed).**  Whatever the file, a reader that reports completion has a non-zero energy
and lattice and at least one band, and no error; a reader that returns otherwise has an error. -/
theorem C77_completed {text : Str} {fuel : ℕ} {r : PhononReader}
    (h : loadPhonon fuel text = some (.ok r)) :
    (r.completed = true ∧ r.error = none ∧ (∃ e, r.energy = .ok e ∧ e ≠ 0) ∧ r.cell.lattice ≠ 0 ∧
      r.phonons ≠ []) ∨ r.completed = false ∧ r.error ≠ none := by
  rw [loadPhonon, loadPhononLines] at h
  split at h
  · simp only [Option.some.injEq, Except.ok.injEq] at h
    subst h
    exact .inr ⟨rfl, by simp⟩
  · cases hc : loadCell (readlines text) with
    | error e => rw [hc] at h; simp at h
    | ok r0 =>
      have hr0 : r0.completed = false ∧ r0.error = none := by
        rw [loadCell] at hc
        simp only at hc
        cases he : setEnergy (readlines text) with
        | error e =>
          rw [he] at hc
          split at hc
          · cases h1 : loadSupercell (readlines text) _ <;> rw [h1] at hc <;> simp [Except.bind] at hc
          · cases h1 : loadUnitcell (readlines text) _ <;> rw [h1] at hc <;> simp [Except.bind] at hc
        | ok e =>
          rw [he] at hc
          split at hc
          · cases h1 : loadSupercell (readlines text) _ with
            | error => rw [h1] at hc; simp [Except.bind] at hc
            | ok r1 =>
              rw [h1] at hc
              simp only [ok_bind, Except.ok.injEq] at hc
              subst hc
              rw [loadSupercell] at h1
              cases a1 : setWfCell (readlines text) with
              | error => rw [a1] at h1; simp [Except.bind] at h1
              | ok =>
              cases a2 : setInitCell (readlines text) with
              | error => rw [a1, a2] at h1; simp [Except.bind] at h1
              | ok =>
              cases a3 : setExpansion (readlines text) with
              | error => rw [a1, a2, a3] at h1; simp [Except.bind] at h1
              | ok =>
              cases a4 : setQMesh (readlines text) with
              | error =>
                rw [a1, a2, a3, a4] at h1
                simp only [ok_bind] at h1
                split at h1 <;> simp [Except.bind] at h1
              | ok =>
                rw [a1, a2, a3, a4] at h1
                simp only [ok_bind] at h1
                split at h1
                · simp at h1
                · simp only [Except.ok.injEq] at h1
                  subst h1
                  exact ⟨rfl, rfl⟩
          · cases h1 : loadUnitcell (readlines text) _ with
            | error => rw [h1] at hc; simp [Except.bind] at hc
            | ok r1 =>
              rw [h1] at hc
              simp only [ok_bind, Except.ok.injEq] at hc
              subst hc
              rw [loadUnitcell] at h1
              cases a1 : setWfCell (readlines text) with
              | error => rw [a1] at h1; simp [Except.bind] at h1
              | ok =>
                rw [a1] at h1
                simp only [ok_bind, Except.ok.injEq] at h1
                subst h1
                exact ⟨rfl, rfl⟩
      rw [hc] at h
      simp only at h
      split at h
      · simp at h
      · simp at h
      · rename_i bands hb
        simp only [Option.some.injEq] at h
        rw [PhononReader.check] at h
        have hE : ∀ (x : Option PhononError) (b : Bool), ({ r0 with phonons := bands, error := x, completed := b } : PhononReader).energy =
            ({ r0 with phonons := bands } : PhononReader).energy := fun _ _ => rfl
        cases he : ({ r0 with phonons := bands } : PhononReader).energy with
        | error e => rw [he] at h; simp [Except.bind] at h
        | ok e =>
          rw [he, ok_bind] at h
          split at h
          · simp only [Except.ok.injEq] at h
            subst h
            exact .inr ⟨hr0.1, by simp⟩
          · rename_i he0
            split at h
            · simp only [Except.ok.injEq] at h
              subst h
              exact .inr ⟨hr0.1, by simp⟩
            · rename_i hl0
              split at h
              · simp only [Except.ok.injEq] at h
                subst h
                exact .inr ⟨hr0.1, by simp⟩
              · rename_i hp0
                simp only [Except.ok.injEq] at h
                subst h
                exact .inl ⟨rfl, hr0.2, ⟨e, he, he0⟩, hl0, hp0⟩

/-! ### C78: phonon dispersion -/

theorem loadCell_supercell {ls : List Str} (d : Dispersion ls) (hE : d.expansion.det ≠ 0) :
    loadCell ls = .ok { PhononReader.empty with
      supercellOn := true
      scelphonoOn := ls.any (hasSub scelphonoOption)
      supercell := ⟨d.superAtoms.map (·.1), d.superAtoms.map (·.2), d.superLattice⟩
      unitcell := ⟨d.atoms.map (·.1), d.atoms.map (·.2), d.superLattice * d.expansion⁻¹⟩
      dim := d.expansion
      mesh := ⟨d.points.map (·.2), d.points.map (·.1), d.shrink⟩
      qpoints := d.points.length
      rawEnergy := d.energy } := by
  have hs : ls.any (hasSub supercellOption) = true := any_contains.2 d.supercell
  simp only [loadCell, hs, if_true, loadSupercell, setWfCell_ok d.wave, setInitCell_ok d.initial,
    setExpansion_ok d.expanded, setQMesh_ok d.sampled, ok_bind, setEnergy_ok d.printed, hE, if_false,
    List.length_map]

/-- What is read from a dispersion output, given its tables. -/
theorem dispersion_read {ls : List Str} {text : Str} (hf : IsText ls text) (d : Dispersion ls)
    (hd : IsDispersion ls) {n : ℤ} (hE : d.expansion.det = n) (hn : 0 < n) (he : d.energy ≠ 0)
    (hl : d.superLattice ≠ 0) {tables : List (List (ℤ × ℤ × ℚ))} (ht : tables ≠ [])
    (hph : ∀ fuel, ls.length + 2 ≤ fuel →
      phononsFrom fuel ls (d.atoms.length * 3) d.points.length 0 ls [] =
        some (.ok (tables.map expand))) :
    ∃ r : PhononReader, (∀ fuel, ls.length + 2 ≤ fuel → loadPhonon fuel text = some (.ok r)) ∧
      r.completed = true ∧ r.error = none ∧ r.natom = d.atoms.length ∧
      r.cell.numbers = d.atoms.map (·.1) ∧ r.cell.positions = d.atoms.map (·.2) ∧
      r.cell.lattice = d.superLattice * d.expansion⁻¹ ∧ r.energy = .ok (d.energy / n) ∧
      r.qpoints = d.points.length ∧ r.mesh.weights = d.points.map (·.1) ∧
      r.mesh.coords = d.points.map (·.2) ∧ r.mesh.shrink = d.shrink ∧
      r.phonons = tables.map expand ∧ r.dim = d.expansion := by
  have hE0 : d.expansion.det ≠ 0 := by
    rw [hE]; exact_mod_cast hn.ne'
  have hkp : kpointsOf d.expansion = n := by rw [kpointsOf, hE, roundHalfEven_int]
  have hs : ls.any (hasSub scelphonoOption) = true := any_contains.2 hd
  have hc := loadCell_supercell d hE0
  set r : PhononReader := _ with hr
  change loadCell ls = .ok r at hc
  have hcell : ∀ r' : PhononReader, r'.scelphonoOn = r.scelphonoOn → r'.unitcell = r.unitcell →
      r'.cell = ⟨d.atoms.map (·.1), d.atoms.map (·.2), d.superLattice * d.expansion⁻¹⟩ := by
    intro r' a b
    rw [PhononReader.cell, if_neg (by rw [a, hr]; simp [hs]), b, hr]
  have hen : ∀ r' : PhononReader, r'.scelphonoOn = r.scelphonoOn → r'.dim = r.dim →
      r'.rawEnergy = r.rawEnergy → r'.energy = .ok (d.energy / n) := by
    intro r' a b c
    rw [PhononReader.energy, if_neg (by rw [a, hr]; simp [hs]), b, c]
    have e1 : r.dim = d.expansion := rfl
    have e2 : r.rawEnergy = d.energy := rfl
    rw [e1, e2, hkp, if_neg hn.ne']
  have hlat : d.superLattice * d.expansion⁻¹ ≠ 0 := by
    intro h0
    apply hl
    have := congrArg (· * d.expansion) h0
    simpa [Matrix.mul_assoc, Matrix.nonsing_inv_mul _ (isUnit_iff_ne_zero.2 hE0)] using this
  have hc0 := hcell { r with phonons := tables.map expand } rfl rfl
  have hc1 := hcell { r with phonons := tables.map expand, completed := true } rfl rfl
  refine ⟨{ r with phonons := tables.map expand, completed := true }, fun fuel hfu => ?_, rfl, rfl, ?_,
    ?_, ?_, ?_, hen _ rfl rfl rfl, rfl, rfl, rfl, rfl, rfl, rfl⟩
  · have e1 : r.nphonon = d.atoms.length * 3 := by
      rw [PhononReader.nphonon, hcell r rfl rfl]
      simp [Cell.natom]
    have e2 : r.qpoints = d.points.length := rfl
    rw [loadPhonon_cell hf d.frequency hc, e1, e2, hph fuel hfu]
    simp only [Option.some.injEq]
    have hdn : d.energy / n ≠ 0 := div_ne_zero he (by exact_mod_cast hn.ne')
    rw [PhononReader.check, hen { r with phonons := tables.map expand } rfl rfl rfl, ok_bind,
      if_neg hdn, hc0, if_neg hlat, if_neg (by simpa using ht)]
  · rw [PhononReader.natom, hc1]
    simp [Cell.natom]
  · rw [hc1]
  · rw [hc1]
  · rw [hc1]

theorem tables_read {ls : List Str} {n q : ℕ} {tables : List (List (ℤ × ℤ × ℚ))} {ks : List ℕ}
    (hT : Titles ls ks) (hle : tables.length ≤ ks.length) (hq : tables.length ≤ q)
    (hend : tables.length = q ∧ tables ≠ [] ∨ ks.length = tables.length)
    (ht : ∀ (j k : ℕ) t, ks[j]? = some k → tables[j]? = some t → ModesAt ls (k + 2) t)
    (hn : ∀ t ∈ tables, (expand t).length = n) (fuel : ℕ) (hf : ls.length + 2 ≤ fuel) :
    phononsFrom fuel ls n q 0 ls [] = some (.ok (tables.map expand)) := by
  have := phononsFrom_tables (data := ls) (n := n) (q := q) hf (i := 0) rfl hT.1
    (fun k => by rw [hT.2 k]; simp [frequencyTitle, frequencyHeader]) (tables := tables) (bands := []) hle (by simpa using hq)
    (by simpa using hend) fun j k t a b => ⟨ht j k t a b, hn t (List.mem_of_getElem? b)⟩
  simpa using this

/-- **C78 (dispersion, partial).**  From a dispersion output made with a supercell of `n` unit cells
the reader returns the atoms of the unit cell, energy and volume per unit cell (those of the
supercell divided by `n`), the sampled points with their weights, and one band per point in the
order of the output, each frequency repeated for all its modes, and the expansion matrix.  (Partial: the lattice vectors may be
wrong, and missing tables go unnoticed.) -/
theorem C78_dispersion_partial {ls : List Str} {text : Str} (hf : IsText ls text) (d : Dispersion ls)
    (hd : IsDispersion ls) {n : ℤ} (hE : d.expansion.det = n) (hn : 0 < n) (he : d.energy ≠ 0)
    (hl : d.superLattice ≠ 0) {tables : List (List (ℤ × ℤ × ℚ))} (hT : FirstTables ls tables)
    (hlen : tables.length = d.points.length) (hne : d.points ≠ [])
    (hm : ∀ t ∈ tables, (expand t).length = 3 * d.atoms.length) :
    ∃ r : PhononReader, (∀ fuel, ls.length + 2 ≤ fuel → loadPhonon fuel text = some (.ok r)) ∧
      r.completed = true ∧ r.error = none ∧ r.natom = d.atoms.length ∧
      r.cell.numbers = d.atoms.map (·.1) ∧ r.cell.positions = d.atoms.map (·.2) ∧
      (∃ x, r.energy = .ok x ∧ n * x = d.energy) ∧ n * r.volume = d.superLattice.det ∧
      r.qpoints = d.points.length ∧ r.mesh.weights = d.points.map (·.1) ∧
      r.mesh.coords = d.points.map (·.2) ∧ r.mesh.shrink = d.shrink ∧
      r.phonons = tables.map expand ∧ r.dim = d.expansion := by
  obtain ⟨ks, h1, h2, h3⟩ := hT
  have ht : tables ≠ [] := by
    rintro rfl
    exact hne (List.length_eq_zero_iff.1 (by simpa using hlen.symm))
  have hn0 : (n : ℚ) ≠ 0 := by exact_mod_cast hn.ne'
  obtain ⟨r, a1, a2, a3, a4, a5, a6, a7, a8, a9, a10, a11, a12, a13⟩ :=
    dispersion_read hf d hd hE hn he hl ht fun fuel hfu =>
      tables_read h1 h2 hlen.le (.inl ⟨hlen, ht⟩) h3 (fun t h => by rw [hm t h]; ring) fuel hfu
  refine ⟨r, a1, a2, a3, a4, a5, a6, ⟨_, a8, by field_simp⟩, ?_, a9, a10, a11, a12, a13⟩
  have hdet : (d.expansion⁻¹).det = (n : ℚ)⁻¹ := by
    rw [Matrix.det_nonsing_inv, hE, Ring.inverse_eq_inv']
  rw [PhononReader.volume, a7, Matrix.det_mul, hdet]
  field_simp

/-- **C78 (lattice).**  The supercell is the expansion matrix times the unit cell (rows are lattice
vectors); the lattice vectors returned are those of the unit cell exactly when the two matrices
commute, for example for a diagonal expansion with equal factors. -/
theorem C78_lattice_partial {ls : List Str} {text : Str} (hf : IsText ls text) (d : Dispersion ls)
    (hd : IsDispersion ls) {n : ℤ} (hE : d.expansion.det = n) (hn : 0 < n) (he : d.energy ≠ 0)
    {L : Matrix (Fin 3) (Fin 3) ℚ} (hL : d.superLattice = d.expansion * L) (hL0 : L ≠ 0)
    {tables : List (List (ℤ × ℤ × ℚ))} (hT : FirstTables ls tables)
    (hlen : tables.length = d.points.length) (hne : d.points ≠ [])
    (hm : ∀ t ∈ tables, (expand t).length = 3 * d.atoms.length) :
    ∃ r : PhononReader, (∀ fuel, ls.length + 2 ≤ fuel → loadPhonon fuel text = some (.ok r)) ∧
      (r.cell.lattice = L ↔ d.expansion * L = L * d.expansion) := by
  obtain ⟨ks, h1, h2, h3⟩ := hT
  have ht : tables ≠ [] := by
    rintro rfl
    exact hne (List.length_eq_zero_iff.1 (by simpa using hlen.symm))
  have hE0 : d.expansion.det ≠ 0 := by
    rw [hE]; exact_mod_cast hn.ne'
  have hu := isUnit_iff_ne_zero.2 hE0
  have hl : d.superLattice ≠ 0 := by
    intro h0
    apply hL0
    have := congrArg (d.expansion⁻¹ * ·) (hL.symm.trans h0)
    simpa [← Matrix.mul_assoc, Matrix.nonsing_inv_mul _ hu] using this
  obtain ⟨r, a1, a2, a3, a4, a5, a6, a7, -⟩ :=
    dispersion_read hf d hd hE hn he hl ht fun fuel hfu =>
      tables_read h1 h2 hlen.le (.inl ⟨hlen, ht⟩) h3 (fun t h => by rw [hm t h]; ring) fuel hfu
  refine ⟨r, a1, ?_⟩
  rw [a7, hL]
  constructor
  · intro h
    have := congrArg (· * d.expansion) h
    simpa [Matrix.mul_assoc, Matrix.nonsing_inv_mul _ hu] using this
  · intro h
    rw [h, Matrix.mul_assoc, Matrix.mul_nonsing_inv _ hu, Matrix.mul_one]

/-- **C78 violated (missing tables).**  An output that ends before all points have their table is
reported as complete, with fewer bands than weights. -/
theorem C78_missing_violated {ls : List Str} {text : Str} (hf : IsText ls text) (d : Dispersion ls)
    (hd : IsDispersion ls) {n : ℤ} (hE : d.expansion.det = n) (hn : 0 < n) (he : d.energy ≠ 0)
    (hl : d.superLattice ≠ 0) {tables : List (List (ℤ × ℤ × ℚ))} (hT : AllTables ls tables)
    (hne : tables ≠ []) (hlen : tables.length < d.points.length)
    (hm : ∀ t ∈ tables, (expand t).length = 3 * d.atoms.length) :
    ∃ r : PhononReader, (∀ fuel, ls.length + 2 ≤ fuel → loadPhonon fuel text = some (.ok r)) ∧
      r.completed = true ∧ r.error = none ∧ r.phonons.length < r.mesh.weights.length := by
  obtain ⟨ks, h1, h2, h3⟩ := hT
  obtain ⟨r, a1, a2, a3, a4, a5, a6, a7, a8, a9, a10, a11, a12, a13, -⟩ :=
    dispersion_read hf d hd hE hn he hl hne fun fuel hfu =>
      tables_read h1 h2.le hlen.le (.inr h2.symm) h3 (fun t h => by rw [hm t h]; ring) fuel hfu
  exact ⟨r, a1, a2, a3, by rw [a10, a13]; simpa using hlen⟩

/-! ### C79: supercells without dispersion -/

/-- **C79 violated.**  The output of a zone-centre calculation on a supercell, which has no table of
k points, is not read: TypeError. -/
theorem C79_supercell_violated {ls : List Str} {text : Str} (hf : IsText ls text) (hq : IsFrequency ls)
    (hs : IsSupercell ls) {sat uat : List (ℤ × (Fin 3 → ℚ))} {M E : Matrix (Fin 3) (Fin 3) ℚ}
    (hw : WaveGeometry ls sat M) (hi : InitialAtoms ls uat) (hE : Expansion ls E) (hdet : E.det ≠ 0)
    (h1 : ¬ Contains c!"ACTIVATED INTERPOLATION OF THE HESSIAN UP TO" ls)
    (h2 : ¬ Contains c!"THAT PERMITS THE CALCULATION OF MODES AT" ls) (fuel : ℕ) :
    loadPhonon fuel text = some (.error .typeError) := by
  have hm : setQMesh ls = .error .typeError := by
    have e1 := startLine_none h1
    have e2 := startLine_none h2
    rw [setQMesh]
    simp only [hessInterpolation, e1, scelphonoQpoints, e2, Option.isSome_none, Bool.false_eq_true,
      if_false, notNone]
    rfl
  have hb : ls.any (hasSub supercellOption) = true := any_contains.2 hs
  have hc : loadCell ls = .error .typeError := by
    simp only [loadCell, hb, if_true, loadSupercell, setWfCell_ok hw, setInitCell_ok hi,
      setExpansion_ok hE, hm, ok_bind, hdet, if_false]
    rfl
  have hfq : ls.any (hasSub frequencyCalculation) = true := any_contains.2 hq
  rw [loadPhonon_text hf, loadPhononLines, hfq, hc]
  rfl

end Verif.Interfaces
