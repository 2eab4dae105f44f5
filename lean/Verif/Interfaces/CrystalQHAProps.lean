/-
Property theorems for CRYSTAL quasi-harmonic outputs: C60, C80, C81.
-/
import Verif.Interfaces.CrystalQHALemmas

noncomputable section

namespace Verif.Interfaces
open Verif.Py Verif.IO Verif.IO.Spec Spec

theorem freqIdx_ok {ls : List Str} {freqs : List (List ℚ)} {ks : List ℕ} (h2 : ks.Pairwise (· < ·))
    (h3 : ∀ k, k ∈ ks ↔ ∃ l, ls[k]? = some l ∧ c!"FREQUENCY #" <:+: l ∧ FirstWord l c!"FREQUENCY") :
    freqIdx ls = ks.map (· + 3) := by
  rw [freqIdx, filter_range_eq h2 fun k => ?_]
  rw [h3 k]
  constructor
  · rintro ⟨l, a, b, c⟩
    refine ⟨(List.getElem?_eq_some_iff.1 a).1, ?_⟩
    rw [a]
    simp only [Option.map_some, Option.getD_some, Bool.and_eq_true, beq_iff_eq]
    exact ⟨hasSub_iff.2 b, words_first (by unfold IsToken; decide) c⟩
  · rintro ⟨a, b⟩
    rw [List.getElem?_eq_getElem a] at b ⊢
    simp only [Option.map_some, Option.getD_some, Bool.and_eq_true, beq_iff_eq] at b
    exact ⟨_, rfl, hasSub_iff.1 b.1, first_words b.2⟩

theorem phonons_read {ls : List Str} {freqs : List (List ℚ)} (h : FrequenciesPrinted ls freqs)
    {points : ℕ} (hp : ∀ row ∈ freqs, row.length = points) {k : ℕ} (hk : k ≤ freqs.length) :
    each (freqRow ls points (freqIdx ls)) (List.range k) = .ok (freqs.take k) := by
  obtain ⟨ks, h1, h2, h3, h4⟩ := h
  have hl : (freqs.take k).length = k := by simp [hk]
  have := forall₂_range (P := fun i row => freqRow ls points (freqIdx ls) i = .ok row) (freqs.take k)
    fun i row hr => ?_
  · rw [hl] at this
    exact each_ok this
  · rw [freqIdx_ok (freqs := freqs) h2 h3]
    have hr' : freqs[i]? = some row := by
      rw [List.getElem?_take] at hr
      split at hr
      · exact hr
      · simp at hr
    have hi : i < ks.length := by rw [h1]; exact (List.getElem?_eq_some_iff.1 hr').1
    have hrow : row.length = points := hp row (List.mem_of_getElem? hr')
    have := forall₂_range (P := fun j q => ((at_ (ks.map (· + 3)) i).bind fun k =>
      (at_ ls (k + j)).bind fun l => floatAt (words l) 1) = .ok q) row fun j q hq => by
        obtain ⟨l, t0, t1, rest, a, b, c⟩ := h4 i _ row (List.getElem?_eq_getElem hi) hr' j q hq
        rw [at_some (by rw [List.getElem?_map, List.getElem?_eq_getElem hi]; rfl), ok_bind, at_some a,
          ok_bind, words_of b]
        exact floatAt_numeral rfl c
    rw [hrow] at this
    exact each_ok this

/-- What a complete output leaves in the dictionary, once its cells are ordered. -/
theorem qha_read {ls : List Str} {text : Str} (hf : IsText ls text) (o : QhaOutput ls) (d : QhaData)
    {E : Matrix (Fin 3) (Fin 3) ℚ}
    (hE : (IsSupercell ls ∧ Expansion ls E) ∨ (¬ IsSupercell ls ∧ d.dim = E))
    {n : ℕ} (hdet : E.det = n) (hn : 0 < n) {ord : List Cell}
    (hord : orderedCells (o.cells.map cellOf) (o.table.map (·.1)) = .ok ord) {m : ℕ}
    (hm : ∃ c, ord[0]? = some c ∧ c.natom / n = m) (hq : n * (3 * m) ≤ o.freqs.length) :
    qhaLoad text d = (⟨o.table.length, ord, E, o.table.map (·.2), n,
      overlay (List.replicate n 0) d.qcoords, overlay (List.replicate n 1) d.weights,
      (List.range n).map fun q => (o.freqs.drop (q * (3 * m))).take (3 * m)⟩, .ok none) := by
  obtain ⟨v1, v2, v3⟩ := volumes_read o.volumes o.many.2
  have hk : kpointsOf E = n := by
    rw [kpointsOf, hdet]
    exact_mod_cast roundHalfEven_int (n : ℤ)
  have hdim : (if ls.any (hasSub supercellOption) then setExpansion ls else .ok d.dim) = .ok E := by
    rcases hE with ⟨a, b⟩ | ⟨a, b⟩
    · rw [if_pos (any_contains (p := supercellOption) |>.2 a), setExpansion_ok b]
    · rw [if_neg (fun h => a (any_contains (p := supercellOption) |>.1 h)), b]
  obtain ⟨c0, hc0, hm⟩ := hm
  have hh : ls.any (hasSub qhaHeader) = true := any_contains.2 o.header
  have hr : ls.any (hasSub qhaRestart) = false := by
    rw [Bool.eq_false_iff]; exact fun h => o.fresh (any_contains.1 h)
  have hcells : ((tableColumn ls o.table.length 0).bind fun vols =>
      (unitCellsFrom ls 0 ls).bind fun cells => orderedCells cells vols) = .ok ord := by
    rw [v2, ok_bind, cells_read o.geometries, ok_bind, hord]
  have hph : ∀ d' : QhaData, d'.dim = E → d'.cells = ord → d'.points = o.table.length →
      d'.qpoints = n → qhaPhonons ls d' =
        .ok ((List.range n).map fun q => (o.freqs.drop (q * (3 * m))).take (3 * m)) := by
    intro d' e1 e2 e3 e4
    have hna : d'.natom = .ok (m : ℤ) := by
      rw [QhaData.natom, e2, at_some hc0, ok_bind, QhaData.kpoints, e1, hk, if_neg (by omega), ← hm,
        Int.tdiv_eq_ediv_of_nonneg (by omega)]
      rfl
    have hsz : ((m : ℤ) * n * 3) = ((n * (3 * m) : ℕ) : ℤ) := by push_cast; ring
    rw [qhaPhonons, hna, ok_bind, e4, hsz, size, if_neg (by omega), ok_bind, Int.toNat_natCast, e3,
      phonons_read o.frequencies o.full hq, ok_bind, if_neg (by omega), bandsOf, Int.toNat_natCast,
      show ((m : ℤ) * 3).toNat = 3 * m by omega]
    congr 1
    refine List.map_congr_left fun q hq' => ?_
    have hq'' : q < n := by simpa using hq'
    rw [List.drop_take, List.take_take]
    congr 1
    have : (q + 1) * (3 * m) ≤ n * (3 * m) := Nat.mul_le_mul_right _ hq''
    rw [add_mul, one_mul] at this
    omega
  rw [qhaLoad_text hf]
  simp only [qhaLoadLines, hh, v1, hr, qhaCollect, hdim, hcells, v3, QhaData.kpoints, hk,
    Int.toNat_natCast, Bool.not_true, Bool.false_eq_true, if_false]
  rw [if_neg (by have := o.many; omega), if_neg (by have := o.many; omega), hph _ rfl rfl rfl rfl]

/-- **C60 (cells).**  When every optimised cell agrees with one volume of the table and no other, the
reader completes, and the cells, volumes, energies and frequencies it returns are in the order of the
table: the cell printed `i`-th is returned at the position of its volume.  Energies and volumes are
those of one unit cell, and the frequencies are split over the points in the order of the output; the points have weight one
and no coordinates.
Missing: cells whose volumes are close to each other (`C60_violated`). -/
theorem C60_cells_partial {ls : List Str} {text : Str} (hf : IsText ls text) (o : QhaOutput ls)
    {p : ℕ → ℕ} (hp : Recognised o p) (d : QhaData) {E : Matrix (Fin 3) (Fin 3) ℚ}
    (hE : (IsSupercell ls ∧ Expansion ls E) ∨ (¬ IsSupercell ls ∧ d.dim = E))
    {n m : ℕ} (hdet : E.det = n) (hn : 0 < n) (hm : ∀ c ∈ o.cells, c.1.length = n * m)
    (hq : o.freqs.length = n * (3 * m)) :
    ∃ d' : QhaData, qhaLoad text d = (d', .ok none) ∧ d'.points = o.table.length ∧
      d'.cells.length = o.cells.length ∧
      (∀ i c, o.cells[i]? = some c → ∃ r, d'.cells[p i]? = some r ∧ r.numbers = c.1.map (·.1) ∧
        r.positions = c.1.map (·.2) ∧ r.lattice = c.2) ∧
      (∃ vols, d'.volumes = .ok vols ∧ vols.length = o.table.length ∧
        ∀ i c, o.cells[i]? = some c → vols[p i]? = some (c.2.det / (n : ℚ))) ∧
      d'.energies = o.table.map (fun v => v.2 / (n : ℚ)) ∧ d'.natom = .ok (m : ℤ) ∧ d'.qpoints = n ∧
      d'.phonons.length = n ∧
      (∀ q < n, ∃ bands, d'.phonons[q]? = some bands ∧ bands.length = 3 * m ∧
        ∀ b < 3 * m, bands[b]? = o.freqs[q * (3 * m) + b]?) ∧
      (∀ q < n, d'.weights[q]? = some 1 ∧ d'.qcoords[q]? = some 0) ∧ d'.dim = E := by
  have hl : (o.cells.map cellOf).length = o.cells.length := List.length_map _
  obtain ⟨ord, h1, h2, h3⟩ := orderedCells_ok (cells := o.cells.map cellOf)
    (vols := o.table.map (·.1)) (p := p) (by simp [o.same])
    (fun i hi => by rw [hl] at hi ⊢; exact hp.range i hi)
    (fun i hi j hj => hp.injective i (by rwa [hl] at hi) j (by rwa [hl] at hj))
    (fun i j c v hc hv => by
      rw [List.getElem?_map, Option.map_eq_some_iff] at hc hv
      obtain ⟨c, hc, rfl⟩ := hc
      obtain ⟨v, hv, rfl⟩ := hv
      rw [isClose_iff]
      exact hp.close i j c v hc hv)
  rw [hl] at h2
  have hcell : ∀ i c, o.cells[i]? = some c → ord[p i]? = some (cellOf c) := by
    intro i c hc
    rw [h3 i (by rw [hl]; exact (List.getElem?_eq_some_iff.1 hc).1), List.getElem?_map, hc]
    rfl
  obtain ⟨inv, hinv⟩ := exists_inverse hp.range hp.injective
  have hall : ∀ k, k < o.cells.length → ∃ c ∈ o.cells, ord[k]? = some (cellOf c) := by
    intro k hk
    obtain ⟨a, b⟩ := hinv k hk
    refine ⟨_, List.getElem_mem a, ?_⟩
    have := hcell _ _ (List.getElem?_eq_getElem a)
    rwa [b] at this
  have hlen := o.same
  have hmany := o.many
  have hnat : ∃ c, ord[0]? = some c ∧ c.natom / n = m := by
    obtain ⟨c, hc, hc0⟩ := hall 0 (by omega)
    refine ⟨_, hc0, ?_⟩
    rw [Cell.natom, cellOf, List.length_map, hm c hc, Nat.mul_div_cancel_left _ hn]
  have hk : kpointsOf E = n := by
    rw [kpointsOf, hdet]
    exact_mod_cast roundHalfEven_int (n : ℤ)
  refine ⟨_, qha_read hf o d hE hdet hn h1 hnat hq.ge, rfl, h2, fun i c hc => ?_, ?_, ?_, ?_, rfl,
    by simp, fun q hq' => ?_, fun q hq' => ?_, rfl⟩
  · exact ⟨_, hcell i c hc, rfl, rfl, rfl⟩
  · refine ⟨ord.map fun c => c.lattice.det / n, ?_, by simp [h2, hlen], fun i c hc => ?_⟩
    · simp only [QhaData.volumes, QhaData.kpoints, hk, Int.cast_natCast]
      have := forall₂_range (P := fun i v => ((at_ ord i).bind fun c => .ok (c.lattice.det / (n : ℚ))) =
        .ok v) (ord.map fun c => c.lattice.det / n) fun i v hv => by
          rw [List.getElem?_map, Option.map_eq_some_iff] at hv
          obtain ⟨c, hc, rfl⟩ := hv
          rw [at_some hc, ok_bind]
      rw [List.length_map, h2, hlen] at this
      exact each_ok this
    · rw [List.getElem?_map, hcell i c hc]
      rfl
  · simp only [QhaData.energies, QhaData.kpoints, hk, Int.cast_natCast, List.map_map]
    rfl
  · obtain ⟨c, hc, hc'⟩ := hnat
    simp only [QhaData.natom, QhaData.kpoints, hk]
    rw [at_some hc, ok_bind, if_neg (by omega), ← hc', Int.tdiv_eq_ediv_of_nonneg (by omega)]
    rfl
  · refine ⟨(o.freqs.drop (q * (3 * m))).take (3 * m), ?_, ?_, fun b hb => ?_⟩
    · simp [List.getElem?_range hq']
    · have : (q + 1) * (3 * m) ≤ n * (3 * m) := Nat.mul_le_mul_right _ hq'
      rw [add_mul, one_mul] at this
      simp
      omega
    · rw [List.getElem?_take_of_lt hb, List.getElem?_drop]
  · simp only [overlay]
    rw [List.getElem?_append_left (by simpa using hq'), List.getElem?_replicate_of_lt hq',
      List.getElem?_append_left (by simpa using hq'), List.getElem?_replicate_of_lt hq']
    exact ⟨rfl, rfl⟩

/-! ### C80: the dictionary shared by all readers -/

theorem qhaPhonons_congr (data : List Str) {d d' : QhaData} (h1 : d.points = d'.points)
    (h2 : d.cells = d'.cells) (h3 : d.dim = d'.dim) (h4 : d.qpoints = d'.qpoints) :
    qhaPhonons data d = qhaPhonons data d' := by
  rcases d with ⟨⟩
  rcases d' with ⟨⟩
  dsimp only at h1 h2 h3 h4
  subst h1 h2 h3 h4
  rfl

/-- **C80 (partial).**  Two readings of the same output give the same outcome and, when they complete,
the same cells, volumes, energies, points and frequencies, if the output is that of a supercell, or if
the expansion matrix left by earlier readings is the same.  Missing: outputs without supercell after
other outputs (`C80_violated`); entries of weights and coordinates beyond the number of points. -/
theorem C80_same_partial {ls : List Str} {text : Str} (hf : IsText ls text) (d d' : QhaData)
    (h : IsSupercell ls ∨ d.dim = d'.dim) :
    (qhaLoad text d).2 = (qhaLoad text d').2 ∧
    ((qhaLoad text d).2 = .ok none →
      (qhaLoad text d).1.volumes = (qhaLoad text d').1.volumes ∧
      (qhaLoad text d).1.cells = (qhaLoad text d').1.cells ∧
      (qhaLoad text d).1.energies = (qhaLoad text d').1.energies ∧
      (qhaLoad text d).1.natom = (qhaLoad text d').1.natom ∧
      (qhaLoad text d).1.phonons = (qhaLoad text d').1.phonons ∧
      (qhaLoad text d).1.qpoints = (qhaLoad text d').1.qpoints ∧
      ∀ q : ℕ, (q : ℤ) < (qhaLoad text d).1.qpoints →
        (qhaLoad text d).1.weights[q]? = (qhaLoad text d').1.weights[q]? ∧
        (qhaLoad text d).1.qcoords[q]? = (qhaLoad text d').1.qcoords[q]?) := by
  have hdim : (if ls.any (hasSub supercellOption) then setExpansion ls else .ok d.dim) =
      (if ls.any (hasSub supercellOption) then setExpansion ls else .ok d'.dim) := by
    rcases h with h | h
    · rw [if_pos (any_contains (p := supercellOption) |>.2 h),
        if_pos (any_contains (p := supercellOption) |>.2 h)]
    · rw [h]
  rw [qhaLoad_text hf, qhaLoad_text hf, qhaLoadLines, qhaLoadLines]
  by_cases h1 : (!ls.any (hasSub qhaHeader)) = true
  · rw [if_pos h1, if_pos h1]
    exact ⟨rfl, fun h => by simp at h⟩
  rw [if_neg h1, if_neg h1]
  cases countPoints 100 (ls.drop (tableStart ls)) with
  | error e => exact ⟨rfl, fun h => by simp at h⟩
  | ok points =>
    dsimp only
    by_cases h2 : points < 1
    · rw [if_pos h2, if_pos h2]; exact ⟨rfl, fun h => by simp at h⟩
    rw [if_neg h2, if_neg h2]
    by_cases h3 : points < 4
    · rw [if_pos h3, if_pos h3]; exact ⟨rfl, fun h => by simp at h⟩
    rw [if_neg h3, if_neg h3]
    by_cases h4 : ls.any (hasSub qhaRestart) = true
    · rw [if_pos h4, if_pos h4]; exact ⟨rfl, fun h => by simp at h⟩
    rw [if_neg h4, if_neg h4]
    simp only [qhaCollect, hdim]
    cases (if ls.any (hasSub supercellOption) then setExpansion ls else .ok d'.dim) with
    | error e => exact ⟨rfl, fun h => by simp at h⟩
    | ok E =>
      dsimp only
      cases (tableColumn ls points 0).bind fun vols =>
          (unitCellsFrom ls 0 ls).bind fun cells => orderedCells cells vols with
      | error e => exact ⟨rfl, fun h => by simp at h⟩
      | ok cells =>
        dsimp only
        cases tableColumn ls points 1 with
        | error e => exact ⟨rfl, fun h => by simp at h⟩
        | ok energy =>
          dsimp only
          simp only [QhaData.kpoints]
          rw [qhaPhonons_congr ls (d := ⟨points, cells, E, energy, kpointsOf E, overlay (List.replicate
              (kpointsOf E).toNat 0) d.qcoords, overlay (List.replicate (kpointsOf E).toNat 1) d.weights,
              d.phonons⟩)
            (d' := ⟨points, cells, E, energy, kpointsOf E, overlay (List.replicate (kpointsOf E).toNat 0) d'.qcoords,
              overlay (List.replicate (kpointsOf E).toNat 1) d'.weights, d'.phonons⟩) rfl rfl rfl rfl]
          generalize qhaPhonons ls _ = w
          cases w with
          | error e => exact ⟨rfl, fun h => by simp at h⟩
          | ok bands =>
            refine ⟨rfl, fun _ => ⟨rfl, rfl, rfl, rfl, rfl, rfl, fun q hq => ?_⟩⟩
            dsimp only at hq
            simp only [overlay]
            rw [List.getElem?_append_left (by simp; omega), List.getElem?_append_left (by simp; omega),
              List.getElem?_append_left (by simp; omega), List.getElem?_append_left (by simp; omega)]
            exact ⟨rfl, rfl⟩

/-- **C80 (violation).**  After the output of a supercell of `n` cells, a reader of the output of a
unit cell completes and returns volumes, energies and numbers of atoms divided by `n`, and splits the
frequencies over `n` points. -/
theorem C80_violated {ls₁ ls₂ : List Str} {text₁ text₂ : Str} (hf₁ : IsText ls₁ text₁)
    (hf₂ : IsText ls₂ text₂) (o₁ : QhaOutput ls₁) {p₁ : ℕ → ℕ} (hp₁ : Recognised o₁ p₁)
    (hs₁ : IsSupercell ls₁) {E : Matrix (Fin 3) (Fin 3) ℚ} (hE : Expansion ls₁ E) {n m₁ : ℕ}
    (hdet : E.det = n) (hn : 0 < n) (hm₁ : ∀ c ∈ o₁.cells, c.1.length = n * m₁)
    (hq₁ : o₁.freqs.length = n * (3 * m₁))
    (o₂ : QhaOutput ls₂) {p₂ : ℕ → ℕ} (hp₂ : Recognised o₂ p₂) (hs₂ : ¬ IsSupercell ls₂) {m₂ : ℕ}
    (hm₂ : ∀ c ∈ o₂.cells, c.1.length = n * m₂) (hq₂ : o₂.freqs.length = 3 * (n * m₂)) (d : QhaData) :
    ∃ d₁ d₂, qhaLoad text₁ d = (d₁, .ok none) ∧ qhaLoad text₂ d₁ = (d₂, .ok none) ∧
      d₂.energies = o₂.table.map (fun v => v.2 / (n : ℚ)) ∧ d₂.natom = .ok (m₂ : ℤ) ∧ d₂.qpoints = n ∧
      d₂.phonons.length = n := by
  have hl : (o₁.cells.map cellOf).length = o₁.cells.length := List.length_map _
  obtain ⟨ord, h1, h2, h3⟩ := orderedCells_ok (cells := o₁.cells.map cellOf)
    (vols := o₁.table.map (·.1)) (p := p₁) (by simp [o₁.same])
    (fun i hi => by rw [hl] at hi ⊢; exact hp₁.range i hi)
    (fun i hi j hj => hp₁.injective i (by rwa [hl] at hi) j (by rwa [hl] at hj))
    (fun i j c v hc hv => by
      rw [List.getElem?_map, Option.map_eq_some_iff] at hc hv
      obtain ⟨c, hc, rfl⟩ := hc
      obtain ⟨v, hv, rfl⟩ := hv
      rw [isClose_iff]
      exact hp₁.close i j c v hc hv)
  have hnat : ∃ c, ord[0]? = some c ∧ c.natom / n = m₁ := by
    have := o₁.same
    have := o₁.many
    obtain ⟨inv, hinv⟩ := exists_inverse hp₁.range hp₁.injective
    obtain ⟨a, b⟩ := hinv 0 (by omega)
    have hc := h3 (inv 0) (by rw [hl]; exact a)
    rw [b, List.getElem?_map, List.getElem?_eq_getElem a] at hc
    refine ⟨_, hc, ?_⟩
    rw [Cell.natom, cellOf, List.length_map, hm₁ _ (List.getElem_mem a), Nat.mul_div_cancel_left _ hn]
  obtain ⟨d₂, e1, -, -, -, -, e2, e3, e4, e5, -⟩ := C60_cells_partial hf₂ o₂ hp₂
    (⟨o₁.table.length, ord, E, o₁.table.map (·.2), n,
      overlay (List.replicate n 0) d.qcoords, overlay (List.replicate n 1) d.weights,
      (List.range n).map fun q => (o₁.freqs.drop (q * (3 * m₁))).take (3 * m₁)⟩ : QhaData)
    (E := E) (.inr ⟨hs₂, rfl⟩) hdet hn hm₂ (by rw [hq₂]; ring)
  exact ⟨_, d₂, qha_read hf₁ o₁ d (.inl ⟨hs₁, hE⟩) hdet hn h1 hnat hq₁.ge, e1, e2, e3, e4, e5⟩

/-! ### C81: outputs that are refused -/

/-- **C81 (other files).**  A file without the header of a quasi-harmonic calculation is reported and
leaves what was read before unchanged. -/
theorem C81_not_output {ls : List Str} {text : Str} (hf : IsText ls text)
    (h : ¬ Contains c!"QUASI-HARMONIC APPROXIMATION" ls) (d : QhaData) :
    qhaLoad text d = (d, .ok (some .notOutput)) := by
  have : ls.any (hasSub qhaHeader) = false := by
    rw [Bool.eq_false_iff]; exact fun e => h (any_contains.1 e)
  rw [qhaLoad_text hf, qhaLoadLines, this]
  rfl

/-- **C81 (few volumes).**  Fewer than four volumes are reported. -/
theorem C81_few {ls : List Str} {text : Str} (hf : IsText ls text)
    (h : Contains c!"QUASI-HARMONIC APPROXIMATION" ls) {table : List (ℚ × ℚ)}
    (ht : VolumesPrinted ls table) (hl : table.length < 4) (d : QhaData) :
    (qhaLoad text d).2 = .ok (some (if table = [] then .noVolumes else .fewVolumes)) := by
  rw [qhaLoad_text hf, qhaLoadLines, show ls.any (hasSub qhaHeader) = true from any_contains.2 h,
    (volumes_read ht (by omega)).1]
  cases table with
  | nil => rfl
  | cons a t =>
    dsimp only
    rw [if_neg (by simp), if_neg (by simp), if_pos hl, if_neg (by simp)]

/-- **C81 (restarted).**  A restarted calculation is reported. -/
theorem C81_restarted {ls : List Str} {text : Str} (hf : IsText ls text)
    (h : Contains c!"QUASI-HARMONIC APPROXIMATION" ls) {table : List (ℚ × ℚ)}
    (ht : VolumesPrinted ls table) (hl : 4 ≤ table.length) (hl' : table.length < 100)
    (hr : Contains c!"READING DATA FROM RESTART UNIT" ls) (d : QhaData) :
    (qhaLoad text d).2 = .ok (some .restarted) := by
  rw [qhaLoad_text hf, qhaLoadLines, show ls.any (hasSub qhaHeader) = true from any_contains.2 h,
    (volumes_read ht hl').1]
  dsimp only
  rw [if_neg (by simp), if_neg (by omega), if_neg (by omega), if_pos (any_contains (p := qhaRestart) |>.2 hr)]

/-- **C81 (violation).**  An output without the table of volumes ends in an IndexError instead of a
report. -/
theorem C81_no_table_violated {ls : List Str} {text : Str} (hf : IsText ls text)
    (h : Contains c!"QUASI-HARMONIC APPROXIMATION" ls)
    (ht : ¬ Contains c!"SORTING VOLUMES/ENERGIES" ls) (d : QhaData) :
    qhaLoad text d = (d, .error .indexError) := by
  have e : startOrEnd qhaEv ls = ls.length := by
    rw [startOrEnd, List.findIdx_eq_length]
    intro l hl
    rw [Bool.eq_false_iff]
    exact fun hs => ht ⟨l, hl, hasSub_iff.1 hs⟩
  rw [qhaLoad_text hf, qhaLoadLines, show ls.any (hasSub qhaHeader) = true from any_contains.2 h, tableStart, e,
    List.drop_eq_nil_iff.2 (by omega)]
  rfl

/-- **C81 (completed).**  A reading completes only for an output with the header and at least four
lines of two words in the table of volumes, and not for a restarted calculation. -/
theorem C81_completed {ls : List Str} {text : Str} (hf : IsText ls text) {d d' : QhaData}
    (h : qhaLoad text d = (d', .ok none)) :
    Contains c!"QUASI-HARMONIC APPROXIMATION" ls ∧ ¬ Contains c!"READING DATA FROM RESTART UNIT" ls ∧
    ∃ s, First c!"SORTING VOLUMES/ENERGIES" ls s ∧
      ∀ i < 4, ∃ l, ls[s + 4 + i]? = some l ∧ (words l).length = 2 := by
  rw [qhaLoad_text hf, qhaLoadLines] at h
  by_cases h1 : (!ls.any (hasSub qhaHeader)) = true
  · rw [if_pos h1] at h; simp at h
  rw [if_neg h1] at h
  cases hc : countPoints 100 (ls.drop (tableStart ls)) with
  | error e => rw [hc] at h; simp at h
  | ok points =>
    rw [hc] at h
    dsimp only at h
    by_cases h2 : points < 1
    · rw [if_pos h2] at h; simp at h
    rw [if_neg h2] at h
    by_cases h3 : points < 4
    · rw [if_pos h3] at h; simp at h
    rw [if_neg h3] at h
    by_cases h4 : ls.any (hasSub qhaRestart) = true
    · rw [if_pos h4] at h; simp at h
    have hrows : ∀ (n : ℕ) (rows : List Str) k, countPoints n rows = .ok k → ∀ i < k, ∃ l, rows[i]? = some l ∧
        (words l).length = 2 := by
      intro n
      induction n with
      | zero => intro rows k hk i hi; simp [countPoints] at hk; omega
      | succ n ih =>
        intro rows k hk i hi
        cases rows with
        | nil => simp [countPoints] at hk
        | cons l rows =>
          rw [countPoints] at hk
          split at hk
          · simp at hk; omega
          · rename_i h2
            cases hr : countPoints n rows with
            | error e => rw [hr] at hk; simp [Except.map] at hk
            | ok k' =>
              rw [hr] at hk
              simp [Except.map] at hk
              cases i with
              | zero => exact ⟨l, rfl, by simpa using h2⟩
              | succ i =>
                obtain ⟨l', a, b⟩ := ih rows k' hr i (by omega)
                exact ⟨l', by simpa using a, b⟩
    have hg : ∀ i < 4, ∃ l, ls[tableStart ls + i]? = some l ∧ (words l).length = 2 := by
      intro i hi
      obtain ⟨l, a, b⟩ := hrows _ _ _ hc i (by omega)
      exact ⟨l, by rwa [List.getElem?_drop] at a, b⟩
    refine ⟨any_contains (p := qhaHeader) |>.1 (by simpa using h1), fun hr => h4 (any_contains.2 hr), startOrEnd qhaEv ls, ?_, hg⟩
    have hlt : startOrEnd qhaEv ls < ls.length := by
      obtain ⟨l, a, -⟩ := hg 0 (by omega)
      have := (List.getElem?_eq_some_iff.1 a).1
      rw [tableStart] at this
      omega
    refine ⟨⟨_, List.getElem?_eq_getElem hlt, hasSub_iff.1 (List.findIdx_getElem (w := hlt))⟩,
      fun j hj l hl hs => ?_⟩
    obtain ⟨hj', rfl⟩ := List.getElem?_eq_some_iff.1 hl
    have := List.not_of_lt_findIdx hj
    rw [show hasSub qhaEv ls[j] = true from hasSub_iff.2 hs] at this
    simp at this

end Verif.Interfaces
