/-
Lemmas about the reader of CRYSTAL quasi-harmonic outputs.
-/
import Mathlib.Data.List.Sort
import Verif.Interfaces.CrystalLemmas
import Verif.Interfaces.CrystalQHA
import Verif.Interfaces.CrystalQHASpec

noncomputable section

namespace Verif.Interfaces
open Verif.Py Verif.IO Verif.IO.Spec Spec

/-! ### The ends of the lines do not matter -/

theorem startOrEnd_raw {data ls : List Str} {p : Str} (hp : '\n' ∉ p)
    (h : List.Forall₂ IsRaw data ls) : startOrEnd p data = startOrEnd p ls := by
  unfold startOrEnd
  induction h with
  | nil => rfl
  | cons hr _ ih => rw [List.findIdx_cons, List.findIdx_cons, hasSub_raw hp hr, ih]

theorem countPoints_raw {data ls : List Str} (h : List.Forall₂ IsRaw data ls) (n : ℕ) :
    countPoints n data = countPoints n ls := by
  induction h generalizing n with
  | nil => rfl
  | cons hr _ ih =>
    cases n with
    | zero => rfl
    | succ n => rw [countPoints, countPoints, words_raw hr, ih]

theorem tableColumn_raw {data ls : List Str} (h : List.Forall₂ IsRaw data ls) (n c : ℕ) :
    tableColumn data n c = tableColumn ls n c := by
  have hf : ∀ r l : Str, IsRaw r l → floatAt (words r) c = floatAt (words l) c :=
    fun r l hr => by rw [words_raw hr]
  rw [tableColumn, tableColumn, tableStart, startOrEnd_raw (by decide) h]
  exact each_congr _ fun i _ => at_raw h _ hf

theorem unitCellsFrom_raw {data ls : List Str} (h : List.Forall₂ IsRaw data ls) {rest rest' : List Str}
    (hr : List.Forall₂ IsRaw rest rest') (i : ℕ) :
    unitCellsFrom data i rest = unitCellsFrom ls i rest' := by
  induction hr generalizing i with
  | nil => rfl
  | cons hr _ ih =>
    rw [unitCellsFrom, unitCellsFrom, hasSub_raw (by decide) hr, geometryAt_raw h, ih]

theorem freqIdx_raw {data ls : List Str} (h : List.Forall₂ IsRaw data ls) : freqIdx data = freqIdx ls := by
  have hf : ∀ n : ℕ, data[n]?.map (fun l => hasSub qhaFreq l && ((words l)[0]? == some c!"FREQUENCY")) =
      ls[n]?.map (fun l => hasSub qhaFreq l && ((words l)[0]? == some c!"FREQUENCY")) := by
    intro n
    have := getElem?_raw h n
      (f := fun l => some (hasSub qhaFreq l && ((words l)[0]? == some c!"FREQUENCY")))
      fun r l hr => by rw [hasSub_raw (by decide) hr, words_raw hr]
    rw [Option.map_eq_bind, Option.map_eq_bind]
    exact this
  simp only [freqIdx, hf, h.length_eq]

theorem freqRow_raw {data ls : List Str} (h : List.Forall₂ IsRaw data ls) (n : ℕ) (idx : List ℕ) (i : ℕ) :
    freqRow data n idx i = freqRow ls n idx i := by
  have hf : ∀ r l : Str, IsRaw r l → floatAt (words r) 1 = floatAt (words l) 1 :=
    fun r l hr => by rw [words_raw hr]
  refine each_congr _ fun j _ => ?_
  simp only [at_raw h _ hf]

theorem qhaLoad_text {ls : List Str} {text : Str} (h : IsText ls text) (d : QhaData) :
    qhaLoad text d = qhaLoadLines ls d := by
  have hr := readlines_text h
  have h1 : ∀ d, qhaPhonons (readlines text) d = qhaPhonons ls d := fun d => by
    simp only [qhaPhonons, freqIdx_raw hr, funext (freqRow_raw hr d.points (freqIdx ls))]
  have h2 : tableStart (readlines text) = tableStart ls := by
    rw [tableStart, tableStart, startOrEnd_raw (by decide) hr]
  simp only [qhaLoad, qhaLoadLines, any_raw (p := qhaHeader) (by decide) hr, h2,
    countPoints_raw (forall₂_drop_raw hr _), any_raw (p := qhaRestart) (by decide) hr, qhaCollect,
    any_raw (p := supercellOption) (by decide) hr, setExpansion_raw hr, tableColumn_raw hr,
    unitCellsFrom_raw hr hr, h1]

/-! ### Lines -/

theorem words_first {l w : Str} (hw : IsToken w) (h : FirstWord l w) : (words l)[0]? = some w := by
  obtain ⟨g, rest, hg, rfl, hr⟩ := h
  rw [List.append_assoc, words_spaces fun c hc => isSpace_iff.2 (hg c hc)]
  cases rest with
  | nil => rw [List.append_nil, words_plain hw.2 hw.1]; rfl
  | cons c r => rw [words_append (isSpace_iff.2 (hr c rfl)), words_plain hw.2 hw.1]; rfl

theorem first_words {l w : Str} (h : (words l)[0]? = some w) : FirstWord l w := by
  set g := l.takeWhile isSpace with hg
  set r := l.dropWhile isSpace with hr
  have e : l = g ++ r := List.takeWhile_append_dropWhile.symm
  have hgs : ∀ c ∈ g, isSpace c = true := fun c hc => List.all_eq_true.1 List.all_takeWhile c hc
  have hw : words l = words r := by rw [e]; exact words_spaces hgs
  rw [hw] at h
  cases hr0 : r with
  | nil => rw [hr0, words_nil] at h; simp at h
  | cons x r' =>
    have hx : isSpace x = false := by
      have := List.head?_dropWhile_not isSpace l
      rw [← hr, hr0] at this
      simpa using this
    set s := r.takeWhile (fun c => !isSpace c) with hs
    set q := r.dropWhile (fun c => !isSpace c) with hq
    have e2 : r = s ++ q := List.takeWhile_append_dropWhile.symm
    have hst : IsToken s := by
      refine ⟨by rw [hs, hr0]; simp [hx], fun c hc => ?_⟩
      have := List.all_eq_true.1 List.all_takeWhile c hc
      simpa using this
    have hqs : ∀ c, q.head? = some c → c ∈ whitespace := by
      intro c hc
      have := List.head?_dropWhile_not (fun c => !isSpace c) r
      rw [← hq, hc] at this
      exact isSpace_iff.1 (by simpa using this)
    have hsw : FirstWord l s := ⟨g, q, fun c hc => isSpace_iff.1 (hgs c hc), by
      rw [List.append_assoc, ← e2]; exact e, hqs⟩
    have := words_first hst hsw
    rw [hw, h] at this
    rw [Option.some.inj this]
    exact hsw

theorem startOrEnd_first {p : Str} {ls : List Str} {i : ℕ} (h : First p ls i) : startOrEnd p ls = i := by
  have := startLine_first h
  rw [startLine, List.findIdx?_eq_some_iff_findIdx_eq] at this
  exact this.2

/-- The positions that satisfy a condition, in order. -/
theorem filter_range_eq {n : ℕ} {P : ℕ → Bool} {ks : List ℕ} (hs : ks.Pairwise (· < ·))
    (hk : ∀ k, k ∈ ks ↔ k < n ∧ P k = true) : (List.range n).filter P = ks := by
  refine List.Pairwise.eq_of_mem_iff (r := (· < ·)) ?_ hs fun k => ?_
  · exact List.Pairwise.filter _ List.pairwise_lt_range
  · rw [hk k]; simp

/-! ### The table -/

theorem volumeLine_words {l : Str} {p : ℚ × ℚ} (h : VolumeLine l p) :
    (words l).length = 2 ∧ floatAt (words l) 0 = .ok p.1 ∧ floatAt (words l) 1 = .ok p.2 := by
  obtain ⟨t, u, hw, h1, h2⟩ := h
  rw [words_of hw]
  exact ⟨rfl, floatAt_numeral rfl h1, floatAt_numeral rfl h2⟩

theorem countPoints_ok {ls : List Str} {table : List (ℚ × ℚ)} {k n : ℕ}
    (h : ∀ i p, table[i]? = some p → ∃ l, ls[k + i]? = some l ∧ VolumeLine l p)
    (hl : ∃ l ws, ls[k + table.length]? = some l ∧ Words ws l ∧ ws.length ≠ 2) (hn : table.length < n) :
    countPoints n (ls.drop k) = .ok table.length := by
  induction table generalizing k n with
  | nil =>
    obtain ⟨l, ws, h1, h2, h3⟩ := hl
    obtain ⟨n, rfl⟩ : ∃ m, n = m + 1 := ⟨n - 1, by simp at hn; omega⟩
    simp only [List.length_nil, add_zero] at h1
    obtain ⟨hk, rfl⟩ := List.getElem?_eq_some_iff.1 h1
    rw [List.drop_eq_getElem_cons hk, countPoints, words_of h2, if_pos h3]
    rfl
  | cons p table ih =>
    obtain ⟨n, rfl⟩ : ∃ m, n = m + 1 := ⟨n - 1, by simp at hn; omega⟩
    obtain ⟨l, h1, h2⟩ := h 0 p rfl
    rw [add_zero] at h1
    obtain ⟨hk, rfl⟩ := List.getElem?_eq_some_iff.1 h1
    have e1 : ∀ i p, table[i]? = some p → ∃ l, ls[k + 1 + i]? = some l ∧ VolumeLine l p := by
      intro i p hp
      obtain ⟨l, a, b⟩ := h (i + 1) p (by simpa using hp)
      exact ⟨l, by rw [← a]; congr 1; omega, b⟩
    have e2 : ∃ l ws, ls[k + 1 + table.length]? = some l ∧ Words ws l ∧ ws.length ≠ 2 := by
      obtain ⟨l, ws, a, b⟩ := hl
      exact ⟨l, ws, by rw [← a]; congr 1; simp; omega, b⟩
    rw [List.drop_eq_getElem_cons hk, countPoints, if_neg (by simp [(volumeLine_words h2).1]),
      ih e1 e2 (by simp at hn; omega)]
    rfl

theorem volumes_read {ls : List Str} {table : List (ℚ × ℚ)} (h : VolumesPrinted ls table)
    (hn : table.length < 100) :
    countPoints 100 (ls.drop (tableStart ls)) = .ok table.length ∧
    tableColumn ls table.length 0 = .ok (table.map (·.1)) ∧
    tableColumn ls table.length 1 = .ok (table.map (·.2)) := by
  obtain ⟨s, h1, h2, h3⟩ := h
  have e : tableStart ls = s + 4 := by rw [tableStart, qhaEv, startOrEnd_first h1]
  have key : ∀ i p, table[i]? = some p → ∃ l, at_ ls (tableStart ls + i) = .ok l ∧ VolumeLine l p := by
    intro i p hp
    obtain ⟨l, a, b⟩ := h2 i p hp
    exact ⟨l, by rw [e, at_some a], b⟩
  refine ⟨by rw [e]; exact countPoints_ok h2 h3 hn, ?_, ?_⟩
  · have := forall₂_range (P := fun i q => ((at_ ls (tableStart ls + i)).bind fun l =>
      floatAt (words l) 0) = .ok q) (table.map (·.1)) fun i q hq => by
        rw [List.getElem?_map, Option.map_eq_some_iff] at hq
        obtain ⟨p, hp, rfl⟩ := hq
        obtain ⟨l, a, b⟩ := key i p hp
        rw [a, ok_bind, (volumeLine_words b).2.1]
    rw [List.length_map] at this
    exact each_ok this
  · have := forall₂_range (P := fun i q => ((at_ ls (tableStart ls + i)).bind fun l =>
      floatAt (words l) 1) = .ok q) (table.map (·.2)) fun i q hq => by
        rw [List.getElem?_map, Option.map_eq_some_iff] at hq
        obtain ⟨p, hp, rfl⟩ := hq
        obtain ⟨l, a, b⟩ := key i p hp
        rw [a, ok_bind, (volumeLine_words b).2.2]
    rw [List.length_map] at this
    exact each_ok this

/-! ### The cells -/

/-- The cell with these atoms and this lattice. -/
def cellOf (c : List (ℤ × (Fin 3 → ℚ)) × Matrix (Fin 3) (Fin 3) ℚ) : Cell :=
  ⟨c.1.map (·.1), c.1.map (·.2), c.2⟩

theorem unitCellsFrom_ok {data : List Str} {rest : List Str} {i : ℕ} (hr : data.drop i = rest)
    {ks : List ℕ} (hs : ks.Pairwise (· < ·))
    (hk : ∀ k, k ∈ ks ↔ i ≤ k ∧ ∃ l, data[k]? = some l ∧ qhaOpt <:+: l)
    {cells : List (List (ℤ × (Fin 3 → ℚ)) × Matrix (Fin 3) (Fin 3) ℚ)} (hl : ks.length = cells.length)
    (hg : ∀ (j k : ℕ) c, ks[j]? = some k → cells[j]? = some c → GeometryAt data k c.1 c.2) :
    unitCellsFrom data i rest = .ok (cells.map cellOf) := by
  induction rest generalizing i ks cells with
  | nil =>
    have h1 : ks = [] := by
      rw [List.eq_nil_iff_forall_not_mem]
      intro k hk'
      obtain ⟨h1, l, h2, -⟩ := (hk k).1 hk'
      have := (List.getElem?_eq_some_iff.1 h2).1
      have := List.drop_eq_nil_iff.1 hr
      omega
    subst h1
    rw [List.length_nil] at hl
    rw [List.length_eq_zero_iff.1 hl.symm]
    rfl
  | cons l rest ih =>
    obtain ⟨h1, h2⟩ := drop_head hr
    rw [unitCellsFrom]
    by_cases hl' : qhaOpt <:+: l
    · rw [if_pos (hasSub_iff.2 hl')]
      have hi : i ∈ ks := (hk i).2 ⟨le_rfl, l, h1, hl'⟩
      obtain ⟨ks', rfl⟩ : ∃ ks', ks = i :: ks' := by
        cases ks with
        | nil => simp at hi
        | cons k ks' =>
          rcases List.mem_cons.1 hi with rfl | hi'
          · exact ⟨ks', rfl⟩
          · have := (List.pairwise_cons.1 hs).1 i hi'
            have := ((hk k).1 (by simp)).1
            omega
      cases cells with
      | nil => simp at hl
      | cons c cells =>
        rw [geometryAt_ok (hg 0 i c rfl rfl), ok_bind,
          ih h2 (List.pairwise_cons.1 hs).2 (fun k => ?_) (by simpa using hl)
            fun j k c a b => hg (j + 1) k c (by simpa using a) (by simpa using b)]
        · rfl
        · constructor
          · intro hk'
            exact ⟨(List.pairwise_cons.1 hs).1 k hk', ((hk k).1 (by simp [hk'])).2⟩
          · rintro ⟨a, b⟩
            rcases List.mem_cons.1 ((hk k).2 ⟨by omega, b⟩) with rfl | h
            · omega
            · exact h
    · have hl'' : ¬ hasSub qhaOpt l = true := fun h => hl' (hasSub_iff.1 h)
      rw [if_neg hl'']
      refine ih h2 hs (fun k => ?_) hl hg
      rw [hk k]
      constructor
      · rintro ⟨a, b⟩
        refine ⟨?_, b⟩
        rcases lt_or_eq_of_le a with h | rfl
        · exact h
        · obtain ⟨l', b1, b2⟩ := b
          rw [h1] at b1
          cases b1
          exact absurd b2 hl'
      · rintro ⟨a, b⟩
        exact ⟨by omega, b⟩

theorem cells_read {ls : List Str}
    {cells : List (List (ℤ × (Fin 3 → ℚ)) × Matrix (Fin 3) (Fin 3) ℚ)} (h : CellsPrinted ls cells) :
    unitCellsFrom ls 0 ls = .ok (cells.map cellOf) := by
  obtain ⟨ks, h1, h2, h3, h4⟩ := h
  exact unitCellsFrom_ok (i := 0) rfl h2 (fun k => by rw [h3 k]; simp [qhaOpt]) h1 h4

theorem isClose_iff {a b : ℚ} : isClose a b = true ↔ Close a b := by simp [isClose, Close]

theorem flatMap_singletons {α : Type} {f : α → List ℕ} {p : ℕ → ℕ} (cs : List α) (o : ℕ)
    (h : ∀ i c, cs[i]? = some c → f c = [p (o + i)]) :
    cs.flatMap f = (List.range' o cs.length).map p := by
  induction cs generalizing o with
  | nil => rfl
  | cons c cs ih =>
    rw [List.flatMap_cons, h 0 c rfl, ih (o + 1) fun i c hc => by
      rw [h (i + 1) c (by simpa using hc)]; congr 2; omega]
    rfl

theorem filter_single {n a : ℕ} (h : a < n) {P : ℕ → Bool} (hP : ∀ j < n, P j = true ↔ j = a) :
    (List.range n).filter P = [a] := by
  refine filter_range_eq (by simp) fun k => ?_
  constructor
  · intro hk
    simp at hk
    subst hk
    exact ⟨h, (hP k h).2 rfl⟩
  · rintro ⟨a1, a2⟩
    simp [(hP k a1).1 a2]

/-- The inverse of a permutation of `0, …, n - 1`. -/
theorem exists_inverse {n : ℕ} {p : ℕ → ℕ} (hr : ∀ i < n, p i < n)
    (hi : ∀ i < n, ∀ j < n, p i = p j → i = j) : ∃ q : ℕ → ℕ, ∀ k < n, q k < n ∧ p (q k) = k := by
  have hs : ∀ k < n, ∃ i, i < n ∧ p i = k := by
    intro k hk
    have := Finset.surj_on_of_inj_on_of_card_le (s := Finset.range n) (t := Finset.range n)
      (fun i _ => p i) (fun i hi => by simpa using hr i (by simpa using hi))
      (fun i j h1 h2 h => hi i (by simpa using h1) j (by simpa using h2) h) le_rfl k (by simpa using hk)
    obtain ⟨i, h1, h2⟩ := this
    exact ⟨i, by simpa using h1, h2.symm⟩
  classical
  refine ⟨fun k => if h : k < n then (hs k h).choose else 0, fun k hk => ?_⟩
  simp only [hk, dif_pos]
  exact (hs k hk).choose_spec

theorem orderedCells_ok {cells : List Cell} {vols : List ℚ} (hlen : cells.length = vols.length)
    {p : ℕ → ℕ} (hr : ∀ i < cells.length, p i < cells.length)
    (hi : ∀ i < cells.length, ∀ j < cells.length, p i = p j → i = j)
    (hc : ∀ (i j : ℕ) c v, cells[i]? = some c → vols[j]? = some v →
      (isClose c.lattice.det v = true ↔ j = p i)) :
    ∃ ord, orderedCells cells vols = .ok ord ∧ ord.length = cells.length ∧
      ∀ i < cells.length, ord[p i]? = cells[i]? := by
  obtain ⟨q, hq⟩ := exists_inverse hr hi
  have hidx : cellIndexes cells vols = (List.range cells.length).map p := by
    rw [cellIndexes, List.range_eq_range', ← List.range_eq_range']
    rw [flatMap_singletons (p := p) cells 0]
    · rw [List.range_eq_range']
    · intro i c hic
      have hil := (List.getElem?_eq_some_iff.1 hic).1
      rw [zero_add]
      refine filter_single (hr i hil) fun j hj => ?_
      have hjv : j < vols.length := by omega
      rw [List.getElem?_eq_getElem hjv]
      simp only [Option.map_some, Option.getD_some]
      exact hc i j c _ hic (List.getElem?_eq_getElem hjv)
  have hpq : ∀ i < cells.length, q (p i) = i := fun i hil =>
    hi _ (hq _ (hr i hil)).1 _ hil (hq _ (hr i hil)).2
  have hfind : ∀ k < cells.length, (cellIndexes cells vols).idxOf? k = some (q k) := by
    intro k hk
    rw [hidx, List.idxOf?_eq_some_iff]
    refine ⟨by simpa using (hq k hk).1, by simpa using (hq k hk).2, fun j hj => ?_⟩
    simp only [List.getElem_map, List.getElem_range, ne_eq]
    intro h
    have := (hq k hk).1
    have := hpq j (by omega)
    rw [h] at this
    omega
  refine ⟨(List.range cells.length).map fun k => (cells[q k]?).getD ⟨[], [], 0⟩, ?_, by simp, ?_⟩
  · rw [orderedCells, if_neg (by omega)]
    refine each_ok ?_
    rw [List.forall₂_map_right_iff]
    rw [List.forall₂_same]
    intro k hk
    have hk' : k < cells.length := by simpa using hk
    rw [hfind k hk']
    simp only
    rw [List.getElem?_eq_getElem (hq k hk').1]
    exact at_some (List.getElem?_eq_getElem (hq k hk').1)
  · intro i hil
    rw [List.getElem?_map, List.getElem?_range (hr i hil), Option.map_some, hpq i hil,
      List.getElem?_eq_getElem hil]
    rfl

end Verif.Interfaces
