/-
Lemmas about the reader of CRYSTAL phonon outputs.
-/
import Verif.IO.Witness
import Verif.Interfaces.Crystal
import Verif.Interfaces.CrystalSpec
import Verif.Interfaces.SoecLemmas

noncomputable section

namespace Verif.Interfaces
open Verif.Py Verif.IO Verif.IO.Spec Spec

/-! ### The ends of the lines do not matter -/

theorem at_raw {data ls : List Str} (h : List.Forall₂ IsRaw data ls) (n : ℕ) {α : Type}
    {f : Str → Except PyErr α} (hf : ∀ r l, IsRaw r l → f r = f l) :
    (at_ data n).bind f = (at_ ls n).bind f := by
  induction h generalizing n with
  | nil => rfl
  | cons hr _ ih =>
    cases n with
    | zero => simp [at_, Except.bind, hf _ _ hr]
    | succ n => simpa [at_] using ih n

theorem startLine_raw {data ls : List Str} {p : Str} (hp : '\n' ∉ p)
    (h : List.Forall₂ IsRaw data ls) : startLine p data = startLine p ls := by
  unfold startLine
  induction h with
  | nil => rfl
  | cons hr _ ih => rw [List.findIdx?_cons, List.findIdx?_cons, hasSub_raw hp hr, ih]

theorem each_congr {α β : Type} {f g : α → Except PyErr β} (l : List α) (h : ∀ x ∈ l, f x = g x) :
    each f l = each g l := by
  induction l with
  | nil => rfl
  | cons x xs ih =>
    rw [each, each, h x (by simp), ih fun y hy => h y (by simp [hy])]

theorem atomLine_raw (r l : Str) (h : IsRaw r l) : atomLine r = atomLine l := by
  simp only [atomLine, words_raw h]

theorem atomLines_raw {data ls : List Str} (h : List.Forall₂ IsRaw data ls) (k n : ℕ) :
    atomLines data k n = atomLines ls k n :=
  each_congr _ fun _ _ => at_raw h _ atomLine_raw

theorem rows3_raw {data ls : List Str} (h : List.Forall₂ IsRaw data ls) (k d : ℕ) :
    rows3 data k d = rows3 ls k d := by
  have hf : ∀ r l : Str, IsRaw r l → row3 ((words r).drop d) = row3 ((words l).drop d) :=
    fun r l hr => by rw [words_raw hr]
  simp only [rows3, at_raw h _ hf]

theorem forall₂_drop_raw {data ls : List Str} (h : List.Forall₂ IsRaw data ls) (k : ℕ) :
    List.Forall₂ IsRaw (data.drop k) (ls.drop k) := by
  induction h generalizing k with
  | nil => simp
  | cons hr ht ih =>
    cases k with
    | zero => exact .cons hr ht
    | succ k => simpa using ih k

theorem latticeFrom_raw {data ls : List Str} (h : List.Forall₂ IsRaw data ls) (k : ℕ) :
    latticeFrom data k = latticeFrom ls k := by
  unfold latticeFrom
  rw [startLine_raw (by decide) (forall₂_drop_raw h k)]
  split
  · rfl
  · exact rows3_raw h _ _

theorem atEnd_raw (n : ℕ) (r l : Str) (h : IsRaw r l) :
    (atEnd (words r) n).bind toInt = (atEnd (words l) n).bind toInt := by rw [words_raw h]

theorem geometryAt_raw {data ls : List Str} (h : List.Forall₂ IsRaw data ls) (k : ℕ) :
    geometryAt data k = geometryAt ls k := by
  unfold geometryAt
  rw [at_raw h _ (atEnd_raw 1)]
  simp only [atomLines_raw h, latticeFrom_raw h]

theorem setWfCell_raw {data ls : List Str} (h : List.Forall₂ IsRaw data ls) :
    setWfCell data = setWfCell ls := by
  unfold setWfCell
  rw [startLine_raw (by decide) h, funext (geometryAt_raw h)]

theorem setInitCell_raw {data ls : List Str} (h : List.Forall₂ IsRaw data ls) :
    setInitCell data = setInitCell ls := by
  unfold setInitCell
  rw [startLine_raw (by decide) h]
  simp only [at_raw h _ (atEnd_raw 1), atomLines_raw h]

theorem setExpansion_raw {data ls : List Str} (h : List.Forall₂ IsRaw data ls) :
    setExpansion data = setExpansion ls := by
  have hf : ∀ r l : Str, IsRaw r l → labelledRow r = labelledRow l :=
    fun r l hr => by rw [labelledRow, labelledRow, words_raw hr]
  unfold setExpansion
  rw [startLine_raw (by decide) h]
  simp only [at_raw h _ hf]

theorem qLine_raw (r l : Str) (h : IsRaw r l) : qLine r = qLine l := by
  simp only [qLine, words_raw h]

theorem lastTable_raw {data ls : List Str} (h : List.Forall₂ IsRaw data ls) :
    lastTable data = lastTable ls := by
  have hf : ∀ n : ℕ, data[n]?.map (hasSub kTable) = ls[n]?.map (hasSub kTable) := by
    intro n
    have := getElem?_raw h n (f := fun s => some (hasSub kTable s))
      fun r l hr => by rw [hasSub_raw (by decide) hr]
    rw [Option.map_eq_bind, Option.map_eq_bind]
    exact this
  simp only [lastTable, hf, h.length_eq]

theorem setQMesh_raw {data ls : List Str} (h : List.Forall₂ IsRaw data ls) :
    setQMesh data = setQMesh ls := by
  have hs : ∀ r l : Str, IsRaw r l → ∀ pts : List (ℚ × (Fin 3 → ℚ)),
      (floatAt (words r) 6).bind (fun a => (floatAt (words r) 9).bind fun b =>
        (floatAt (words r) 12).bind fun c =>
        (.ok ⟨pts.map (·.2), pts.map (·.1), ![a, b, c]⟩ : Except PyErr Mesh)) =
      (floatAt (words l) 6).bind fun a => (floatAt (words l) 9).bind fun b =>
        (floatAt (words l) 12).bind fun c =>
        .ok ⟨pts.map (·.2), pts.map (·.1), ![a, b, c]⟩ := fun r l hr _ => by rw [words_raw hr]
  have hq : ∀ k n : ℕ, each (fun i => (at_ data (k + i)).bind qLine) (List.range n) =
      each (fun i => (at_ ls (k + i)).bind qLine) (List.range n) :=
    fun k n => each_congr _ fun _ _ => at_raw h _ qLine_raw
  unfold setQMesh
  simp only [startLine_raw (p := hessInterpolation) (by decide) h,
    startLine_raw (p := scelphonoQpoints) (by decide) h, at_raw h _ (atEnd_raw 4), hq,
    meshStart, lastTable_raw h, at_raw h _ fun r l hr => hs r l hr _]

theorem setEnergy_raw {data ls : List Str} (h : List.Forall₂ IsRaw data ls) :
    setEnergy data = setEnergy ls := by
  have hf : ∀ r l : Str, IsRaw r l → floatAt (words r) 2 = floatAt (words l) 2 :=
    fun r l hr => by rw [words_raw hr]
  unfold setEnergy
  rw [startLine_raw (by decide) h]
  simp only [at_raw h _ hf]

theorem loadCell_raw {data ls : List Str} (h : List.Forall₂ IsRaw data ls) :
    loadCell data = loadCell ls := by
  simp only [loadCell, loadSupercell, loadUnitcell, any_raw (p := supercellOption) (by decide) h,
    any_raw (p := scelphonoOption) (by decide) h, setWfCell_raw h, setInitCell_raw h,
    setExpansion_raw h, setQMesh_raw h, setEnergy_raw h]

theorem at_raw_cases {data ls : List Str} (h : List.Forall₂ IsRaw data ls) (n : ℕ) :
    (∃ e, at_ data n = .error e ∧ at_ ls n = .error e) ∨
    ∃ r l, at_ data n = .ok r ∧ at_ ls n = .ok l ∧ IsRaw r l := by
  induction h generalizing n with
  | nil => exact .inl ⟨_, rfl, rfl⟩
  | cons hr _ ih =>
    cases n with
    | zero => exact .inr ⟨_, _, rfl, rfl, hr⟩
    | succ n => simpa [at_] using ih n

theorem bandLoop_raw {data ls : List Str} (h : List.Forall₂ IsRaw data ls) (i n fuel : ℕ)
    (s : BandState) : bandLoop data i n fuel s = bandLoop ls i n fuel s := by
  induction fuel generalizing s with
  | zero => rfl
  | succ fuel ih =>
    rw [bandLoop, bandLoop]
    rcases at_raw_cases h (i + s.line + 2) with ⟨e, h1, h2⟩ | ⟨r, l, h1, h2, hr⟩
    · rw [h1, h2]
    · rw [h1, h2]
      simp only [words_raw hr, ih]

theorem phononsFrom_raw {data ls : List Str} (h : List.Forall₂ IsRaw data ls) (fuel n q : ℕ)
    {rest rest' : List Str} (hr : List.Forall₂ IsRaw rest rest') (i : ℕ) (bands : List (List ℚ)) :
    phononsFrom fuel data n q i rest bands = phononsFrom fuel ls n q i rest' bands := by
  induction hr generalizing i bands with
  | nil => rfl
  | cons hr _ ih =>
    rw [phononsFrom, phononsFrom, hasSub_raw (by decide) hr, bandLoop_raw h]
    simp only [ih]

theorem loadPhonon_text {ls : List Str} {text : Str} (h : IsText ls text) (fuel : ℕ) :
    loadPhonon fuel text = loadPhononLines fuel ls := by
  have hr := readlines_text h
  simp only [loadPhonon, loadPhononLines, any_raw (p := frequencyCalculation) (by decide) hr,
    loadCell_raw hr, setPhonons, phononsFrom_raw hr _ _ _ hr]

/-! ### Numbers and words -/

theorem integer_token {s : Str} {z : ℤ} (h : Integer s z) : IsToken s := by
  obtain ⟨sg, ds, f, rfl, hs, hd, hne, -⟩ := h
  refine ⟨by simp [hne], fun c hc => ?_⟩
  rcases List.mem_append.1 hc with hc | hc
  · rcases hs with ⟨rfl, -⟩ | ⟨rfl, -⟩ | ⟨rfl, -⟩
    · simp at hc
    · simp at hc; subst hc; decide
    · simp at hc; subst hc; decide
  · exact digit_not_space (hd c hc)

theorem parseInt_integer {s : Str} {z : ℤ} (h : Integer s z) : parseInt s = some z := by
  have ht := integer_token h
  obtain ⟨sg, ds, f, rfl, hs, hd, hne, rfl⟩ := h
  have h1 : takeSign (sg ++ ds) = (decide (f < 0), ds) := takeSign_sign hs fun c hc =>
    digit_not_sign (digits_head hd hne [] c (by simpa using hc))
  have h2 : ds.all isDigit = true := List.all_eq_true.2 fun c hc => mem_digits.1 (hd c hc)
  rw [parseInt, strip_token ht, h1]
  simp only [hne, h2, ne_eq, not_false_eq_true, and_self, if_true, natOf_eq hd]
  rcases hs with ⟨-, rfl⟩ | ⟨-, rfl⟩ | ⟨-, rfl⟩ <;> simp

theorem parseInt_sound {s : Str} {z : ℤ} (h : parseInt s = some z) : Integer (strip s) z := by
  simp only [parseInt] at h
  split at h
  · rename_i hd
    obtain ⟨sg, f, hs, ht, hf⟩ := takeSign_spec (strip s)
    have hD : Digits (takeSign (strip s)).2 := fun c hc => mem_digits.2 (List.all_eq_true.1 hd.2 c hc)
    refine ⟨sg, _, f, ht, hs, hD, hd.1, ?_⟩
    rw [natOf_eq hD, hf]
    simp only [Option.some.injEq] at h
    rw [← h]
    split <;> simp
  · exact absurd h (by simp)

theorem toInt_integer {s : Str} {z : ℤ} (h : Integer s z) : toInt s = .ok z := by
  rw [toInt, parseInt_integer h]

theorem toFloat_numeral {s : Str} {q : ℚ} (h : Numeral s q) : toFloat s = .ok q := by
  rw [toFloat, parseFloat_numeral h]

theorem at_some {α : Type} {l : List α} {n : ℕ} {x : α} (h : l[n]? = some x) : at_ l n = .ok x := by
  rw [at_, h]

theorem ok_bind {α β : Type} (x : α) (f : α → Except PyErr β) : (Except.ok x).bind f = f x := rfl

theorem floatAt_numeral {ws : List Str} {n : ℕ} {t : Str} {q : ℚ} (h : ws[n]? = some t)
    (hq : Numeral t q) : floatAt ws n = .ok q := by
  rw [floatAt, at_some h, ok_bind, toFloat_numeral hq]

theorem intAt_integer {ws : List Str} {n : ℕ} {t : Str} {z : ℤ} (h : ws[n]? = some t)
    (hq : Integer t z) : intAt ws n = .ok z := by
  rw [intAt, at_some h, ok_bind, toInt_integer hq]

theorem each_ok {α β : Type} {f : α → Except PyErr β} {xs : List α} {ys : List β}
    (h : List.Forall₂ (fun x y => f x = .ok y) xs ys) : each f xs = .ok ys := by
  induction h with
  | nil => rfl
  | cons h _ ih => rw [each, h, ok_bind, ih]; rfl

theorem forall₂_range {β : Type} {P : ℕ → β → Prop} (ys : List β)
    (h : ∀ i y, ys[i]? = some y → P i y) : List.Forall₂ P (List.range ys.length) ys := by
  rw [List.forall₂_iff_get]
  refine ⟨by simp, fun i h1 h2 => ?_⟩
  simpa using h i _ (List.getElem?_eq_getElem h2)

theorem startLine_first {p : Str} {ls : List Str} {i : ℕ} (h : First p ls i) :
    startLine p ls = some i := by
  obtain ⟨⟨l, h1, h2⟩, h3⟩ := h
  obtain ⟨hi, rfl⟩ := List.getElem?_eq_some_iff.1 h1
  rw [startLine, List.findIdx?_eq_some_iff_getElem]
  refine ⟨hi, hasSub_iff.2 h2, fun j hj => ?_⟩
  simp only [hasSub_iff]
  exact h3 j hj _ (List.getElem?_eq_getElem (by omega))

theorem startLine_none {p : Str} {ls : List Str} (h : ¬ Contains p ls) : startLine p ls = none := by
  rw [startLine, List.findIdx?_eq_none_iff]
  intro l hl
  rw [Bool.eq_false_iff]
  exact fun hs => h ⟨l, hl, hasSub_iff.1 hs⟩

theorem any_contains {p : Str} {ls : List Str} : ls.any (hasSub p) = true ↔ Contains p ls := by
  simp only [List.any_eq_true, hasSub_iff, Contains]

theorem atEnd_last {l : Str} {z : ℤ} (h : EndsWith l z) : (atEnd (words l) 1).bind toInt = .ok z := by
  obtain ⟨ws, t, h1, h2⟩ := h
  rw [words_of h1, atEnd]
  simp [ok_bind, toInt_integer h2]

theorem atEnd_count {l : Str} {z : ℤ} (h : CountLine l z) : (atEnd (words l) 4).bind toInt = .ok z := by
  obtain ⟨ws, t, u, v, w, h1, h2⟩ := h
  rw [words_of h1, atEnd]
  simp [ok_bind, toInt_integer h2]

/-! ### The geometry -/

theorem atomLine_ok {l : Str} {a : ℤ × (Fin 3 → ℚ)} (h : AtomLine l a) : atomLine l = .ok a := by
  obtain ⟨t0, t1, t2, t3, t4, t5, t6, rest, hw, h2, h4, h5, h6⟩ := h
  rw [atomLine, words_of hw, intAt_integer rfl h2, floatAt_numeral rfl h4, floatAt_numeral rfl h5,
    floatAt_numeral rfl h6]
  simp only [ok_bind, Except.ok.injEq]
  refine Prod.ext rfl (funext fun i => ?_)
  fin_cases i <;> rfl

theorem atomLines_ok {ls : List Str} {k : ℕ} {atoms : List (ℤ × (Fin 3 → ℚ))}
    (h : AtomsAt ls k atoms) : atomLines ls k atoms.length = .ok atoms :=
  each_ok <| forall₂_range _ fun i a ha => by
    obtain ⟨l, h1, h2⟩ := h i a ha
    rw [at_some h1, ok_bind, atomLine_ok h2]

theorem row3_numbers {l : Str} {v : Fin 3 → ℚ} (h : Numbers (List.ofFn v) l) :
    row3 (words l) = .ok v := by
  have h1 := numbers_words h (.inl rfl)
  have h2 : each toFloat (words l) = .ok (List.ofFn v) :=
    each_ok (h1.imp fun t q ht => by rw [toFloat, ht])
  rw [row3, h2]
  simp only [List.ofFn_succ, List.ofFn_zero, ok_bind, Except.ok.injEq]
  funext i
  fin_cases i <;> rfl

theorem rows3_ok {ls : List Str} {k : ℕ} {M : Matrix (Fin 3) (Fin 3) ℚ} (h : MatrixAt ls k M) :
    rows3 ls k 0 = .ok M := by
  obtain ⟨l0, a0, b0⟩ := h 0
  obtain ⟨l1, a1, b1⟩ := h 1
  obtain ⟨l2, a2, b2⟩ := h 2
  rw [rows3, at_some (n := k) a0, at_some (n := k + 1) a1, at_some (n := k + 2) a2]
  simp only [ok_bind, List.drop_zero, row3_numbers b0, row3_numbers b1, row3_numbers b2,
    Except.ok.injEq]
  funext i
  fin_cases i <;> rfl

theorem size_ok (n : ℕ) : size n = .ok n := by simp [size]

theorem geometryAt_ok {ls : List Str} {g : ℕ} {atoms : List (ℤ × (Fin 3 → ℚ))}
    {M : Matrix (Fin 3) (Fin 3) ℚ} (h : GeometryAt ls g atoms M) :
    geometryAt ls g = .ok ⟨atoms.map (·.1), atoms.map (·.2), M⟩ := by
  obtain ⟨⟨l, h1, h2⟩, h3, p, h4, h5⟩ := h
  have hl : latticeFrom ls (g + 11 + atoms.length) = .ok M := by
    rw [latticeFrom, latticeVectors, startLine_first h4]
    exact rows3_ok h5
  rw [geometryAt, at_some h1, ok_bind, atEnd_last h2, ok_bind, size_ok, ok_bind, atomLines_ok h3,
    ok_bind, hl]
  rfl

theorem setWfCell_ok {ls : List Str} {atoms : List (ℤ × (Fin 3 → ℚ))}
    {M : Matrix (Fin 3) (Fin 3) ℚ} (h : WaveGeometry ls atoms M) :
    setWfCell ls = .ok ⟨atoms.map (·.1), atoms.map (·.2), M⟩ := by
  obtain ⟨g, h1, h2⟩ := h
  rw [setWfCell, geometryWf, startLine_first h1]
  exact geometryAt_ok h2

theorem setInitCell_ok {ls : List Str} {atoms : List (ℤ × (Fin 3 → ℚ))}
    (h : InitialAtoms ls atoms) :
    setInitCell ls = .ok ⟨atoms.map (·.1), atoms.map (·.2), 0⟩ := by
  obtain ⟨g, h1, ⟨l, h2, h3⟩, h4⟩ := h
  rw [setInitCell, geometryConsistent, startLine_first h1]
  simp only [notNone, ok_bind]
  rw [at_some h2, ok_bind, atEnd_last h3, ok_bind, size_ok, ok_bind, atomLines_ok h4]
  rfl

theorem setExpansion_ok {ls : List Str} {E : Matrix (Fin 3) (Fin 3) ℚ} (h : Expansion ls E) :
    setExpansion ls = .ok E := by
  obtain ⟨x, h1, h2⟩ := h
  have key : ∀ i : Fin 3, (at_ ls (x + 1 + (i : ℕ))).bind labelledRow = .ok (E i) := by
    intro i
    obtain ⟨l, t0, t1, t2, t3, a, b, c, d, e⟩ := h2 i
    rw [at_some a, ok_bind, labelledRow, words_of b]
    simp only [row3, each, toFloat_numeral c, toFloat_numeral d, toFloat_numeral e, ok_bind,
      Except.ok.injEq]
    funext j
    fin_cases j <;> rfl
  have k0 := key 0
  have k1 := key 1
  have k2 := key 2
  simp only [Fin.val_zero, Fin.val_one, Fin.val_two, add_zero, add_assoc] at k0 k1 k2
  rw [setExpansion, supercellExpansion, startLine_first h1]
  simp only [notNone, ok_bind]
  rw [k0, ok_bind, k1, ok_bind, k2, ok_bind]
  congr 1
  funext i
  fin_cases i <;> rfl

theorem setEnergy_ok {ls : List Str} {e : ℚ} (h : EnergyPrinted ls e) : setEnergy ls = .ok e := by
  obtain ⟨i, l, t0, t1, t2, rest, h1, h2, h3, h4⟩ := h
  rw [setEnergy, centralEnergy, startLine_first h1]
  simp only [notNone, ok_bind]
  rw [at_some h2, ok_bind, words_of h3]
  exact floatAt_numeral rfl h4

/-! ### The sampled points -/

theorem qLine_ok {l : Str} {q : ℚ × (Fin 3 → ℚ)} (h : PointLine l q) : qLine l = .ok q := by
  obtain ⟨t0, t1, t2, t3, t4, t5, rest, hw, h2, h3, h4, h5⟩ := h
  rw [qLine, words_of hw, floatAt_numeral rfl h2, floatAt_numeral rfl h3, floatAt_numeral rfl h4,
    floatAt_numeral rfl h5]
  simp only [ok_bind, Except.ok.injEq]
  refine Prod.ext rfl (funext fun i => ?_)
  fin_cases i <;> rfl

theorem lastTable_ok {ls : List Str} {k : ℕ} {l' : Str} (h1 : ls[k]? = some l') (h2 : kTable <:+: l')
    (h3 : ∀ j l, k < j → ls[j]? = some l → ¬ kTable <:+: l) : lastTable ls = some k := by
  obtain ⟨hk, rfl⟩ := List.getElem?_eq_some_iff.1 h1
  have e : List.range ls.length =
      List.range k ++ (k :: List.range' (k + 1) (ls.length - (k + 1))) := by
    rw [List.range_eq_range', List.range_eq_range', ← List.range'_succ]
    have := List.range'_append_1 (s := 0) (m := k) (n := ls.length - (k + 1) + 1)
    rw [zero_add] at this
    rw [this]
    congr 1
    omega
  have e2 : (List.range' (k + 1) (ls.length - (k + 1))).filter
      (fun i => (ls[i]?.map (hasSub kTable)).getD false) = [] := by
    rw [List.filter_eq_nil_iff]
    intro j hj
    have hj' := List.mem_range'_1.1 hj
    have hjl : j < ls.length := by omega
    rw [List.getElem?_eq_getElem hjl]
    simp only [Option.map_some, Option.getD_some, hasSub_iff]
    exact h3 j _ (by omega) (List.getElem?_eq_getElem hjl)
  rw [lastTable, e, List.filter_append, List.filter_cons_of_pos, e2, List.getLast?_append]
  · simp
  · rw [List.getElem?_eq_getElem hk]
    simpa using hasSub_iff.2 h2

theorem setQMesh_ok {ls : List Str} {pts : List (ℚ × (Fin 3 → ℚ))} {shrink : Fin 3 → ℚ}
    (h : Sampled ls pts shrink) : setQMesh ls = .ok ⟨pts.map (·.2), pts.map (·.1), shrink⟩ := by
  have key : ∀ k, PointsAt ls k pts shrink →
      ((each (fun i => (at_ ls (k + i)).bind qLine) (List.range pts.length)).bind fun ps =>
      (at_ ls (k + pts.length)).bind fun l => (floatAt (words l) 6).bind fun a =>
      (floatAt (words l) 9).bind fun b => (floatAt (words l) 12).bind fun c =>
      (.ok ⟨ps.map (·.2), ps.map (·.1), ![a, b, c]⟩ : Except PyErr Mesh)) =
      .ok ⟨pts.map (·.2), pts.map (·.1), shrink⟩ := by
    rintro k ⟨h1, l, h2, ws, t6, t9, t12, hw, a, b, c, a', b', c'⟩
    have e : each (fun i => (at_ ls (k + i)).bind qLine) (List.range pts.length) = .ok pts :=
      each_ok <| forall₂_range _ fun i p hp => by
        obtain ⟨l, h1, h2⟩ := h1 i p hp
        rw [at_some h1, ok_bind, qLine_ok h2]
    rw [e, ok_bind, at_some h2, ok_bind, words_of hw, floatAt_numeral a a', floatAt_numeral b b',
      floatAt_numeral c c']
    simp only [ok_bind, Except.ok.injEq, Mesh.mk.injEq, true_and]
    funext i
    fin_cases i <;> rfl
  rcases h with ⟨s, l, h1, h2, h3, h4⟩ | ⟨h0, s, l, k, l', h1, h2, h3, h4, h5, h6, h7⟩
  · have e1 := startLine_first h1
    rw [setQMesh]
    simp only [hessInterpolation, e1, Option.isSome_some, if_true, notNone, ok_bind, at_some h2,
      atEnd_count h3, size_ok, meshStart]
    exact key _ h4
  · have e1 := startLine_none h0
    have e2 := startLine_first h1
    rw [setQMesh]
    simp only [hessInterpolation, e1, scelphonoQpoints, e2, Option.isSome_none, Bool.false_eq_true, if_false, notNone,
      ok_bind, at_some h2, atEnd_count h3, size_ok, meshStart, lastTable_ok h4 h5 h6]
    exact key _ h7

/-! ### The frequencies -/

/-- What the `while` loop does with the lines below a title: `none` when it never ends. -/
def scanTable (n : ℕ) : List Str → List ℚ → Option (Except PyErr (List ℚ))
  | [], _ => some (.error .indexError)
  | l :: ls, band =>
    if words l = [] then (if band.length = n then some (.ok band) else none)
    else match modeLine n (words l) band with
      | .error e => some (.error e)
      | .ok band => scanTable n ls band

theorem bandLoop_stuck {data : List Str} {i n : ℕ} {s : BandState} {l : Str}
    (hl : data[i + s.line + 2]? = some l) (hw : words l = []) (hb : s.band.length ≠ n) (fuel : ℕ) :
    bandLoop data i n fuel s = none := by
  induction fuel generalizing s with
  | zero => rfl
  | succ fuel ih =>
    rw [bandLoop, if_neg (fun h => hb h.2), at_some hl]
    simp only [hw, if_true]
    exact ih (s := { s with finished := true }) hl hb

theorem drop_head {data : List Str} {k : ℕ} {l : Str} {rest : List Str} (h : data.drop k = l :: rest) :
    data[k]? = some l ∧ data.drop (k + 1) = rest := by
  constructor
  · have := congrArg (fun x => x[0]?) h
    simpa using this
  · have := congrArg List.tail h
    simpa using this

theorem bandLoop_none {data : List Str} {i n k : ℕ} {band : List ℚ} {rest : List Str}
    (hd : data.drop (i + k + 2) = rest) (h : scanTable n rest band = none) (fuel : ℕ) :
    bandLoop data i n fuel ⟨false, k, band⟩ = none := by
  induction rest generalizing k band fuel with
  | nil => simp [scanTable] at h
  | cons l rest ih =>
    obtain ⟨h1, h2⟩ := drop_head hd
    rw [scanTable] at h
    cases fuel with
    | zero => rfl
    | succ fuel =>
      by_cases hw : words l = []
      · simp only [hw, if_true] at h
        have hb : band.length ≠ n := by
          intro hb
          simp [hb] at h
        exact bandLoop_stuck (s := ⟨false, k, band⟩) h1 hw hb _
      · simp only [hw, if_false] at h
        rw [bandLoop, if_neg (by simp), at_some h1]
        simp only [hw, if_false]
        cases hm : modeLine n (words l) band with
        | error e => rw [hm] at h; simp at h
        | ok b =>
          rw [hm] at h
          exact ih (k := k + 1) h2 h fuel

theorem bandLoop_some {data : List Str} {i n k : ℕ} {band : List ℚ} {rest : List Str}
    {r : Except PyErr (List ℚ)} (hd : data.drop (i + k + 2) = rest)
    (h : scanTable n rest band = some r) {fuel : ℕ} (hf : rest.length + 2 ≤ fuel) :
    bandLoop data i n fuel ⟨false, k, band⟩ = some r := by
  induction rest generalizing k band fuel with
  | nil =>
    obtain ⟨fuel, rfl⟩ : ∃ f, fuel = f + 1 := ⟨fuel - 1, by simp at hf; omega⟩
    have h1 : data[i + k + 2]? = none := by
      rw [List.getElem?_eq_none_iff]
      exact List.drop_eq_nil_iff.1 hd
    simp only [scanTable, Option.some.injEq] at h
    rw [bandLoop, if_neg (by simp), at_, h1, ← h]
  | cons l rest ih =>
    obtain ⟨h1, h2⟩ := drop_head hd
    rw [scanTable] at h
    obtain ⟨fuel, rfl⟩ : ∃ f, fuel = f + 1 := ⟨fuel - 1, by simp at hf; omega⟩
    rw [bandLoop, if_neg (by simp), at_some h1]
    by_cases hw : words l = []
    · simp only [hw, if_true] at h ⊢
      split at h
      · rename_i hb
        obtain ⟨fuel, rfl⟩ : ∃ f, fuel = f + 1 := ⟨fuel - 1, by simp at hf; omega⟩
        rw [bandLoop, if_pos ⟨rfl, hb⟩]
        exact h
      · simp at h
    · simp only [hw, if_false] at h ⊢
      cases hm : modeLine n (words l) band with
      | error e => rw [hm] at h; exact h
      | ok b =>
        rw [hm] at h
        exact ih (k := k + 1) h2 h (by simp at hf; omega)

theorem addModes_ok {n : ℕ} {ws : List Str} {q : ℚ} (h : floatAt ws 3 = .ok q) (k : ℕ) (band : List ℚ)
    (hl : band.length + k ≤ n) : addModes n ws k band = .ok (band ++ List.replicate k q) := by
  induction k generalizing band with
  | zero => simp [addModes]
  | succ k ih =>
    rw [addModes, h, ok_bind, if_pos (by omega), ih _ (by simp; omega), List.append_assoc]
    congr 2

theorem addModes_over {n : ℕ} {ws : List Str} {q : ℚ} (h : floatAt ws 3 = .ok q) (k : ℕ) (band : List ℚ)
    (hb : band.length ≤ n) (hl : n < band.length + k) : addModes n ws k band = .error .indexError := by
  induction k generalizing band with
  | zero => omega
  | succ k ih =>
    rw [addModes, h, ok_bind]
    split
    · exact ih _ (by simp; omega) (by simp; omega)
    · rfl

theorem modeLine_words {l : Str} {m : ℤ × ℤ × ℚ} (h : ModeLine l m) (n : ℕ) (band : List ℚ) :
    words l ≠ [] ∧ floatAt (words l) 3 = .ok m.2.2 ∧
    modeLine n (words l) band = addModes n (words l) (m.2.1 - m.1 + 1).toNat band := by
  obtain ⟨t1, t2, t3, t4, rest, hw, h1, h2, h4⟩ := h
  rw [words_of hw]
  refine ⟨by simp, floatAt_numeral rfl h4, ?_⟩
  rw [modeLine, at_some (x := t1 ++ ['-']) rfl, ok_bind, List.dropLast_concat, toInt_integer h1, ok_bind,
    intAt_integer rfl h2, ok_bind]

theorem blank_words {l : Str} (h : Blank l) : words l = [] := by
  have := words_spaces (b := []) (blank_space h)
  rwa [List.append_nil, words_nil] at this

/-- A table of frequencies, read from the first row on. -/
theorem scanTable_modes {n : ℕ} {rows : List Str} {modes : List (ℤ × ℤ × ℚ)}
    (h : List.Forall₂ ModeLine rows modes) {blank : Str} (hb : Blank blank) (post : List Str)
    (band : List ℚ) (hl : band.length ≤ n) :
    scanTable n (rows ++ blank :: post) band =
      if (band ++ expand modes).length < n then none
      else if (band ++ expand modes).length = n then some (.ok (band ++ expand modes))
      else some (.error .indexError) := by
  induction h generalizing band with
  | nil =>
    rw [List.nil_append, scanTable, if_pos (blank_words hb)]
    simp only [expand, List.flatMap_nil, List.append_nil]
    rcases lt_or_eq_of_le hl with h | h
    · rw [if_neg (by omega), if_pos h]
    · rw [if_pos h, if_neg (by omega), if_pos h]
  | @cons r m rows modes hr _ ih =>
    obtain ⟨h1, h2, h3⟩ := modeLine_words hr n band
    have e : expand (m :: modes) = List.replicate (m.2.1 - m.1 + 1).toNat m.2.2 ++ expand modes := rfl
    rw [List.cons_append, scanTable, if_neg h1, h3, e]
    by_cases hk : band.length + (m.2.1 - m.1 + 1).toNat ≤ n
    · rw [addModes_ok h2 _ _ hk]
      simp only
      rw [ih _ (by simpa using hk), List.append_assoc]
    · rw [addModes_over h2 _ _ hl (by omega)]
      simp only [List.length_append, List.length_replicate]
      rw [if_neg (by omega), if_neg (by omega)]

theorem bandLoop_modes {data : List Str} {i n : ℕ} {modes : List (ℤ × ℤ × ℚ)}
    (h : ModesAt data (i + 2) modes) :
    ((expand modes).length < n → ∀ fuel, bandLoop data i n fuel ⟨false, 0, []⟩ = none) ∧
    ((expand modes).length = n → ∀ fuel, data.length + 2 ≤ fuel →
      bandLoop data i n fuel ⟨false, 0, []⟩ = some (.ok (expand modes))) ∧
    (n < (expand modes).length → ∀ fuel, data.length + 2 ≤ fuel →
      bandLoop data i n fuel ⟨false, 0, []⟩ = some (.error .indexError)) := by
  obtain ⟨rows, blank, post, hd, hm, hb⟩ := h
  have hs := scanTable_modes (n := n) hm hb post [] (by simp)
  rw [List.nil_append] at hs
  have hlen : (rows ++ blank :: post).length ≤ data.length := by
    rw [← hd]; simp
  refine ⟨fun h fuel => bandLoop_none (k := 0) hd (by rw [hs, if_pos h]) fuel,
    fun h fuel hf => bandLoop_some (k := 0) hd (by rw [hs, if_neg (by omega), if_pos h]) (by omega),
    fun h fuel hf => bandLoop_some (k := 0) hd (by rw [hs, if_neg (by omega), if_neg (by omega)]) (by omega)⟩

/-- The tables below the titles of the rest of the file. -/
theorem phononsFrom_tables {data : List Str} {n q fuel : ℕ} (hf : data.length + 2 ≤ fuel)
    {rest : List Str} {i : ℕ} (hr : data.drop i = rest) {ks : List ℕ} (hs : ks.Pairwise (· < ·))
    (hk : ∀ k, k ∈ ks ↔ i ≤ k ∧ ∃ l, data[k]? = some l ∧ frequencyHeader <:+: l)
    {tables : List (List (ℤ × ℤ × ℚ))} {bands : List (List ℚ)} (hle : tables.length ≤ ks.length)
    (hq : bands.length + tables.length ≤ q)
    (hend : bands.length + tables.length = q ∧ tables ≠ [] ∨ ks.length = tables.length)
    (ht : ∀ (j k : ℕ) t, ks[j]? = some k → tables[j]? = some t →
      ModesAt data (k + 2) t ∧ (expand t).length = n) :
    phononsFrom fuel data n q i rest bands = some (.ok (bands ++ tables.map expand)) := by
  induction rest generalizing i ks tables bands with
  | nil =>
    have h1 : ks = [] := by
      rw [List.eq_nil_iff_forall_not_mem]
      intro k hk'
      obtain ⟨h1, l, h2, -⟩ := (hk k).1 hk'
      have := (List.getElem?_eq_some_iff.1 h2).1
      have := List.drop_eq_nil_iff.1 hr
      omega
    subst h1
    have h2 : tables = [] := by simpa using hle
    subst h2
    simp [phononsFrom]
  | cons l rest ih =>
    obtain ⟨h1, h2⟩ := drop_head hr
    rw [phononsFrom]
    by_cases hl : frequencyHeader <:+: l
    · rw [if_pos (hasSub_iff.2 hl)]
      have hi : i ∈ ks := (hk i).2 ⟨le_rfl, l, h1, hl⟩
      obtain ⟨ks', rfl⟩ : ∃ ks', ks = i :: ks' := by
        cases ks with
        | nil => simp at hi
        | cons k ks' =>
          rcases List.mem_cons.1 hi with rfl | hi'
          · exact ⟨ks', rfl⟩
          · have := (List.pairwise_cons.1 hs).1 i hi'
            have := ((hk k).1 (by simp)).1
            omega
      cases tables with
      | nil => simp at hend
      | cons t tables =>
        obtain ⟨m1, m2⟩ := ht 0 i t rfl rfl
        rw [(bandLoop_modes m1).2.1 m2 fuel hf]
        simp only
        by_cases hc : (bands ++ [expand t]).length = q
        · rw [if_pos hc]
          have : tables = [] := by
            simp at hc hq
            cases tables with
            | nil => rfl
            | cons => simp at hq; omega
          simp [this]
        · rw [if_neg hc]
          rw [ih h2 (List.pairwise_cons.1 hs).2 ?_ (by simpa using hle) ?_ ?_ ?_]
          · simp
          · intro k
            constructor
            · intro hk'
              have a := (List.pairwise_cons.1 hs).1 k hk'
              exact ⟨a, ((hk k).1 (by simp [hk'])).2⟩
            · rintro ⟨a, b⟩
              rcases List.mem_cons.1 ((hk k).2 ⟨by omega, b⟩) with rfl | h
              · omega
              · exact h
          · simp at hq ⊢; omega
          · simp only [List.length_append, List.length_cons, List.length_nil] at hc hend hq ⊢
            rcases hend with ⟨a, -⟩ | a
            · refine .inl ⟨by omega, ?_⟩
              rintro rfl
              simp at a
              omega
            · exact .inr (by omega)
          · intro j k t' a b
            exact ht (j + 1) k t' (by simpa using a) (by simpa using b)
    · have hl' : ¬ hasSub frequencyHeader l = true := fun h => hl (hasSub_iff.1 h)
      rw [if_neg hl']
      refine ih h2 hs ?_ hle hq hend ht
      intro k
      rw [hk k]
      constructor
      · rintro ⟨a, b⟩
        refine ⟨?_, b⟩
        rcases lt_or_eq_of_le a with h | rfl
        · exact h
        · obtain ⟨l', b1, b2⟩ := b
          rw [h1] at b1
          cases b1
          exact absurd b2 hl
      · rintro ⟨a, b⟩
        exact ⟨by omega, b⟩

theorem phononsFrom_first {data : List Str} {n q fuel : ℕ} {rest : List Str} {i : ℕ}
    (hr : data.drop i = rest) {k : ℕ} (hik : i ≤ k)
    (hk : ∃ l, data[k]? = some l ∧ frequencyHeader <:+: l)
    (hno : ∀ j, j < k → ∀ l, data[j]? = some l → ¬ frequencyHeader <:+: l) (bands : List (List ℚ)) :
    phononsFrom fuel data n q i rest bands =
      match bandLoop data k n fuel ⟨false, 0, []⟩ with
      | none => none
      | some (.error e) => some (.error e)
      | some (.ok band) =>
        if (bands ++ [band]).length = q then some (.ok (bands ++ [band]))
        else phononsFrom fuel data n q (k + 1) (data.drop (k + 1)) (bands ++ [band]) := by
  induction rest generalizing i with
  | nil =>
    obtain ⟨l, h1, h2⟩ := hk
    have := (List.getElem?_eq_some_iff.1 h1).1
    have := List.drop_eq_nil_iff.1 hr
    omega
  | cons l rest ih =>
    obtain ⟨h1, h2⟩ := drop_head hr
    rcases lt_or_eq_of_le hik with h | rfl
    · have hl' : ¬ hasSub frequencyHeader l = true := fun hh => hno i h l h1 (hasSub_iff.1 hh)
      rw [phononsFrom, if_neg hl']
      exact ih h2 h
    · obtain ⟨l', b1, b2⟩ := hk
      rw [h1] at b1
      cases b1
      rw [phononsFrom, if_pos (hasSub_iff.2 b2), h2]
      rcases bandLoop data i n fuel ⟨false, 0, []⟩ with _ | _ | _ <;> rfl

/-! ### When the loop never ends -/

theorem isSpace_iff {c : Char} : isSpace c = true ↔ c ∈ whitespace := by
  simp [isSpace, whitespace, or_assoc]

theorem words_plain_line {l : Str} (h : ∀ c ∈ l, c ∈ whitespace → c = ' ' ∨ c = '\t') :
    Words (words l) l :=
  words_witness (fun c hc hs => h c hc (isSpace_iff.1 hs)) rfl

theorem words_nil_blank {l : Str} (h : ∀ c ∈ l, c ∈ whitespace → c = ' ' ∨ c = '\t')
    (hw : words l = []) : Blank l := by
  have h1 := (words_plain_line h).1
  rw [hw] at h1
  cases h1 with
  | nil hg => exact hg

theorem parseInt_nil : parseInt [] = none := by decide

theorem toInt_dropLast {w : Str} {z : ℤ} (ht : IsToken w) (h : toInt w.dropLast = .ok z) :
    ∃ t c, w = t ++ [c] ∧ Integer t z := by
  refine ⟨w.dropLast, w.getLast ht.1, (List.dropLast_append_getLast ht.1).symm, ?_⟩
  rw [toInt] at h
  cases hp : parseInt w.dropLast with
  | none => rw [hp] at h; simp at h
  | some z' =>
    rw [hp] at h
    simp only [Except.ok.injEq] at h
    subst h
    have hs := parseInt_sound hp
    have hne : w.dropLast ≠ [] := by
      intro h0
      rw [h0, parseInt_nil] at hp
      simp at hp
    rwa [strip_token ⟨hne, fun c hc => ht.2 c (List.dropLast_subset _ hc)⟩] at hs

theorem toInt_token {w : Str} {z : ℤ} (ht : IsToken w) (h : toInt w = .ok z) : Integer w z := by
  rw [toInt] at h
  cases hp : parseInt w with
  | none => rw [hp] at h; simp at h
  | some z' =>
    rw [hp] at h
    simp only [Except.ok.injEq] at h
    subst h
    have hs := parseInt_sound hp
    rwa [strip_token ht] at hs

theorem toFloat_token {w : Str} {q : ℚ} (ht : IsToken w) (h : toFloat w = .ok q) : Numeral w q := by
  rw [toFloat] at h
  cases hp : parseFloat w with
  | none => rw [hp] at h; simp at h
  | some q' =>
    rw [hp] at h
    simp only [Except.ok.injEq] at h
    subst h
    exact parseFloat_token ht hp

theorem words_tokens' {ts : List Str} {l : Str} (h : Words ts l) : ∀ t ∈ ts, IsToken t := by
  intro t ht
  refine ⟨(h.2 t ht).1, fun c hc => ?_⟩
  have := (h.2 t ht).2 c hc
  rw [← isSpace_iff] at this
  simpa using this

theorem addModes_length {n : ℕ} {ws : List Str} {k : ℕ} {band b : List ℚ} (h : addModes n ws k band = .ok b)
    (hb : band.length ≤ n) :
    b.length = band.length + k ∧ b.length ≤ n ∧ (k = 0 ∨ ∃ q, floatAt ws 3 = .ok q) := by
  induction k generalizing band with
  | zero =>
    simp only [addModes, Except.ok.injEq] at h
    subst h
    exact ⟨rfl, hb, .inl rfl⟩
  | succ k ih =>
    rw [addModes] at h
    cases hq : floatAt ws 3 with
    | error e => rw [hq] at h; simp [Except.bind] at h
    | ok q =>
      rw [hq, ok_bind] at h
      split at h
      · obtain ⟨h1, h2, -⟩ := ih h (by simp; omega)
        refine ⟨?_, h2, .inr ⟨q, rfl⟩⟩
        rw [h1]
        simp
        omega
      · simp at h

/-- A row that is accepted. -/
theorem modeLine_count {n : ℕ} {l : Str} (hl : ∀ c ∈ l, c ∈ whitespace → c = ' ' ∨ c = '\t')
    {band b : List ℚ} (hb : band.length ≤ n) (h : modeLine n (words l) band = .ok b) :
    ∃ k, RowCount l k ∧ b.length = band.length + k ∧ b.length ≤ n := by
  have hW := words_plain_line hl
  have hT := words_tokens' hW
  rw [modeLine] at h
  match hw : words l with
  | [] => rw [hw] at h; simp [at_, Except.bind] at h
  | [w] =>
    rw [hw] at h
    simp only [at_, intAt, ok_bind, List.getElem?_cons_zero, List.getElem?_cons_succ,
      List.getElem?_nil] at h
    cases h1 : toInt w.dropLast with
    | error e => rw [h1] at h; simp [Except.bind] at h
    | ok z => rw [h1] at h; simp [Except.bind] at h
  | w :: t2 :: more =>
    rw [hw] at h hW hT
    simp only [at_, intAt, ok_bind, List.getElem?_cons_zero, List.getElem?_cons_succ] at h
    cases h1 : toInt w.dropLast with
    | error e => rw [h1] at h; simp [Except.bind] at h
    | ok n1 =>
      rw [h1, ok_bind] at h
      cases h2 : toInt t2 with
      | error e => rw [h2] at h; simp [Except.bind] at h
      | ok n2 =>
        rw [h2, ok_bind] at h
        obtain ⟨t1, c, rfl, hi⟩ := toInt_dropLast (hT w (by simp)) h1
        obtain ⟨e1, e2, e3⟩ := addModes_length h hb
        refine ⟨_, ⟨t1, c, t2, more, n1, n2, hW, hi, toInt_token (hT t2 (by simp)) h2, rfl, ?_⟩, e1, e2⟩
        rcases e3 with h0 | ⟨q, hq⟩
        · exact .inl h0
        · right
          rw [floatAt, at_] at hq
          match more, hq with
          | [], hq => simp [Except.bind] at hq
          | [t3], hq => simp [Except.bind] at hq
          | t3 :: t4 :: rest, hq =>
            simp only [List.getElem?_cons_zero, List.getElem?_cons_succ, ok_bind] at hq
            exact ⟨t3, t4, rest, q, rfl, toFloat_token (hT t4 (by simp)) hq⟩

theorem rowCount_modeLine {n : ℕ} {l : Str} {k : ℕ} (h : RowCount l k) {band : List ℚ}
    (hb : band.length + k ≤ n) :
    words l ≠ [] ∧ ∃ b, modeLine n (words l) band = .ok b ∧ b.length = band.length + k := by
  obtain ⟨t1, c, t2, more, n1, n2, hw, h1, h2, rfl, h3⟩ := h
  rw [words_of hw]
  refine ⟨by simp, ?_⟩
  rw [modeLine, at_some (x := t1 ++ [c]) rfl, ok_bind, List.dropLast_concat, toInt_integer h1, ok_bind,
    intAt_integer rfl h2, ok_bind]
  rcases h3 with h0 | ⟨t3, t4, rest, q, rfl, hq⟩
  · rw [h0]
    exact ⟨band, rfl, rfl⟩
  · rw [addModes_ok (floatAt_numeral rfl hq) _ _ hb]
    exact ⟨_, rfl, by simp⟩

theorem scanTable_none_iff {n : ℕ} {ls : List Str} (hp : Plain ls) {band : List ℚ} (hb : band.length ≤ n) :
    scanTable n ls band = none ↔ ∃ rows blank post counts, ls = rows ++ blank :: post ∧ Blank blank ∧
      List.Forall₂ RowCount rows counts ∧ band.length + counts.sum < n := by
  induction ls generalizing band with
  | nil => simp [scanTable]
  | cons l ls ih =>
    have hl := hp l (by simp)
    have hp' : Plain ls := fun l hl => hp l (by simp [hl])
    rw [scanTable]
    by_cases hw : words l = []
    · rw [if_pos hw]
      constructor
      · intro h
        refine ⟨[], l, ls, [], rfl, words_nil_blank hl hw, .nil, ?_⟩
        by_cases hc : band.length = n
        · simp [hc] at h
        · simp
          omega
      · rintro ⟨rows, blank, post, counts, e, -, h2, h3⟩
        cases h2 with
        | nil => rw [if_neg (by simp at h3; omega)]
        | @cons r k rows counts hr _ =>
          simp only [List.cons_append, List.cons.injEq] at e
          rw [← e.1] at hr
          exact absurd hw (rowCount_modeLine hr (band := band) (n := band.length + k) le_rfl).1
    · rw [if_neg hw]
      constructor
      · intro h
        cases hm : modeLine n (words l) band with
        | error e => rw [hm] at h; simp at h
        | ok b =>
          rw [hm] at h
          obtain ⟨k, hk, e1, e2⟩ := modeLine_count hl hb hm
          obtain ⟨rows, blank, post, counts, e, h1, h2, h3⟩ := (ih hp' e2).1 h
          exact ⟨l :: rows, blank, post, k :: counts, by rw [e]; rfl, h1, .cons hk h2, by
            rw [List.sum_cons]; omega⟩
      · rintro ⟨rows, blank, post, counts, e, h1, h2, h3⟩
        cases h2 with
        | nil =>
          simp only [List.nil_append, List.cons.injEq] at e
          rw [e.1] at hw
          exact absurd (blank_words h1) hw
        | @cons r k rows counts hr hrs =>
          simp only [List.cons_append, List.cons.injEq] at e
          rw [← e.1] at hr
          rw [List.sum_cons] at h3
          obtain ⟨-, b, hm, hlen⟩ := rowCount_modeLine hr (band := band) (n := n) (by omega)
          rw [hm]
          simp only
          rw [ih hp' (by omega)]
          exact ⟨rows, blank, post, counts, e.2, h1, hrs, by omega⟩

theorem words_nil_space {l : Str} (h : words l = []) : ∀ c ∈ l, isSpace c = true := by
  induction l with
  | nil => simp
  | cons x l ih =>
    by_cases hx : isSpace x = true
    · rw [words_space_cons hx] at h
      intro c hc
      rcases List.mem_cons.1 hc with rfl | hc
      · exact hx
      · exact ih h c hc
    · exfalso
      rw [words, fields, if_neg hx] at h
      split at h <;> simp at h

theorem scanTable_white {n : ℕ} {ls : List Str} {band : List ℚ} (h : scanTable n ls band = none) :
    ∃ l ∈ ls, ∀ c ∈ l, c ∈ whitespace := by
  induction ls generalizing band with
  | nil => simp [scanTable] at h
  | cons l ls ih =>
    rw [scanTable] at h
    by_cases hw : words l = []
    · refine ⟨l, by simp, fun c hc => ?_⟩
      exact isSpace_iff.1 (words_nil_space hw c hc)
    · rw [if_neg hw] at h
      cases hm : modeLine n (words l) band with
      | error e => rw [hm] at h; simp at h
      | ok b =>
        rw [hm] at h
        obtain ⟨l', h1, h2⟩ := ih h
        exact ⟨l', by simp [h1], h2⟩

theorem phononsFrom_none {data : List Str} {n q : ℕ} {rest : List Str} {i : ℕ}
    (hr : data.drop i = rest) {bands : List (List ℚ)}
    (h : phononsFrom (data.length + 2) data n q i rest bands = none) :
    ∃ k l, data[k]? = some l ∧ frequencyHeader <:+: l ∧ scanTable n (data.drop (k + 2)) [] = none := by
  induction rest generalizing i bands with
  | nil => simp [phononsFrom] at h
  | cons l rest ih =>
    obtain ⟨h1, h2⟩ := drop_head hr
    rw [phononsFrom] at h
    by_cases hl : hasSub frequencyHeader l = true
    · rw [if_pos hl] at h
      cases hs : scanTable n (data.drop (i + 2)) [] with
      | none => exact ⟨i, l, h1, hasSub_iff.1 hl, hs⟩
      | some r =>
        have hb := bandLoop_some (k := 0) (i := i) rfl hs (fuel := data.length + 2)
          (by simp)
        rw [hb] at h
        cases r with
        | error e => simp at h
        | ok band =>
          simp only at h
          split at h
          · simp at h
          · exact ih h2 h
    · rw [if_neg hl] at h
      exact ih h2 h

/-! ### The whole file -/

theorem loadCell_gamma {ls : List Str} {atoms : List (ℤ × (Fin 3 → ℚ))} {M : Matrix (Fin 3) (Fin 3) ℚ}
    {e : ℚ} (h : GammaCell ls atoms M e) :
    loadCell ls = .ok { PhononReader.empty with
      scelphonoOn := ls.any (hasSub scelphonoOption)
      unitcell := ⟨atoms.map (·.1), atoms.map (·.2), M⟩
      supercell := ⟨atoms.map (·.1), atoms.map (·.2), M⟩
      mesh := ⟨[![0, 0, 0]], [1], 1⟩
      rawEnergy := e } := by
  obtain ⟨-, h1, h2, h3⟩ := h
  have hs : ls.any (hasSub supercellOption) = false := by
    rw [Bool.eq_false_iff]
    exact fun hh => h1 (any_contains.1 hh)
  simp only [loadCell, hs, Bool.false_eq_true, if_false, loadUnitcell, setWfCell_ok h2, ok_bind,
    setEnergy_ok h3]
  rfl

theorem loadPhonon_cell {ls : List Str} {text : Str} (hf : IsText ls text) (hq : IsFrequency ls)
    {r : PhononReader} (hr : loadCell ls = .ok r) (fuel : ℕ) :
    loadPhonon fuel text = match phononsFrom fuel ls r.nphonon r.qpoints 0 ls [] with
      | none => none
      | some (.error e) => some (.error e)
      | some (.ok bands) => some ({ r with phonons := bands }.check) := by
  rw [loadPhonon_text hf, loadPhononLines, if_neg, hr]
  · rfl
  · have := any_contains.2 hq
    rw [frequencyCalculation, this]
    simp

end Verif.Interfaces
