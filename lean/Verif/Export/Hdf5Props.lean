/-
C54: what the reader of result files answers.
-/
import Verif.Export.Hdf5
import Verif.Interfaces.CrystalLemmas

noncomputable section

namespace Verif.Export
open Verif.Py Verif.IO Verif.Interfaces Verif.Phonon

/-- Names are unique in a file. -/
structure H5.Valid (f : H5) : Prop where
  sets : (f.sets.map Prod.fst).Nodup
  attrs : ∀ s ∈ f.sets, (s.2.attrs.map Prod.fst).Nodup

/-- The file has no data set of this name. -/
def Absent {α : Type} (d : List (Str × α)) (key : Str) : Prop := ∀ p ∈ d, p.1 ≠ key

theorem lookup_of_mem {α : Type} {d : List (Str × α)} (hd : (d.map Prod.fst).Nodup) {key : Str} {a : α}
    (h : (key, a) ∈ d) : d.lookup key = some a := by
  induction d with
  | nil => simp at h
  | cons p d ih =>
    obtain ⟨k, b⟩ := p
    simp only [List.map_cons, List.nodup_cons] at hd
    rcases List.mem_cons.1 h with h | h'
    · cases h; simp
    · have : key ≠ k := by
        rintro rfl
        exact hd.1 (List.mem_map.2 ⟨(key, a), h', rfl⟩)
      rw [List.lookup_cons, show (key == k) = false by simpa using this]
      exact ih hd.2 h'

theorem lookup_absent {α : Type} {d : List (Str × α)} {key : Str} (h : Absent d key) :
    d.lookup key = none := by
  induction d with
  | nil => rfl
  | cons p d ih =>
    have : key ≠ p.1 := fun e => h p (by simp) e.symm
    rw [List.lookup_cons, show (key == p.1) = false by simpa using this]
    exact ih fun q hq => h q (by simp [hq])

theorem position_nonneg {n : ℕ} {i : ℕ} (h : i < n) : position n i = some i := by
  simp [position, h]

theorem position_neg {n i : ℕ} (h : 0 < i) (h' : i ≤ n) : position n (-(i : ℤ)) = some (n - i) := by
  unfold position
  rw [if_neg (by omega), if_pos (by omega)]
  congr 1
  omega

/-- C54: a data set that is in the file is returned unchanged. -/
theorem C54_data {f : H5} (hf : f.Valid) {key : Str} {d : Dataset} (h : (key, d) ∈ f.sets) :
    getData f key = .ok (.value d.values) ∧ hasData f key = .true := by
  have := lookup_of_mem hf.sets h
  simp [getData, hasData, hasDataset, item, this, Except.map]

/-- C54: an attribute that is in the file is returned unchanged. -/
theorem C54_attribute {f : H5} (hf : f.Valid) {key attr v : Str} {d : Dataset} (h : (key, d) ∈ f.sets)
    (ha : (attr, v) ∈ d.attrs) : getAttribute f key attr = .ok (.value v) := by
  have h1 := lookup_of_mem hf.sets h
  have h2 := lookup_of_mem (hf.attrs _ h) ha
  simp [getAttribute, hasDataset, hasAttribute, item, h1, h2, Except.map, Except.bind, Check.truthy]

/-- C54: a name that is not in the file is answered with the message, whether all of the data set, a
column or a row is asked for. -/
theorem C54_missing (errs : H5Errors) {f : H5} {key : Str} (h : Absent f.sets key) (n : ℤ) :
    getData f key = .ok (.message (c!"Dataset '" ++ key ++ c!"' not found")) ∧
    getDataColumn errs f key n = .ok (.message (c!"Dataset '" ++ key ++ c!"' not found")) ∧
    getDataRow errs f key n = .ok (.message (c!"Dataset '" ++ key ++ c!"' not found")) ∧
    hasData f key = .text (c!"Dataset '" ++ key ++ c!"' not found") := by
  have := lookup_absent h
  simp [getData, getDataColumn, getDataRow, hasData, hasDataset, this]

/-- C54: a column of a matrix is returned as it is, counted from the first or, when the index is
negative, from the last column. -/
theorem C54_column (errs : H5Errors) {f : H5} (hf : f.Valid) {key : Str} {attrs : List (Str × Str)}
    {m n : ℕ} {z : Fin m → Fin n → ℚ}
    (h : (key, ⟨.mat (List.ofFn fun i => List.ofFn (z i)), attrs⟩) ∈ f.sets) (j : Fin n) :
    getDataColumn errs f key j = .ok (.value (List.ofFn fun i => z i j)) ∧
    getDataColumn errs f key ((j : ℤ) - n) = .ok (.value (List.ofFn fun i => z i j)) := by
  have h1 := lookup_of_mem hf.sets h
  have e1 : position n (j : ℤ) = some j := position_nonneg j.2
  have e2 : position n ((j : ℤ) - n) = some j := by
    have hj := j.2
    have e : ((j : ℤ) - n) = -((n - j : ℕ) : ℤ) := by omega
    rw [e, position_neg (by omega) (by omega)]
    congr 1
    omega
  have key' : ∀ c : ℤ, position n c = some (j : ℕ) →
      (Values.mat (List.ofFn fun i => List.ofFn (z i))).column errs c = .ok (List.ofFn fun i => z i j) := by
    intro c hc
    rw [Values.column]
    have : List.ofFn (fun i => z i j) = (List.ofFn fun i => List.ofFn (z i)).map
        fun r : List ℚ => r[(j : ℕ)]?.getD 0 := by
      rw [List.map_ofFn]
      congr 1
      funext i
      simp
    rw [this]
    refine each_ok ?_
    rw [List.forall₂_map_right_iff]
    refine List.forall₂_same.2 fun r hr => ?_
    obtain ⟨i, rfl⟩ := (List.mem_ofFn' _ _).1 hr
    simp [hc, at_]
  constructor
  · simp [getDataColumn, hasDataset, item, h1, key' _ e1, Except.bind, exceptValueError]
  · simp [getDataColumn, hasDataset, item, h1, key' _ e2, Except.bind, exceptValueError]

/-- C54: a row of a matrix is returned as it is. -/
theorem C54_row (errs : H5Errors) {f : H5} (hf : f.Valid) {key : Str} {attrs : List (Str × Str)}
    {rows : List (List ℚ)} (h : (key, ⟨.mat rows, attrs⟩) ∈ f.sets) {i : ℕ} (hi : i < rows.length) :
    getDataRow errs f key i = .ok (.value (.vec rows[i])) ∧
    getDataRow errs f key ((i : ℤ) - rows.length) = .ok (.value (.vec rows[i])) := by
  have h1 := lookup_of_mem hf.sets h
  have e1 : position rows.length (i : ℤ) = some i := position_nonneg hi
  have e2 : position rows.length ((i : ℤ) - rows.length) = some i := by
    have e : ((i : ℤ) - rows.length) = -((rows.length - i : ℕ) : ℤ) := by omega
    rw [e, position_neg (by omega) (by omega)]
    congr 1
    omega
  constructor
  · simp [getDataRow, hasDataset, item, h1, Except.bind, exceptValueError, Values.row, e1, at_, hi,
      Except.map]
  · simp [getDataRow, hasDataset, item, h1, Except.bind, exceptValueError, Values.row, e2, at_, hi,
      Except.map]

theorem position_none {n : ℕ} {i : ℤ} (h : (n : ℤ) ≤ i ∨ i < -(n : ℤ)) : position n i = none := by
  unfold position
  rcases h with h | h
  · rw [if_pos (by omega), if_neg (by omega)]
  · rw [if_neg (by omega), if_neg (by omega)]

/-- C54: an index that is out of range is answered with the message if h5py raises ValueError for it. -/
theorem C54_index_partial (errs : H5Errors) (he : errs.range = .valueError) {f : H5} (hf : f.Valid)
    {key : Str} {attrs : List (Str × Str)} {m n : ℕ} {z : Fin (m + 1) → Fin n → ℚ}
    (h : (key, ⟨.mat (List.ofFn fun i => List.ofFn (z i)), attrs⟩) ∈ f.sets) {c : ℤ}
    (hc : (n : ℤ) ≤ c ∨ c < -(n : ℤ)) {r : ℤ} (hr : (m + 1 : ℤ) ≤ r ∨ r < -(m + 1 : ℤ)) :
    getDataColumn errs f key c = .ok (.message (c!"Index " ++ showInt c ++ c!" not available")) ∧
    getDataRow errs f key r = .ok (.message (c!"Index " ++ showInt r ++ c!" not available")) := by
  have h1 := lookup_of_mem hf.sets h
  have e1 := position_none hc
  have e2 : position (m + 1) r = none := position_none (by push_cast; exact hr)
  constructor
  · simp [getDataColumn, hasDataset, item, h1, Except.bind, exceptValueError, Values.column,
      List.ofFn_succ, each, e1, he, indexMessage]
  · have hl : (List.ofFn fun i => List.ofFn (z i)).length = m + 1 := by simp
    simp only [getDataRow, hasDataset, item, h1, Except.bind, Values.row, hl, e2, he, exceptValueError,
      indexMessage]

/-- C54, violated: h5py 3 raises IndexError for an index that is out of range, and the reader passes it
on instead of answering with the message. -/
theorem C54_index_violated (errs : H5Errors) (he : errs.range = .indexError) {f : H5} (hf : f.Valid)
    {key : Str} {attrs : List (Str × Str)} {m n : ℕ} {z : Fin (m + 1) → Fin n → ℚ}
    (h : (key, ⟨.mat (List.ofFn fun i => List.ofFn (z i)), attrs⟩) ∈ f.sets) {c : ℤ}
    (hc : (n : ℤ) ≤ c ∨ c < -(n : ℤ)) :
    getDataColumn errs f key c = .error .indexError := by
  have h1 := lookup_of_mem hf.sets h
  have e1 := position_none hc
  simp [getDataColumn, hasDataset, item, h1, Except.bind, exceptValueError, Values.column,
      List.ofFn_succ, each, e1, he]

/-- C54, violated: an attribute that is absent, or an attribute of a data set that is absent, is never
answered with the message: the message counts as true, and h5py raises KeyError. -/
theorem C54_attribute_violated {f : H5} {key attr : Str} :
    (Absent f.sets key → getAttribute f key attr = .error .keyError) ∧
    (∀ d, f.Valid → (key, d) ∈ f.sets → Absent d.attrs attr →
      getAttribute f key attr = .error .keyError) := by
  refine ⟨fun h => ?_, fun d hf h ha => ?_⟩
  · have := lookup_absent h
    simp [getAttribute, hasDataset, hasAttribute, item, this, Except.map, Except.bind, Check.truthy]
  · have h1 := lookup_of_mem hf.sets h
    have h2 := lookup_absent ha
    simp [getAttribute, hasDataset, hasAttribute, item, h1, h2, Except.map, Except.bind, Check.truthy]

/-- C54, violated: `has_data` counts as true for every name and every file. -/
theorem C54_has_data_violated (f : H5) (key : Str) : (hasData f key).truthy = true := by
  unfold hasData hasDataset
  split <;> simp [Check.truthy]

/-- C54, violated: the interactive export takes every name that is not a command, and a name that is not
in the file ends it with KeyError instead of the message. -/
theorem C54_export_violated {f : H5} {key : Str} (h : Absent f.sets key) (h1 : lower key ≠ c!"help")
    (h2 : lower key ≠ c!"quit") : select f key = .exporting key ∧ collect f key = .error .keyError := by
  refine ⟨by rw [select, if_neg h1, if_neg h2, C54_has_data_violated]; rfl, ?_⟩
  rw [collect, (C54_missing ⟨.valueError, .valueError⟩ h 0).1]
  have := (C54_attribute_violated (f := f) (key := key) (attr := c!"desc")).1 h
  simp [Except.bind, this]

/-- C54: the overview begins with the information of the file and names every data set. -/
theorem C54_info {f : H5} {info : Str} (h : f.attrs.lookup c!"info" = some info) :
    ∃ text, readInfo f = .ok text ∧ info <+: text ∧
      ∀ s ∈ f.sets, (s.1 ++ c!": ") <:+: text ∧
        ∀ u, (c!"unit", u) ∈ s.2.attrs → ('(' :: u ++ [')']) <:+: text := by
  have e : readInfo f = .ok (info ++ c!"\nAvailable data:\n" ++ f.sets.flatMap fun (key, d) =>
      listed key ++ (d.attrs.flatMap fun (a, v) =>
        if a = c!"unit" then '(' :: v ++ [')'] else v ++ [' ']) ++ ['\n']) := by
    simp only [readInfo, item, h, Except.map]
  refine ⟨_, e, ?_, ?_⟩
  · rw [List.append_assoc]
    exact ⟨_, rfl⟩
  · rintro ⟨key, d⟩ hs
    obtain ⟨a, b, e⟩ := List.append_of_mem hs
    constructor
    · refine List.IsInfix.trans ?_ (List.IsSuffix.isInfix (List.suffix_append _ _))
      rw [e, List.flatMap_append, List.flatMap_cons]
      refine List.IsInfix.trans ?_ (List.IsSuffix.isInfix (List.suffix_append _ _))
      refine List.IsInfix.trans ?_ (List.IsPrefix.isInfix (List.prefix_append _ _))
      refine List.IsInfix.trans ?_ (List.IsPrefix.isInfix (List.prefix_append _ _))
      refine List.IsInfix.trans ?_ (List.IsPrefix.isInfix (List.prefix_append _ _))
      rw [listed, alignRight, List.append_assoc]
      exact List.IsSuffix.isInfix (List.suffix_append _ _)
    · intro u hu
      obtain ⟨a', b', e'⟩ := List.append_of_mem hu
      simp only at e'
      refine List.IsInfix.trans ?_ (List.IsSuffix.isInfix (List.suffix_append _ _))
      rw [e, List.flatMap_append, List.flatMap_cons]
      refine List.IsInfix.trans ?_ (List.IsSuffix.isInfix (List.suffix_append _ _))
      refine List.IsInfix.trans ?_ (List.IsPrefix.isInfix (List.prefix_append _ _))
      simp only [e', List.flatMap_append, List.flatMap_cons, if_true]
      refine List.IsInfix.trans ?_ (List.IsPrefix.isInfix (List.prefix_append _ _))
      refine List.IsInfix.trans ?_ (List.IsSuffix.isInfix (List.suffix_append _ _))
      refine List.IsInfix.trans ?_ (List.IsSuffix.isInfix (List.suffix_append _ _))
      exact List.IsPrefix.isInfix (List.prefix_append _ _)

/-! ### A file -/

namespace Witness

/-- A file with a matrix of two rows. -/
def file : H5 := ⟨[(c!"info", c!"Quantas")],
  [(c!"S", ⟨.mat (List.ofFn fun i : Fin 2 => List.ofFn fun j : Fin 3 => (i : ℚ) + 2 * j),
    [(c!"unit", c!"mHa")]⟩), (c!"T", ⟨.vec [0, 100], [(c!"unit", c!"K")]⟩)]⟩

theorem file_valid : file.Valid := by
  refine ⟨by decide, fun s hs => ?_⟩
  simp only [file, List.mem_cons, List.not_mem_nil, or_false] at hs
  rcases hs with rfl | rfl <;> simp

example : getAttribute file c!"S" c!"unit" = .ok (.value c!"mHa") :=
  C54_attribute file_valid (List.mem_cons_self ..) (by simp)

example : Absent file.sets c!"Cv" := by
  intro p hp
  simp only [file, List.mem_cons, List.not_mem_nil, or_false] at hp
  rcases hp with rfl | rfl <;> decide

example : getDataColumn ⟨.valueError, .valueError⟩ file c!"S" (1 : Fin 3) =
    .ok (.value (List.ofFn fun i : Fin 2 => (i : ℚ) + 2 * ((1 : Fin 3) : ℕ))) :=
  (C54_column (n := 3) _ file_valid (z := fun i j => (i : ℚ) + 2 * (j : ℕ)) (List.mem_cons_self ..) 1).1

end Witness

end Verif.Export
