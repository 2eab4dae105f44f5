/-
What the exporter of elastic results loads and writes.
-/
import Verif.Export.ElasticSpec
import Verif.Export.ExporterLemmas
import Verif.Polar.Units

noncomputable section

namespace Verif.Export
open Verif.Py Verif.IO Verif.IO.Spec Verif.Interfaces Verif.Phonon Verif.Polar Spec

/-! ### The dictionary -/

/-- The keys after an assignment. -/
def addKey (ks : List Str) (k : Str) : List Str := if k ∈ ks then ks else ks ++ [k]

theorem assign_keys {α : Type} (d : List (Str × α)) (k : Str) (a : α) :
    (assign d k a).map Prod.fst = addKey (d.map Prod.fst) k := by
  unfold assign addKey
  split
  · rw [List.map_map]
    refine List.map_congr_left fun p _ => ?_
    simp only [Function.comp]
    split
    · rename_i h; exact h.symm
    · rfl
  · simp

theorem lookup_map_assign {α : Type} (d : List (Str × α)) (k : Str) (a : α) (k' : Str) :
    (d.map fun p => if p.1 = k then (k, a) else p).lookup k' =
      if k' = k then (if k ∈ d.map Prod.fst then some a else none) else d.lookup k' := by
  induction d with
  | nil => simp
  | cons p d ih =>
    obtain ⟨q, b⟩ := p
    rw [List.map_cons]
    by_cases hq : q = k
    · subst hq
      simp only [if_true, List.lookup_cons, List.map_cons, List.mem_cons, true_or]
      by_cases hk : k' = q
      · subst hk; simp
      · rw [show (k' == q) = false by simpa using hk]
        simp only [if_neg hk] at ih ⊢
        exact ih
    · simp only [if_neg hq, List.lookup_cons, List.map_cons, List.mem_cons]
      by_cases hk : k' = q
      · subst hk
        simp [hq]
      · rw [show (k' == q) = false by simpa using hk]
        rw [ih]
        have : ¬ k = q := fun h => hq h.symm
        simp only [this, false_or]

theorem lookup_none_of_keys {α : Type} {d : List (Str × α)} {k : Str} (h : k ∉ d.map Prod.fst) : d.lookup k = none := by
  induction d with
  | nil => rfl
  | cons p d ih =>
    simp only [List.map_cons, List.mem_cons, not_or] at h
    rw [List.lookup_cons, show (k == p.1) = false by simpa using h.1]
    exact ih h.2

theorem lookup_assign {α : Type} (d : List (Str × α)) (k : Str) (a : α) (k' : Str) :
    (assign d k a).lookup k' = if k' = k then some a else d.lookup k' := by
  unfold assign
  split
  · rename_i h
    rw [lookup_map_assign, if_pos h]
  · rename_i h
    rw [List.lookup_append]
    by_cases hk : k' = k
    · subst hk
      rw [lookup_none_of_keys h]
      simp
    · rw [if_neg hk, List.lookup_cons, show (k' == k) = false by simpa using hk]
      simp

theorem addKey_addKey (ks : List Str) (k : Str) : addKey (addKey ks k) k = addKey ks k := by
  unfold addKey
  split
  · rfl
  · simp

/-! ### Loading -/

/-- The sections as they are listed in the file. -/
def sectionList (waves : Bool) : List (Var × Plane) :=
  [(.E, .xy), (.E, .xz), (.E, .yz), (.G, .xy), (.G, .xz), (.G, .yz), (.LC, .xy), (.LC, .xz), (.LC, .yz),
   (.Nu, .xy), (.Nu, .xz), (.Nu, .yz)] ++ if waves then [(.waves, .xy), (.waves, .xz), (.waves, .yz)] else []

/-- Their names. -/
def sectionNames (waves : Bool) : List Str := (sectionList waves).map fun p => setName p.1 p.2

/-- A section in the file. -/
def sectionSet (punit : Str) (tab : Plane → Var → List (List ℚ)) (p : Var × Plane) : Str × Dataset :=
  (setName p.1 p.2, ⟨.mat (tab p.2 p.1), [(c!"unit", Polar.unitOf punit p.1)]⟩)

theorem insertByName_map {α β : Type} (f : α → β) (p : Str × α) (l : List (Str × α)) :
    insertByName (p.1, f p.2) (l.map fun q => (q.1, f q.2)) = (insertByName p l).map fun q => (q.1, f q.2) := by
  induction l with
  | nil => rfl
  | cons q l ih =>
    simp only [List.map_cons, insertByName]
    split
    · rfl
    · rw [List.map_cons, ih]

theorem byName_map {α β : Type} (f : α → β) (l : List (Str × α)) :
    byName (l.map fun q => (q.1, f q.2)) = (byName l).map fun q => (q.1, f q.2) := by
  induction l with
  | nil => rfl
  | cons p l ih =>
    simp only [byName, List.map_cons, List.foldr_cons] at ih ⊢
    rw [ih, insertByName_map]

/-- The data sets in order of creation. -/
def created (waves : Bool) : List (Str × (Fin 4 ⊕ Var × Plane)) :=
  [(c!"stiffness", .inl 0), (c!"compliance", .inl 1), (c!"averages", .inl 2), (c!"eigenvals", .inl 3)] ++
  [Plane.xy, .xz, .yz].flatMap fun k => (vars waves).map fun v => (setName v k, .inr (v, k))

theorem byName_created (waves : Bool) : byName (created waves) =
    [(c!"averages", .inl 2), (c!"compliance", .inl 1), (c!"eigenvals", .inl 3)] ++
    (sectionList waves).map (fun p => (setName p.1 p.2, .inr p)) ++ [(c!"stiffness", .inl 0)] := by
  cases waves <;> decide +kernel

theorem elasticFile_sets (punit : Str) (r : Results ℚ) (waves : Bool) (tab : Plane → Var → List (List ℚ))
    (hr : r.polar = sectionsOf waves tab) :
    (elasticFile (saveElastic punit r)).sets =
      [(c!"averages", ⟨.mat r.averages, [(c!"unit", punit)]⟩),
       (c!"compliance", ⟨.mat r.compliance, [(c!"unit", c!"TPa^-1")]⟩),
       (c!"eigenvals", ⟨.vec r.eigenvals, [(c!"unit", punit)]⟩)] ++
      (sectionList waves).map (sectionSet punit tab) ++
      [(c!"stiffness", ⟨.mat r.stiffness, [(c!"unit", punit)]⟩)] := by
  let g : Fin 4 ⊕ Var × Plane → Dataset := fun t => match t with
    | .inl i => match i with
      | 0 => ⟨.mat r.stiffness, [(c!"unit", punit)]⟩
      | 1 => ⟨.mat r.compliance, [(c!"unit", c!"TPa^-1")]⟩
      | 2 => ⟨.mat r.averages, [(c!"unit", punit)]⟩
      | 3 => ⟨.vec r.eigenvals, [(c!"unit", punit)]⟩
    | .inr p => (sectionSet punit tab p).2
  have h1 : (elasticFile (saveElastic punit r)).sets = byName ((created waves).map fun q => (q.1, g q.2)) := by
    unfold elasticFile saveElastic
    rw [hr]
    refine congrArg byName ?_
    cases waves <;> rfl
  rw [h1, byName_map, byName_created]
  simp only [List.map_append, List.map_cons, List.map_nil, List.map_map]
  rfl

theorem loadSections_skip (key : Str) (ds : Dataset) (rest : List (Str × Dataset)) (keys : List Str) (d : Data)
    (h : hasSub c!"polar_" key = false) : loadSections ((key, ds) :: rest) keys d = loadSections rest keys d := by
  rw [loadSections, h]; rfl

/-- The entry of a section in the dictionary. -/
def sectionEntry (punit : Str) (tab : Plane → Var → List (List ℚ)) (p : Var × Plane) : Entry :=
  { values := some (.mat (tab p.2 p.1)), unit := some (Polar.unitOf punit p.1) }

theorem setName_polar (v : Var) (k : Plane) : hasSub c!"polar_" (setName v k) = true := by
  cases v <;> cases k <;> decide

theorem loadSections_sections (punit : Str) (tab : Plane → Var → List (List ℚ)) (ps : List (Var × Plane))
    (rest : List (Str × Dataset)) (keys : List Str) (d : Data) :
    loadSections (ps.map (sectionSet punit tab) ++ rest) keys d =
      loadSections rest
        (ps.foldl (fun keys p => if hasSub c!"waves" (setName p.1 p.2) && !keys.contains c!"waves" then keys ++ [c!"waves"] else keys) keys)
        (ps.foldl (fun d p => assign (assign (assign d (setName p.1 p.2) {}) (setName p.1 p.2)
          { values := some (.mat (tab p.2 p.1)) }) (setName p.1 p.2) (sectionEntry punit tab p)) d) := by
  induction ps generalizing keys d with
  | nil => rfl
  | cons p ps ih =>
    rw [List.map_cons, List.cons_append, sectionSet, loadSections, setName_polar, if_pos rfl]
    simp only [Values.slice, item, List.lookup_cons]
    rw [show (c!"unit" == c!"unit") = true from by decide]
    simp only
    rw [ih]
    rfl

theorem assigned_keys (punit : Str) (tab : Plane → Var → List (List ℚ)) (ps : List (Var × Plane)) (d : Data) :
    (ps.foldl (fun d p => assign (assign (assign d (setName p.1 p.2) {}) (setName p.1 p.2)
          { values := some (.mat (tab p.2 p.1)) }) (setName p.1 p.2) (sectionEntry punit tab p)) d).map Prod.fst =
      (ps.map fun p => setName p.1 p.2).foldl addKey (d.map Prod.fst) := by
  induction ps generalizing d with
  | nil => rfl
  | cons p ps ih =>
    rw [List.foldl_cons, ih, assign_keys, assign_keys, assign_keys, addKey_addKey, addKey_addKey]
    rfl

theorem setName_injective {v v' : Var} {k k' : Plane} (h : setName v k = setName v' k') : v = v' ∧ k = k' := by
  revert h
  cases v <;> cases k <;> cases v' <;> cases k' <;> decide

theorem assigned_lookup (punit : Str) (tab : Plane → Var → List (List ℚ)) (ps : List (Var × Plane)) (d : Data)
    (q : Var × Plane) (hq : q ∈ ps) :
    (ps.foldl (fun d p => assign (assign (assign d (setName p.1 p.2) {}) (setName p.1 p.2)
          { values := some (.mat (tab p.2 p.1)) }) (setName p.1 p.2) (sectionEntry punit tab p)) d).lookup
        (setName q.1 q.2) = some (sectionEntry punit tab q) := by
  have key : ∀ (ps : List (Var × Plane)) (d : Data), d.lookup (setName q.1 q.2) = some (sectionEntry punit tab q) →
      (ps.foldl (fun d p => assign (assign (assign d (setName p.1 p.2) {}) (setName p.1 p.2)
          { values := some (.mat (tab p.2 p.1)) }) (setName p.1 p.2) (sectionEntry punit tab p)) d).lookup
        (setName q.1 q.2) = some (sectionEntry punit tab q) := by
    intro ps
    induction ps with
    | nil => intro d h; exact h
    | cons p ps ih =>
      intro d h
      refine ih _ ?_
      rw [lookup_assign, lookup_assign, lookup_assign]
      split
      · rename_i e
        obtain ⟨e1, e2⟩ := setName_injective e
        have : q = p := Prod.ext e1 e2
        rw [this]
      · exact h
  induction ps generalizing d with
  | nil => cases hq
  | cons p ps ih =>
    rcases List.mem_cons.1 hq with rfl | hq
    · refine key ps _ ?_
      rw [lookup_assign, if_pos rfl]
    · exact ih _ hq

/-- What the exporter offers. -/
def offered (waves : Bool) : List Str := [c!"E", c!"LC", c!"G", c!"Nu"] ++ if waves then [c!"waves"] else []

theorem loadElastic_ok (punit : Str) (r : Results ℚ) (waves : Bool) (tab : Plane → Var → List (List ℚ))
    (hr : r.polar = sectionsOf waves tab) (d : Data) (filename : Str) :
    ∃ d', loadElastic d filename (elasticFile (saveElastic punit r)) =
        (d', .ok { basename := splitext filename, info := infoText punit, keys := offered waves }) ∧
      d'.map Prod.fst = (sectionNames waves).foldl addKey (d.map Prod.fst) ∧
      ∀ p ∈ sectionList waves, d'.lookup (setName p.1 p.2) = some (sectionEntry punit tab p) := by
  have hs := elasticFile_sets punit r waves tab hr
  have hstiff : (elasticFile (saveElastic punit r)).sets.lookup c!"stiffness" =
      some ⟨.mat r.stiffness, [(c!"unit", punit)]⟩ := by
    rw [hs]
    cases waves <;> rfl
  refine ⟨_, ?_, assigned_keys punit tab (sectionList waves) d, assigned_lookup punit tab (sectionList waves) d⟩
  unfold loadElastic
  have hi : item (elasticFile (saveElastic punit r)).attrs c!"info" = .ok (infoText punit) := rfl
  rw [hi]
  simp only [valuesOf, item, hstiff, Except.bind, Values.slice]
  rw [hs, List.append_assoc, List.cons_append, loadSections_skip _ _ _ _ _ (by decide), List.cons_append,
    loadSections_skip _ _ _ _ _ (by decide), List.cons_append, loadSections_skip _ _ _ _ _ (by decide),
    List.nil_append, loadSections_sections, loadSections_skip _ _ _ _ _ (by decide), loadSections]
  simp only [Except.map]
  cases waves <;> rfl

theorem loadElastic_foreign {f : H5} (h : Foreign f) (d : Data) (filename : Str) :
    (loadElastic d filename f).1 = d ∧ ∃ e err, (loadElastic d filename f).2 = .ok e ∧ e.error = some err := by
  unfold loadElastic
  cases hi : item f.attrs c!"info" with
  | error err => exact ⟨rfl, _, _, rfl, rfl⟩
  | ok info =>
    have hs : f.sets.lookup c!"stiffness" = none := by
      rcases h with h | h
      · rw [item, h] at hi; cases hi
      · exact h
    simp only [valuesOf, item, hs, Except.bind]
    exact ⟨trivial, _, _, rfl, rfl⟩

/-- The dictionary has no keys, those of the file without velocities, or those of the file with velocities. -/
def Keys (d : Data) : Prop :=
  d.map Prod.fst = [] ∨ d.map Prod.fst = sectionNames false ∨ d.map Prod.fst = sectionNames true

theorem keys_step {ks : List Str} (h : ks = [] ∨ ks = sectionNames false ∨ ks = sectionNames true) (waves : Bool) :
    (sectionNames waves).foldl addKey ks = sectionNames false ∧ waves = false ∨ (sectionNames waves).foldl addKey ks = sectionNames true := by
  rcases h with rfl | rfl | rfl <;> cases waves
  · exact .inl (by decide)
  · exact .inr (by decide)
  · exact .inl (by decide)
  · exact .inr (by decide)
  · exact .inr (by decide)
  · exact .inr (by decide)

theorem afterLoading_keys (history : List (Str × H5)) (h : ∀ p ∈ history, Foreign p.2 ∨ SavedElastic p.2) (d : Data)
    (hd : Keys d) : Keys (afterLoading d history) := by
  induction history generalizing d with
  | nil => exact hd
  | cons p history ih =>
    refine ih (fun q hq => h q (List.mem_cons_of_mem _ hq)) _ ?_
    rcases h p (by simp) with hf | ⟨punit, r, waves, tab, hr, hf⟩
    · rw [(loadElastic_foreign hf d p.1).1]
      exact hd
    · obtain ⟨d', e, k, -⟩ := loadElastic_ok punit r waves tab hr d p.1
      rw [hf, e]
      unfold Keys
      rw [k]
      rcases keys_step hd waves with ⟨e, -⟩ | e
      · exact .inr (.inl e)
      · exact .inr (.inr e)

/-! ### Gathering -/

theorem gather_filter (sel : Str) (d : Data) (first : Bool) (l : Option Locals) :
    gather sel d first l = gather sel (d.filter fun p => hasSub sel p.1) first l := by
  induction d generalizing first l with
  | nil => rfl
  | cons p d ih =>
    obtain ⟨key, e⟩ := p
    rw [List.filter_cons]
    by_cases h : hasSub sel key = true
    · rw [gather, if_pos h, if_pos h, gather, if_pos h]
      simp only [ih]
    · rw [gather, if_neg h, if_neg h, ih]

theorem key_mem_offered {waves : Bool} {v : Var} : v.key ∈ offered waves ↔ v ∈ vars waves := by
  cases waves <;> cases v <;> decide

theorem sectionNames_filter {waves : Bool} {v : Var} (hv : v ∈ vars waves) :
    (sectionNames waves).filter (fun k => hasSub v.key k) = [setName v .xy, setName v .xz, setName v .yz] := by
  cases waves <;> cases v <;> first | (exact absurd hv (by decide)) | decide

theorem sectionNames_nodup (waves : Bool) : (sectionNames waves).Nodup := by cases waves <;> decide

theorem sectionList_mem {waves : Bool} {v : Var} (hv : v ∈ vars waves) (k : Plane) : (v, k) ∈ sectionList waves := by
  revert hv; cases waves <;> cases v <;> cases k <;> decide

theorem vars_true {waves : Bool} {v : Var} (hv : v ∈ vars waves) : v ∈ vars true := by
  cases waves <;> cases v <;> first | (exact absurd hv (by decide)) | decide

theorem filter_lookup {d : Data} (hn : (d.map Prod.fst).Nodup) {sel : Str} {ks : List Str} {f : Str → Entry}
    (hk : (d.map Prod.fst).filter (fun k => hasSub sel k) = ks) (hl : ∀ k ∈ ks, d.lookup k = some (f k)) :
    d.filter (fun p => hasSub sel p.1) = ks.map fun k => (k, f k) := by
  have h1 : (d.filter fun p => hasSub sel p.1).map Prod.fst = ks := by
    rw [← hk, List.filter_map]; rfl
  rw [← h1] at hl ⊢
  rw [List.map_map]
  conv_lhs => rw [← List.map_id (d.filter _)]
  refine List.map_congr_left fun p hp => ?_
  have h2 := hl p.1 (List.mem_map.2 ⟨p, hp, rfl⟩)
  rw [lookup_of_mem hn (key := p.1) (a := p.2) (List.mem_of_mem_filter hp)] at h2
  exact Prod.ext rfl (Option.some.inj h2)

/-- The rows of the tables of a quantity. -/
def rowsAt (n : ℕ) (angles : List ℚ) (values : ℕ → List ℚ) : List (List ℚ) :=
  (List.range n).map fun i : ℕ => angles.getD i 0 :: values i

theorem table_eq_rows {v : Var} {n : ℕ} {angles : List ℚ} {values : Plane → ℕ → List ℚ} {tab : Plane → List (List ℚ)}
    (h : SectionTables v n angles values tab) (k : Plane) : tab k = rowsAt n angles (values k) := by
  obtain ⟨h1, -, h2⟩ := h
  obtain ⟨h3, h4⟩ := h2 k
  refine List.ext_getElem? fun i => ?_
  by_cases hi : i < n
  · rw [h4 i (angles[i]'(h1 ▸ hi)) (List.getElem?_eq_getElem _)]
    simp [rowsAt, hi, h1]
  · rw [List.getElem?_eq_none (by omega), List.getElem?_eq_none (by simp [rowsAt]; omega)]

theorem gather_three {v : Var} {d : Data} {k1 k2 k3 : Str} {n : ℕ} {angles : List ℚ} {a b c : ℕ → List ℚ} {unit : Str}
    {u2 u3 : Option Str} (ha : angles.length = n)
    (h : d.filter (fun p => hasSub v.key p.1) =
      [(k1, { values := some (.mat (rowsAt n angles a)), unit := some unit }),
       (k2, { values := some (.mat (rowsAt n angles b)), unit := u2 }),
       (k3, { values := some (.mat (rowsAt n angles c)), unit := u3 })]) (l : Option Locals) :
    gather v.key d true l = .ok (some ⟨angles, (List.range n).map fun i : ℕ => a i ++ b i ++ c i, unit⟩) := by
  have hk : ∀ p ∈ d.filter (fun p => hasSub v.key p.1), hasSub v.key p.1 = true := fun p hp => (List.mem_filter.1 hp).2
  rw [h] at hk
  have s1 : hasSub v.key k1 = true := hk _ (List.mem_cons_self ..)
  have s2 : hasSub v.key k2 = true := hk _ (List.mem_cons_of_mem _ (List.mem_cons_self ..))
  have s3 : hasSub v.key k3 = true := hk _ (List.mem_cons_of_mem _ (List.mem_cons_of_mem _ (List.mem_cons_self ..)))
  rw [gather_filter, h]
  have hd : (List.range n).map (fun i : ℕ => angles.getD i 0) = angles := by
    refine List.ext_getElem? fun i => ?_
    by_cases hi : i < n
    · simp [hi, ha]
    · rw [List.getElem?_eq_none (by simp; omega), List.getElem?_eq_none (by omega)]
  have he : (rowsAt n angles a).any (·.isEmpty) = false := by
    simp [rowsAt]
  have hz : ∀ f g : ℕ → List ℚ, List.zipWith (· ++ ·) ((List.range n).map f) ((List.range n).map g) =
      (List.range n).map fun i => f i ++ g i := by
    intro f g
    rw [List.zipWith_map]
    refine List.ext_getElem? fun i => ?_
    by_cases hi : i < n <;> simp [hi]
  simp only [gather, s1, s2, s3, if_true, known, Except.bind, splitColumns, he, dropColumn, hstack]
  simp only [rowsAt, List.map_map, Function.comp_def, List.headD_cons, List.tail_cons, List.length_map, if_true,
    Bool.false_eq_true, if_false, hd, hz]

end Verif.Export
