/-
The lines of the generated phonon inputs are YAML.
-/
import Verif.Phonon.WriterLemmas

namespace Verif.Phonon
open Verif.Py Verif.IO Verif.IO.Spec Verif.Interfaces Spec

/-! ### Lines contain no newlines -/

theorem newline_spaces {s : Str} (h : Spaces s) : '\n' ∉ s := fun hm => absurd (h _ hm) (by decide)

theorem newline_digits {s : Str} (h : Digits s) : '\n' ∉ s := fun hm => absurd (h _ hm) (by decide)

theorem newline_sign {s : Str} {f : ℤ} (h : Sign s f) : '\n' ∉ s := by
  rcases h with ⟨rfl, _⟩ | ⟨rfl, _⟩ | ⟨rfl, _⟩ <;> decide

theorem newline_plain {s : Str} (h : Plain s) : '\n' ∉ s := by
  intro hm
  rcases h.2.1 _ hm with h | h | h | h | h <;> revert h <;> decide

theorem newline_indent (n : ℕ) : '\n' ∉ indent n := newline_spaces (spaces_replicate n)

theorem newline_scalar {s : Str} {x : Node} (h : Scalar s x) : '\n' ∉ s := by
  cases h with
  | null => simp
  | int h1 h2 => simp [newline_sign h1, newline_digits h2]
  | float h1 h2 _ h4 h5 =>
    have hx : ∀ {x : Str} {e : ℤ}, FloatExponent x e → '\n' ∉ x := by
      rintro x e (⟨rfl, _⟩ | ⟨c, sgn, f, ds, hc, _, h1, h2, _, rfl, _⟩)
      · simp
      · have : '\n' ≠ c := by rcases hc with rfl | rfl <;> decide
        simp [newline_sign h1, newline_digits h2, this]
    simp [newline_sign h1, newline_digits h2, newline_digits h4, hx h5]
  | text h => exact newline_plain h

theorem newline_flow {s : Str} {xs : List Node} (h : FlowItems s xs) : '\n' ∉ s := by
  induction h with
  | one h1 h2 _ h3 => simp [newline_spaces h1, newline_spaces h2, newline_scalar h3]
  | cons h1 h2 _ h3 _ ih => simp [newline_spaces h1, newline_spaces h2, newline_scalar h3, ih]

theorem newline_value {s : Str} {x : Node} (h : Value s x) : '\n' ∉ s := by
  cases h with
  | scalar h1 h2 h3 => simp [newline_spaces h1, newline_spaces h2, newline_scalar h3]
  | flow h1 h2 h3 => simp [newline_spaces h1, newline_spaces h2, newline_flow h3]

mutual

theorem newline_block {n : ℕ} {ls : List Str} {es : List (Str × Node)} (h : Block n ls es) :
    ∀ l ∈ ls, '\n' ∉ l := by
  match h with
  | .nil => simp
  | .empty h1 h2 =>
    intro l hl
    rcases List.mem_cons.1 hl with rfl | hl
    · exact newline_spaces h1
    · exact newline_block h2 l hl
  | .entry h1 h2 h3 =>
    intro l hl
    rcases List.mem_cons.1 hl with rfl | hl
    · simp [newline_indent, newline_plain h1.1, newline_value h2]
    · exact newline_block h3 l hl
  | .sequence h1 h2 h3 =>
    intro l hl
    rcases List.mem_append.1 hl with hl | hl
    · rcases List.mem_cons.1 hl with rfl | hl
      · simp [newline_indent, newline_plain h1.1]
      · exact newline_items h2 l hl
    · exact newline_block h3 l hl

theorem newline_items {n : ℕ} {ls : List Str} {xs : List Node} (h : Items n ls xs) :
    ∀ l ∈ ls, '\n' ∉ l := by
  match h with
  | .nil => simp
  | .empty h1 h2 =>
    intro l hl
    rcases List.mem_cons.1 hl with rfl | hl
    · exact newline_spaces h1
    · exact newline_items h2 l hl
  | .value h1 h2 =>
    intro l hl
    rcases List.mem_cons.1 hl with rfl | hl
    · simp [newline_indent, newline_value h1]
    · exact newline_items h2 l hl
  | .mapping h1 h2 h3 h4 =>
    intro l hl
    rcases List.mem_append.1 hl with hl | hl
    · rcases List.mem_cons.1 hl with rfl | hl
      · simp [newline_indent, newline_plain h1.1, newline_value h2]
      · exact newline_block h3 l hl
    · exact newline_items h4 l hl
  | .comment h1 h2 h3 =>
    intro l hl
    rcases List.mem_append.1 hl with hl | hl
    · rcases List.mem_cons.1 hl with rfl | hl
      · simp [newline_indent, h1]
      · exact newline_block h2 l hl
    · exact newline_items h3 l hl

end

/-! ### Values -/

theorem flow_pad {g s : Str} {xs : List Node} (hg : Spaces g) (h : FlowItems s xs) :
    FlowItems (g ++ s) xs := by
  have hga : ∀ {a : Str}, Spaces a → Spaces (g ++ a) := fun ha c hc =>
    (List.mem_append.1 hc).elim (hg c) (ha c)
  cases h with
  | one h1 h2 h3 h4 => simpa using FlowItems.one (hga h1) h2 h3 h4
  | cons h1 h2 h3 h4 h5 => simpa using FlowItems.cons (hga h1) h2 h3 h4 h5

/-- What a format writes: spaces and a scalar. -/
def Writes (s : Str) (x : Node) : Prop := ∃ p t, Spaces p ∧ t ≠ [] ∧ s = p ++ t ∧ Scalar t x

theorem writes_right {w : ℕ} {s : Str} {x : Node} (h : Writes s x) : Writes (alignRight w s) x := by
  obtain ⟨p, t, hp, ht, rfl, hs⟩ := h
  refine ⟨List.replicate (w - (p ++ t).length) ' ' ++ p, t, ?_, ht, by simp [alignRight], hs⟩
  intro c hc
  exact (List.mem_append.1 hc).elim (spaces_replicate _ c) (hp c)

theorem writes_int (w : ℕ) (n : ℤ) : Writes (alignRight w (showInt n)) (.int n) :=
  writes_right ⟨[], _, spaces_nil, showInt_ne n, rfl, showInt_scalar n⟩

theorem writes_fixed (w d : ℕ) (x : ℚ) : Writes (alignRight w (formatFixed d x)) (.float (printed d x)) :=
  writes_right ⟨[], _, spaces_nil, formatFixed_ne d x, rfl, formatFixed_scalar d x⟩

theorem writes_sci (w d : ℕ) (x : ℚ) : Writes (alignRight w (formatSci d x)) (.float (printedSci d x)) :=
  writes_right (formatSci_scalar d x)

theorem flow_one {s : Str} {x : Node} (h : Writes s x) : FlowItems (s ++ [' ']) [x] := by
  obtain ⟨p, t, hp, ht, rfl, hs⟩ := h
  exact .one hp spaces_one ht hs

theorem flow_cons {s rest : Str} {x : Node} {xs : List Node} (h : Writes s x) (hr : FlowItems rest xs) :
    FlowItems (s ++ ',' :: rest) (x :: xs) := by
  obtain ⟨p, t, hp, ht, rfl, hs⟩ := h
  simpa using FlowItems.cons hp spaces_nil ht hs hr

theorem items_flow {f : ℚ → Str} {g : ℚ → Node} {gap : Str} (hg : Spaces gap)
    (hf : ∀ x, Writes (f x) (g x)) : ∀ (xs : List ℚ), xs ≠ [] →
    ∃ body, items f (',' :: gap) xs = body ++ [']'] ∧ FlowItems body (xs.map g)
  | [], h => absurd rfl h
  | [x], _ => ⟨f x ++ [' '], by simp [items], flow_one (hf x)⟩
  | x :: y :: rest, _ => by
    obtain ⟨body, h1, h2⟩ := items_flow hg hf (y :: rest) (by simp)
    refine ⟨f x ++ ',' :: (gap ++ body), ?_, flow_cons (hf x) (flow_pad hg h2)⟩
    rw [items, h1]
    simp

theorem items_value {f : ℚ → Str} {g : ℚ → Node} {gap : Str} (hg : Spaces gap)
    (hf : ∀ x, Writes (f x) (g x)) {xs : List ℚ} (hx : xs ≠ []) :
    Value ('[' :: ' ' :: items f (',' :: gap) xs) (.list (xs.map g)) := by
  obtain ⟨body, h1, h2⟩ := items_flow hg hf xs hx
  rw [h1]
  simpa using Value.flow spaces_nil spaces_nil (flow_pad spaces_one h2)

theorem triple_value {a b c : Str} {x y z : Node} (ha : Writes a x) (hb : Writes b y) (hc : Writes c z) :
    Value (c!"[ " ++ a ++ c!", " ++ b ++ c!", " ++ c ++ c!" ]") (.list [x, y, z]) := by
  have h := flow_pad spaces_one
    (flow_cons ha (flow_pad spaces_one (flow_cons hb (flow_pad spaces_one (flow_one hc)))))
  simpa using Value.flow spaces_nil spaces_nil h

theorem left_value {s : Str} {x : Node} (w : ℕ) {g : Str} (hg : Spaces g) (h : Scalar s x) :
    Value (g ++ alignLeft w s) x := by
  simpa [alignLeft] using Value.scalar hg (spaces_replicate (w - s.length)) h

theorem plain_value {s : Str} {x : Node} (h : Scalar s x) : Value s x := by
  simpa using Value.scalar spaces_nil spaces_nil h

/-! ### The lines -/

theorem block_append {n : ℕ} {ls ls' : List Str} {k v : Str} {x : Node} {es : List (Str × Node)}
    (hk : Key k) (hv : Value v x) (hl : ls = [indent n ++ k ++ ':' :: ' ' :: v]) (h : Block n ls' es) :
    Block n (ls ++ ls') ((k, x) :: es) := by
  subst hl
  exact .entry hk hv h

/-- The tree of a row of the expansion matrix. -/
def rowNode (row : Fin 3 → ℚ) : Node :=
  .list [.int (truncate (row 0)), .int (truncate (row 1)), .int (truncate (row 2))]

/-- The tree of a list of frequencies, volumes or coordinates with `d` decimals. -/
def fixedNode (d : ℕ) (xs : List ℚ) : Node := .list (xs.map fun x => .float (printed d x))

/-- The tree of the energies. -/
noncomputable def sciNode (d : ℕ) (xs : List ℚ) : Node := .list (xs.map fun x => .float (printedSci d x))

/-- The tree of a band. -/
def bandNode (freqs : List ℚ) : Node := .map [(c!"frequency", fixedNode 10 freqs)]

/-- The tree of a q-point. -/
def qpointNode (x s : Fin 3 → ℚ) (weight : ℚ) (bands : List (List ℚ)) : Node :=
  .map [(c!"q-position", fixedNode 7 [x 0 / s 0, x 1 / s 1, x 2 / s 2]),
    (c!"weight", .int (truncate weight)), (c!"band", .list (bands.map bandNode))]

theorem key_of {k : Str} (h : (∀ c ∈ k, c ∈ letters ∨ c = '-')) (h0 : ∃ c r, k = c :: r ∧ c ∈ letters)
    (hr : k ∉ reserved) : Key k := by
  have hs : ' ' ∉ k := by
    intro hm
    rcases h _ hm with h | h <;> revert h <;> decide
  refine ⟨⟨h0, fun c hc => ?_, fun hl => hs (List.mem_of_getLast? hl), hr⟩, hs⟩
  rcases h c hc with h | h
  · exact .inl h
  · exact .inr (.inr (.inl h))

theorem dim_items (row : Fin 3 → ℚ) {ls : List Str} {xs : List Node} (h : Items 0 ls xs) :
    Items 0 (dimLine row :: ls) (rowNode row :: xs) := by
  have hv := triple_value (writes_int 6 (truncate (row 0))) (writes_int 6 (truncate (row 1)))
    (writes_int 6 (truncate (row 2)))
  simpa [indent, dimLine, rowNode] using Items.value (n := 0) hv h

theorem band_items {j : ℕ} {freqs : List ℚ} (hf : freqs ≠ []) {ls : List Str} {xs : List Node}
    (h : Items 2 ls xs) : Items 2 (bandLines j freqs ++ ls) (bandNode freqs :: xs) := by
  have hv : Value ('[' :: ' ' :: items freqItem c!", " freqs) (fixedNode 10 freqs) :=
    items_value spaces_one (writes_fixed 16 10) hf
  have hb := Block.entry (n := 4) (k := c!"frequency") (ls := []) (es := [])
    (key_of (by decide) ⟨_, _, rfl, by decide⟩ (by decide)) hv .nil
  have ht : '\n' ∉ (' ' :: showNat (j + 1)) := by
    simp [newline_digits (showNat_spec (j + 1)).1]
  have := Items.comment (n := 2) ht hb h
  simpa [bandLines, bandNode, indent, List.replicate] using this

theorem bands_items : ∀ (bs : List (List ℚ)) (j : ℕ), (∀ f ∈ bs, f ≠ []) →
    Items 2 ((bs.mapIdx fun k f => bandLines (j + k) f).flatten) (bs.map bandNode)
  | [], _, _ => by simpa using Items.nil
  | f :: bs, j, h => by
    have ih := bands_items bs (j + 1) fun f hf => h f (by simp [hf])
    have := band_items (j := j) (h f (by simp)) ih
    simpa [List.mapIdx_cons, Nat.add_assoc, Nat.add_comm 1] using this

theorem point_items {x s : Fin 3 → ℚ} {w : ℚ} {bs : List (List ℚ)} (hb : ∀ f ∈ bs, f ≠ [])
    (h0 : bs ≠ []) {ls : List Str} {xs : List Node} (h : Items 0 ls xs) :
    Items 0 (pointHead x s w ++ (bs.mapIdx bandLines).flatten ++ [[]] ++ ls)
      (qpointNode x s w bs :: xs) := by
  have hbi := bands_items bs 0 hb
  obtain ⟨b, bs', rfl⟩ := List.exists_cons_of_ne_nil h0
  have hq : Value (c!"[ " ++ coordItem (x 0) (s 0) ++ c!", " ++ coordItem (x 1) (s 1) ++ c!", " ++
      coordItem (x 2) (s 2) ++ c!" ]") (fixedNode 7 [x 0 / s 0, x 1 / s 1, x 2 / s 2]) :=
    triple_value (writes_fixed 12 7 _) (writes_fixed 12 7 _) (writes_fixed 12 7 _)
  have hw : Value (alignLeft 5 (showInt (truncate w))) (.int (truncate w)) :=
    left_value (g := []) 5 spaces_nil (showInt_scalar _)
  have h1 := Block.sequence (n := 2) (k := c!"band") (ls' := [[]]) (es := [])
    (key_of (by decide) ⟨_, _, rfl, by decide⟩ (by decide)) hbi (.empty spaces_nil .nil)
  have h2 := Block.entry (n := 2) (k := c!"weight")
    (key_of (by decide) ⟨_, _, rfl, by decide⟩ (by decide)) hw h1
  have h3 := Items.mapping (n := 0) (k := c!"q-position")
    (key_of (by decide) ⟨_, _, rfl, by decide⟩ (by decide)) hq h2 h
  simpa [pointHead, qpointNode, indent, List.replicate] using h3

end Verif.Phonon
