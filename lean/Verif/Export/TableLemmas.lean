/-
What the writer of tables writes.
-/
import Verif.Export.Table
import Verif.Export.TableSpec
import Verif.Phonon.WriterLemmas

noncomputable section

namespace Verif.Export
open Verif.Py Verif.IO Verif.IO.Spec Verif.Interfaces Verif.Phonon Spec

/-! ### Sequences of writes -/

theorem writeAll_ok (ss : List Str) (rest : List (Except PyErr Str)) :
    writeAll (ss.map .ok ++ rest) = ⟨ss.flatten ++ (writeAll rest).text, (writeAll rest).error⟩ := by
  induction ss with
  | nil => rfl
  | cons s ss ih =>
    rw [List.map_cons, List.cons_append, writeAll, ih]
    simp

theorem writeAll_all (ss : List Str) : writeAll (ss.map .ok) = ⟨ss.flatten, none⟩ := by
  have := writeAll_ok ss []
  simpa [writeAll] using this

/-! ### Numbers -/

theorem blank_space_one : Blank [' '] := by intro c hc; simp at hc; exact .inl hc

theorem blank_nil : Blank [] := fun _ h => absurd h (by simp)

/-- `'%.dE'` writes a numeral. -/
theorem sciE_numeral (d : ℕ) (x : ℚ) : Numeral (sciE d x) (printedSci d x) := by
  obtain ⟨s1, s2, s3⟩ := showNat_spec ((sciParts d x).1 / 10 ^ d)
  obtain ⟨l1, l2, l3⟩ := lastDigits_spec d (sciParts d x).1
  have hx : Exponent (showExp (sciParts d x).2) (sciParts d x).2 := by
    rcases showExp_spec (sciParts d x).2 with h | ⟨c, sgn, f, ds, h1, _, h2, h3, h4, h5, h6⟩
    · exact .inl h
    · exact .inr ⟨c, sgn, f, ds, h1, h2, h3, h4, h5, h6⟩
  refine ⟨if x < 0 then ['-'] else [], if x < 0 then -1 else 1,
    showNat ((sciParts d x).1 / 10 ^ d) ++ '.' :: lastDigits d (sciParts d x).1, _, _, _, ?_,
    .inr ⟨_, _, s1, l1, by simp [s2], rfl, rfl⟩, hx, ?_, ?_⟩
  · split
    · exact .inr (.inr ⟨rfl, rfl⟩)
    · exact .inl ⟨rfl, rfl⟩
  · simp only [sciE, List.append_assoc]
  · rw [natOf_parts, printedSci]
    split <;> simp

/-- The number that `formatted` writes. -/
def printedAs : NumStyle → ℚ → ℚ
  | .temperature, x => printed 2 x
  | .fixed, x => printed 8 x
  | .energy, x => printedSci 12 x

theorem formatted_numeral (s : NumStyle) (x : ℚ) : Numeral (formatted s x) (printedAs s x) := by
  cases s
  · exact formatFixed_numeral 2 x
  · exact formatFixed_numeral 8 x
  · exact sciE_numeral 12 x

/-! ### Cells -/

theorem center_spec (w : ℕ) (s : Str) :
    ∃ g h, Blank g ∧ Blank h ∧ center w s = g ++ s ++ h :=
  ⟨_, _, blank_replicate _, blank_replicate _, rfl⟩

theorem center_length (w : ℕ) (s : Str) (h : s.length ≤ w) : (center w s).length = w := by
  simp [center]
  omega

theorem tokens_pad {g r : Str} {ts : List Str} (hg : Blank g) (h : Tokens ts r) : Tokens ts (g ++ r) := by
  cases h with
  | nil hb => exact .nil (blank_append hg hb)
  | last hb =>
    rw [← List.append_assoc]
    exact .last (blank_append hg hb)
  | cons hb hc ht =>
    rw [← List.append_assoc, ← List.append_assoc]
    exact .cons (blank_append hg hb) hc ht

theorem tokens_cell {w : ℕ} {s rest : Str} {ts : List Str} (h : Tokens ts rest) :
    Tokens (s :: ts) (center w s ++ ' ' :: rest) := by
  obtain ⟨g, b, hg, hb, e⟩ := center_spec w s
  rw [e]
  cases b with
  | nil => simpa using Tokens.cons hg (.inl rfl) h
  | cons c b =>
    have hb' : Blank (b ++ [' ']) :=
      blank_append (fun x hx => hb x (List.mem_cons_of_mem _ hx)) blank_space_one
    have := Tokens.cons (s := s) hg (hb c (by simp)) (tokens_pad hb' h)
    simpa using this

/-- A line of cells, each after a space, and a space at the end. -/
theorem tokens_cells (l : List (ℕ × Str)) :
    Tokens (l.map Prod.snd) ((l.flatMap fun p => ' ' :: center p.1 p.2) ++ [' ']) := by
  have key : ∃ rest, (l.flatMap fun p => ' ' :: center p.1 p.2) ++ [' '] = ' ' :: rest ∧
      Tokens (l.map Prod.snd) rest := by
    induction l with
    | nil => exact ⟨[], rfl, .nil blank_nil⟩
    | cons p l ih =>
      obtain ⟨rest, e, h⟩ := ih
      refine ⟨center p.1 p.2 ++ ' ' :: rest, ?_, tokens_cell h⟩
      rw [List.flatMap_cons, List.append_assoc, e]
      rfl
  obtain ⟨rest, e, h⟩ := key
  rw [e]
  exact tokens_pad (g := [' ']) blank_space_one h

/-- The width of the cells of a style. -/
def cellWidth : NumStyle → ℕ
  | .temperature => 10
  | _ => 20

theorem putData_eq (x : ℚ) (s : NumStyle) : putData x s = ' ' :: center (cellWidth s) (formatted s x) := by
  cases s <;> rfl

/-- The numbers of a line. -/
theorem numbers_row (l : List (ℚ × NumStyle)) :
    Numbers (l.map fun p => printedAs p.2 p.1) ((l.flatMap fun p => putData p.1 p.2) ++ [' ']) := by
  refine ⟨l.map fun p => formatted p.2 p.1, ?_, ?_⟩
  · have := tokens_cells (l.map fun p => (cellWidth p.2, formatted p.2 p.1))
    simpa [List.flatMap_map, Function.comp_def, putData_eq] using this
  · rw [List.forall₂_map_left_iff, List.forall₂_map_right_iff]
    exact List.forall₂_same.2 fun p _ => formatted_numeral p.2 p.1

theorem numbers_pad {g r : Str} {qs : List ℚ} (hg : Blank g) (h : Numbers qs r) : Numbers qs (g ++ r) := by
  obtain ⟨ts, h1, h2⟩ := h
  exact ⟨ts, tokens_pad hg h1, h2⟩

theorem blank_putEmpty : Blank putEmpty := by
  unfold putEmpty
  intro c hc
  simp [center] at hc
  exact .inl hc

/-! ### The whole table -/

/-- The line of the entry `t`, without its newline. -/
def rowLine (s : NumStyle) (t : ℚ) (vs : List ℚ) : Str :=
  ((t, NumStyle.temperature) :: vs.map fun v => (v, s)).flatMap (fun p => putData p.1 p.2) ++ [' ']

/-- The line of the columns, without its newline. -/
def colLine (ys : List ℚ) : Str :=
  putEmpty ++ ((ys.map fun v => (v, NumStyle.fixed)).flatMap (fun p => putData p.1 p.2) ++ [' '])

/-- The lines from the first rule on. -/
def bodyLines (s : NumStyle) (labels : Str) (x y : List ℚ) (z : ℕ → ℕ → ℚ) : List Str :=
  separator (totw y.length) '+' '-' :: labels :: colLine y :: separator (totw y.length) '+' '=' ::
    (x.mapIdx (fun i t => rowLine s t ((List.range y.length).map (z i))) ++
      [separator (totw y.length) '+' '='])

theorem rowSteps_ok {types : List (Str × Quantity)} {x y : Series} {z : Values} {zname : Str}
    {qx qz : Quantity} (hx : types.lookup x.name = some qx) (hqx : qx.numstyle = .temperature)
    (hz : types.lookup zname = some qz) {zf : ℕ → ℚ} {i : ℕ} (t : ℚ)
    (he : ∀ j < y.values.length, z.entry i j = .ok (zf j)) :
    ∃ ss : List Str, rowSteps types x y z zname i t = ss.map .ok ∧
      ss.flatten = rowLine qz.numstyle t ((List.range y.values.length).map zf) ++ ['\n'] := by
  refine ⟨putData t .temperature ::
    (List.range y.values.length).map (fun j => putData (zf j) qz.numstyle) ++ [newrow], ?_, ?_⟩
  · rw [rowSteps, quantity, hx]
    simp only [Except.map, hqx, List.map_append, List.map_cons, List.map_nil, List.map_map,
      List.singleton_append, List.cons_append]
    congr 2
    refine List.map_congr_left fun j hj => ?_
    rw [he j (List.mem_range.1 hj), quantity, hz]
    rfl
  · simp [rowLine, newrow, List.flatMap_map, List.flatMap_def, Function.comp_def]

theorem rows_ok {types : List (Str × Quantity)} {x y : Series} {z : Values} {zname : Str}
    {qx qz : Quantity} (hx : types.lookup x.name = some qx) (hqx : qx.numstyle = .temperature)
    (hz : types.lookup zname = some qz) {zf : ℕ → ℕ → ℚ} (ts : List ℚ) (k : ℕ)
    (he : ∀ i < ts.length, ∀ j < y.values.length, z.entry (k + i) j = .ok (zf (k + i) j)) :
    ∃ ss : List Str, ((ts.zipIdx k).flatMap fun p => rowSteps types x y z zname p.2 p.1) = ss.map .ok ∧
      ss.flatten = (ts.mapIdx fun i t =>
        rowLine qz.numstyle t ((List.range y.values.length).map (zf (k + i))) ++ ['\n']).flatten := by
  induction ts generalizing k with
  | nil => exact ⟨[], rfl, rfl⟩
  | cons t ts ih =>
    obtain ⟨s1, a1, b1⟩ := rowSteps_ok (x := x) (y := y) hx hqx hz (zf := zf k) (i := k) t
      (fun j hj => by simpa using he 0 (by simp) j hj)
    obtain ⟨s2, a2, b2⟩ := ih (k + 1) fun i hi j hj => by
      have := he (i + 1) (by simpa using hi) j hj
      rwa [show k + (i + 1) = k + 1 + i by omega] at this
    refine ⟨s1 ++ s2, ?_, ?_⟩
    · rw [List.zipIdx_cons, List.flatMap_cons, a1, a2, List.map_append]
    · rw [List.flatten_append, b1, b2, List.mapIdx_cons, List.flatten_cons]
      congr 2
      refine congrArg (fun f => List.mapIdx f ts) ?_
      funext i t
      rw [show k + (i + 1) = k + 1 + i by omega]

/-- The labels of the columns. -/
def labelOf (q : Quantity) (unit : Str) : Str := q.label.1 ++ unit ++ q.label.2

theorem intercalate_snoc_lines (ls : List Str) (l : Str) :
    List.intercalate ['\n'] (ls ++ [l]) = (ls.map (· ++ ['\n'])).flatten ++ l := by
  induction ls with
  | nil => simp
  | cons a ls ih =>
    have : List.intercalate ['\n'] (a :: (ls ++ [l])) = a ++ ['\n'] ++ List.intercalate ['\n'] (ls ++ [l]) := by
      cases h : ls ++ [l] with
      | nil => simp at h
      | cons b bs => simp [List.intercalate, List.intersperse]
    rw [List.cons_append, this, ih]
    simp

/-- What `write` writes when all quantities are known and all entries exist. -/
theorem writeTable_ok {types : List (Str × Quantity)} {adim : Bool} {x y : Series} {z : Values}
    {zname zunit : Str} {qx qy qz : Quantity} (hx : types.lookup x.name = some qx)
    (hqx : qx.numstyle = .temperature) (hy : types.lookup y.name = some qy) (hqy : qy.numstyle = .fixed)
    (hz : types.lookup zname = some qz) (hn : y.values ≠ []) {zf : ℕ → ℕ → ℚ}
    (he : ∀ i < x.values.length, ∀ j < y.values.length, z.entry i j = .ok (zf i j)) :
    ∃ labels, header y.values.length (labelOf qx x.unit) (labelOf qy y.unit) = .ok labels ∧
    writeTable types adim x y z zname zunit = ⟨List.intercalate ['\n']
      ([c!"*- This file was created using Quantas -*", [], qz.desc, unitLine adim zunit, []] ++
        bodyLines qz.numstyle labels x.values y.values zf), none⟩ := by
  have hl : y.values.length ≠ 0 := by simpa using hn
  obtain ⟨labels, hlab⟩ : ∃ l, header y.values.length (labelOf qx x.unit) (labelOf qy y.unit) = .ok l :=
    ⟨_, by rw [header, if_neg hl]⟩
  refine ⟨labels, hlab, ?_⟩
  obtain ⟨ss, a, b⟩ := rows_ok (x := x) (y := y) hx hqx hz x.values 0 (zf := zf)
    (fun i hi j hj => by simpa using he i hi j hj)
  have hcols : y.values.map (fun v => (quantity types y.name).map fun q => putData v q.numstyle) =
      (y.values.map fun v => putData v .fixed).map .ok := by
    rw [quantity, hy, List.map_map]
    refine List.map_congr_left fun v _ => ?_
    simp [Except.map, hqy]
  have hhead : ((quantity types x.name).bind fun qx => (quantity types y.name).bind fun qy =>
      header y.values.length (qx.label.1 ++ x.unit ++ qx.label.2) (qy.label.1 ++ y.unit ++ qy.label.2)) =
      .ok labels := by
    rw [quantity, hx]
    simp only [Except.bind]
    rw [quantity, hy]
    exact hlab
  have hall : writeTable types adim x y z zname zunit = writeAll (([fileHeader, ['\n'], qz.desc, ['\n'],
      unitLine adim zunit, ['\n'], ['\n'], separator (totw y.values.length) '+' '-', ['\n'], labels, ['\n'],
      putEmpty] ++ (y.values.map fun v => putData v .fixed) ++
      [newrow, separator (totw y.values.length) '+' '=', ['\n']] ++ ss ++
      [separator (totw y.values.length) '+' '=']).map .ok) := by
    rw [writeTable, hhead, hcols, a]
    simp only [quantity, hz, hx, Except.map, List.map_append, List.map_cons, List.map_nil]
  rw [hall, writeAll_all]
  congr 1
  rw [show ([c!"*- This file was created using Quantas -*", [], qz.desc, unitLine adim zunit, []] ++
      bodyLines qz.numstyle labels x.values y.values zf) =
      ([c!"*- This file was created using Quantas -*", [], qz.desc, unitLine adim zunit, [],
        separator (totw y.values.length) '+' '-', labels, colLine y.values,
        separator (totw y.values.length) '+' '='] ++
        x.values.mapIdx (fun i t => rowLine qz.numstyle t ((List.range y.values.length).map (zf i)))) ++
      [separator (totw y.values.length) '+' '='] by simp [bodyLines], intercalate_snoc_lines]
  have hb : ss.flatten = ((x.values.mapIdx fun i t =>
      rowLine qz.numstyle t ((List.range y.values.length).map (zf i))).map (· ++ ['\n'])).flatten := by
    rw [b]
    refine congrArg List.flatten (List.ext_getElem? fun i => ?_)
    simp [Function.comp_def]
  rw [List.flatten_append, List.flatten_append, hb]
  simp [colLine, newrow, fileHeader, List.flatMap_def, Function.comp_def]

end Verif.Export
