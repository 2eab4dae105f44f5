/-
C112: the report of the input of a harmonic run, and the inputs that a quasi-harmonic run accepts.
-/
import Mathlib.LinearAlgebra.Matrix.Determinant.Basic
import Verif.Phonon.ReaderProps
import Verif.Report.EosFitProps
import Verif.Report.Harmonic
import Verif.Report.HarmonicSpec

noncomputable section

namespace Verif.Report
open Verif.Py Verif.IO Verif.IO.Spec Verif.Phonon Verif.Export Verif.Interfaces Spec
open Verif.Phonon.Spec (PhononInput Entry Lacks Gives QPoint Significant)

theorem checkKeys_data {r r' : Reader} {l : List (Str × Phonon.InputError)} (h : checkKeys r l = .ok r') :
    r'.data = r.data := by
  induction l with
  | nil => obtain rfl := Except.ok.inj h; rfl
  | cons a l ih =>
    obtain ⟨key, e⟩ := a
    rw [checkKeys] at h
    cases hc : contains r.data key with
    | error e => rw [hc] at h; exact absurd h (by simp [Except.bind])
    | ok b =>
      rw [hc] at h
      cases b
      · obtain rfl := Except.ok.inj h; rfl
      · exact ih h

theorem load_data {doc : Node} {r : Reader} (h : Reader.load {} (.tree doc) = .ok r) : r.data = doc := by
  simp only [Reader.load, check] at h
  split at h
  · obtain rfl := Except.ok.inj h; rfl
  · exact checkKeys_data h

theorem showInt_numeral (n : ℤ) : Numeral (showInt n) n := by
  obtain ⟨s1, s2, s3⟩ := showNat_spec n.natAbs
  refine ⟨if n < 0 then ['-'] else [], if n < 0 then -1 else 1, showNat n.natAbs, natOf (showNat n.natAbs), [], 0, ?_,
    .inl ⟨_, s1, s2, rfl, rfl⟩, .inl ⟨rfl, rfl⟩, by simp [showInt], ?_⟩
  · split
    · exact .inr (.inr ⟨rfl, rfl⟩)
    · exact .inl ⟨rfl, rfl⟩
  · rw [natOf_eq s1, s3]
    have : (n : ℚ) = ((if n < 0 then -1 else 1 : ℤ) : ℚ) * (n.natAbs : ℚ) := by
      rw [← Int.cast_natCast, ← Int.cast_mul]
      congr 1
      split <;> omega
    rw [this]; simp

theorem itemLine_spec (label : Str) (n : ℤ) : IsCount label n (itemLine label n) := by
  refine ⟨showInt n, showInt_numeral n, ?_⟩
  have := tokens_next (cell_self c!"-") (tokens_next (cell_left label 40) (tokens_last (cell_self (showInt n))))
  simpa [itemLine] using this

theorem volumeLine_spec {vs es : List ℚ} {i : ℕ} {v e : ℚ} (hv : vs[i]? = some v) (he : es[i]? = some e) :
    ∃ l, volumeLine (.vec (vs.map some)) (.vec (es.map some)) i = .ok l ∧ IsVolumeRow v e l := by
  refine ⟨_, by simp only [volumeLine, Arr.at, at_, List.getElem?_map, hv, he, Option.map_some]; rfl,
    printed 6 v, printedSci 12 e, printed_rounded 6 v, printedSci_significant 12 e,
    [formatFixed 6 v, sciLower 12 e], ?_, ?_⟩
  · have := tokens_next (cell_before blank_space_one (cell_center 15 (formatFixed 6 v)))
      (tokens_last (cell_center 30 (sciLower 12 e)))
    simpa [cellNum] using this
  · simp only [List.forall₂_cons, List.Forall₂.nil, and_true]
    exact ⟨formatFixed_numeral 6 v, sciLower_numeral 12 e⟩

theorem each_ok {α β : Type} {f : α → Except PyErr β} {l : List α} {g : α → β} (h : ∀ a ∈ l, f a = .ok (g a)) :
    each f l = .ok (l.map g) := by
  induction l with
  | nil => rfl
  | cons a l ih => simp [each, h a (by simp), ih fun b hb => h b (by simp [hb]), Except.bind]

theorem kpoints_spec {r : Reader} {M : Matrix (Fin 3) (Fin 3) ℤ} (h : HasSupercell r.data M) :
    kpoints r = .ok M.det := by
  have hm : matrixOf (.list (List.ofFn fun i => .list (List.ofFn fun j => .int (M i j)))) =
      .ok (List.ofFn fun i => List.ofFn fun j => (M i j : ℚ)) := by
    simp [matrixOf, iterate, Except.bind, each, List.ofFn_succ, entryOf]
  simp only [kpoints, get_entry h, Except.bind, hm]
  have : det3 (List.ofFn fun i => List.ofFn fun j => (M i j : ℚ)) = .ok ((M.det : ℤ) : ℚ) := by
    have e : (List.ofFn fun i => List.ofFn fun j => (M i j : ℚ)) = [[(M 0 0 : ℚ), M 0 1, M 0 2],
        [(M 1 0 : ℚ), M 1 1, M 1 2], [(M 2 0 : ℚ), M 2 1, M 2 2]] := by
      simp [List.ofFn_succ]
    rw [e, det3, Matrix.det_fin_three]
    congr 1
    push_cast
    ring
  rw [this]
  simp only [roundHalfEven_int]

/-- C112, in part: for every complete input the report of a harmonic run gives the title, the numbers of volumes, atoms,
points and frequencies, and one line per volume with the volume and its energy, under titles with the units of the
run.  Missing: an input with a single volume written as a number, see C112_single_violated. -/
theorem C112_report_partial (eunit vunit : Str) {doc : Node} {n : ℕ} {volumes energies : List ℚ} {points : List QPoint}
    (h : PhononInput doc n volumes energies points) (he : energies.length = volumes.length)
    {M : Matrix (Fin 3) (Fin 3) ℤ} (hM : HasSupercell doc M) {title : Str}
    (ht : Entry doc c!"job" (.str title) ∧ (∀ c, title.getLast? = some c → ¬ isSpace c) ∨
      Lacks doc c!"job" ∧ title = c!"Unknown") {N : ℕ} (hN : n * 3 * (points.map QPoint.weight).sum = N) :
    ∃ r, Reader.load {} (.tree doc) = .ok r ∧ r.completed = true ∧ r.error = none ∧
      ∃ l1 l2 l3 l4 titles rule rows,
        reportHarmonicInput eunit vunit r = .ok ([[], c!"Job: " ++ title, [], c!"System:", l1, l2, l3, l4, [],
          c!"Volume and energy values:\n", titles, rule] ++ rows ++ [[]]) ∧
        IsCount c!"Number of volumes" volumes.length l1 ∧ IsCount c!"Number of atoms" n l2 ∧
        IsCount c!"Number of sampled k-points" (M.det : ℤ) l3 ∧ IsCount c!"Number of frequencies" N l4 ∧
        Tokens [c!"Volume (" ++ vunit ++ c!"^3)", c!"Energy (" ++ eunit ++ c!")"] titles ∧
        rows.length = volumes.length ∧
        ∀ (i : ℕ) v e l, volumes[i]? = some v → energies[i]? = some e → rows[i]? = some l → IsVolumeRow v e l := by
  obtain ⟨r, h1, h2, h3, h4, h5, h6, h7, h8, h9, h10⟩ := C52_complete h
  have hd := load_data h1
  have hjob : r.jobname = .ok title := by
    rcases ht with ⟨a, b⟩ | ⟨a, rfl⟩
    · exact C52_title.1 title [] (by simp) b (by rw [hd, List.append_nil]; exact a)
    · exact C52_title.2 (by rw [hd]; exact a)
  have hk := kpoints_spec (r := r) (M := M) (by rw [hd]; exact hM)
  have hw : r.totalQPoints = .ok (some (points.map QPoint.weight).sum) := by
    refine C52_total ?_
    rw [h10, List.map_map]
    rfl
  have hf : frequencyCount n (some (points.map QPoint.weight).sum) = .ok (N : ℤ) := by
    simp only [frequencyCount, Int.cast_natCast, hN, truncate]
    congr 1
    rw [if_neg (not_lt.2 (Nat.cast_nonneg N))]
    exact_mod_cast Int.floor_natCast N
  obtain ⟨rows, r1, r2, r3⟩ := collect_range (n := volumes.length)
    (f := volumeLine (.vec (volumes.map some)) (.vec (energies.map some)))
    (P := fun i l => ∀ v e, volumes[i]? = some v → energies[i]? = some e → IsVolumeRow v e l) fun i hi => by
    obtain ⟨v, hv⟩ := get_some rfl hi
    obtain ⟨e, he⟩ := get_some he hi
    obtain ⟨l, l1, l2⟩ := volumeLine_spec hv he
    refine ⟨l, l1, fun v' e' a1 a2 => ?_⟩
    rw [hv, Option.some.injEq] at a1
    rw [he, Option.some.injEq] at a2
    subst a1 a2
    exact l2
  refine ⟨r, h1, h2, h3, _, _, _, _, _, _, rows, by
    simp only [reportHarmonicInput, hjob, h6, h4, hk, hw, h7, h8, bind, Except.bind, hf, r1]; rfl, ?_, ?_, ?_, ?_, ?_, r2,
    fun i v e l a b c => r3 i l c v e a b⟩
  · exact_mod_cast itemLine_spec c!"Number of volumes" volumes.length
  · exact_mod_cast itemLine_spec c!"Number of atoms" n
  · exact itemLine_spec _ _
  · exact_mod_cast itemLine_spec c!"Number of frequencies" N
  · have := tokens_next (cell_before blank_space_one (cell_center 15 (c!"Volume (" ++ vunit ++ c!"^3)")))
      (tokens_last (cell_center 30 (c!"Energy (" ++ eunit ++ c!")")))
    simpa using this

/-- C112, violated: an input with a single volume written as a number has one volume, but a harmonic run ends in an
exception when it reports it, and a quasi-harmonic run ends in an exception instead of asking for four volumes. -/
theorem C112_single_violated (eunit vunit : Str) {r : Reader} (hr : r.completed = true) {v : Node} {q : ℚ}
    (hv : Entry r.data c!"volume" v) (hq : Gives v q) :
    r.nvol = .ok 1 ∧ (∃ e, reportHarmonicInput eunit vunit r = .error e) ∧ acceptInput r = .error .typeError := by
  obtain ⟨h1, h2⟩ := C52_single_volume hv hq
  refine ⟨h1, ?_, ?_⟩
  · cases hx : reportHarmonicInput eunit vunit r with
    | error e => exact ⟨e, rfl⟩
    | ok ls =>
      exfalso
      have hc : ∀ e : Arr, collect ((List.range 1).map (volumeLine (.scalar (some q)) e)) = .error .indexError :=
        fun e => rfl
      simp only [reportHarmonicInput, h1, h2, bind, Except.bind, hc] at hx
      repeat' split at hx
      all_goals exact absurd hx (by simp)
  · simp [acceptInput, hr, h2, Except.bind]

/-- C112: of the complete inputs a quasi-harmonic run accepts those with at least four volumes, and says why it refuses
the others. -/
theorem C112_accept {doc : Node} {n : ℕ} {volumes energies : List ℚ} {points : List QPoint}
    (h : PhononInput doc n volumes energies points) :
    ∃ r, Reader.load {} (.tree doc) = .ok r ∧ ∃ a, acceptInput r = .ok a ∧ (a = none ↔ 4 ≤ volumes.length) ∧
      (a ≠ none → a = some .volumes) := by
  obtain ⟨r, h1, h2, h3, h4, h5, h6, h7, -⟩ := C52_complete h
  refine ⟨r, h1, _, by simp only [acceptInput, h2, h7, Except.bind]; rfl, ?_, ?_⟩
  · simp only [List.length_map]
    split <;> simp <;> omega
  · simp only [List.length_map]
    split <;> simp

/-- One atom, one point, two volumes and a supercell of eight cells. -/
def exInput : Node := .map [
  (c!"job", .str c!"Example"), (c!"natom", .int 1), (c!"qpoints", .int 1),
  (c!"supercell", .list (List.ofFn fun i => .list (List.ofFn fun j => .int ((Matrix.diagonal fun _ => 2 : Matrix (Fin 3) (Fin 3) ℤ) i j)))),
  (c!"volume", numbers [75, 74]), (c!"energy", numbers [-3/2, -5/4]),
  (c!"phonon", .list [.map [(c!"weight", .int 1), (c!"band", .list [band [10, 11], band [20, 21], band [30, 31]])]])]

theorem exInput_complete : PhononInput exInput 1 [75, 74] [-3/2, -5/4] [⟨1, [[10, 11], [20, 21], [30, 31]]⟩] where
  natom := entry_of (by simp) (by decide)
  qpoints := entry_of (by simp) (by decide)
  volume := ⟨numbers [75, 74], entry_of (by simp) (by decide), givesList_numbers _⟩
  energy := ⟨numbers [-3/2, -5/4], entry_of (by simp) (by decide), givesList_numbers _⟩
  phonon := by
    refine ⟨[.map [(c!"weight", .int 1), (c!"band", .list [band [10, 11], band [20, 21],
      band [30, 31]])]], entry_of (by simp) (by decide), .cons ⟨⟨.int 1, entry_of (by simp) (by decide),
      .inr (.inl ⟨1, rfl, by norm_num⟩)⟩, [band [10, 11], band [20, 21], band [30, 31]],
      entry_of (by simp) (by decide), ?_⟩ .nil⟩
    have hb : ∀ qs : List ℚ, ∃ v, Entry (band qs) c!"frequency" v ∧ Phonon.Spec.GivesList v qs := fun qs =>
      ⟨numbers qs, entry_of (by simp) (by simp), givesList_numbers qs⟩
    exact .cons (hb _) (.cons (hb _) (.cons (hb _) .nil))
  bands := by simp
  complete := by simp

example : ∃ r ls, Reader.load {} (.tree exInput) = .ok r ∧ reportHarmonicInput c!"Ha" c!"A" r = .ok ls := by
  obtain ⟨r, h1, -, -, l1, l2, l3, l4, t, u, rows, h, -⟩ := C112_report_partial c!"Ha" c!"A" exInput_complete rfl
    (M := Matrix.diagonal fun _ => 2) (entry_of (by simp) (by decide)) (title := c!"Example")
    (.inl ⟨entry_of (by simp) (by decide), by simp; decide⟩) (N := 3) (by norm_num)
  exact ⟨r, _, h1, h⟩

end Verif.Report
