/-
Properties C52 and C82 of the reader of phonon inputs (quantas/IO/qha_reader.py).
-/
import Verif.Phonon.ReaderLemmas
import Verif.IO.Witness

namespace Verif.Phonon
open Verif.Py Verif.IO Verif.IO.Spec Verif.Interfaces Spec

theorem contains_entry {x v : Node} {key : Str} (h : Entry x key v) : contains x key = .ok true := by
  obtain ⟨l, rfl, hm, hn⟩ := h
  simp [contains, find_mem hm hn]

theorem contains_lacks {x : Node} {key : Str} (h : Lacks x key) : contains x key = .ok false := by
  obtain ⟨l, rfl, hl⟩ := h
  simp [contains, find_none hl]

theorem broadcast_vec {n : ℕ} {l : List Fl} (h : l.length = n) : broadcast n (.vec l) = .ok l := by
  match l, h with
  | [], h => simp [broadcast, h]
  | [x], h => simp at h; subst h; rfl
  | _ :: _ :: _, h => simp only [broadcast, h, if_true]

theorem broadcast_length {n : ℕ} {a : Arr} {row : List Fl} (h : broadcast n a = .ok row) :
    row.length = n := by
  unfold broadcast at h
  split at h
  · obtain rfl := Except.ok.inj h; simp
  · obtain rfl := Except.ok.inj h; simp
  · split at h
    · rename_i hl; obtain rfl := Except.ok.inj h; exact hl
    · exact absurd h (by simp)

theorem forall₂_mem {α β : Type} {R S : α → β → Prop} {l : List α} {m : List β}
    (h : List.Forall₂ R l m) (H : ∀ a b, b ∈ m → R a b → S a b) : List.Forall₂ S l m := by
  induction h with
  | nil => exact .nil
  | cons hab _ ih => exact .cons (H _ _ (by simp) hab) (ih fun a b hb => H a b (by simp [hb]))

theorem size_nat (n : ℕ) : size (n : ℤ) = .ok n := by simp [size]

theorem check_map {r : Reader} {l : List (Str × Node)} (h : r.data = .map l) :
    check r = checkKeys r
      [(c!"volume", .volume), (c!"energy", .energy), (c!"phonon", .phonon)] := by
  simp [check, h]

/-- C52: a complete input is accepted, and every number of it is returned in its place: the frequency of
each q-point, band and volume, the weight of each q-point, the volumes and the energies. -/
theorem C52_complete {doc : Node} {n : ℕ} {volumes energies : List ℚ} {points : List QPoint}
    (h : PhononInput doc n volumes energies points) :
    ∃ r : Reader, Reader.load {} (.tree doc) = .ok r ∧ r.completed = true ∧ r.error = none ∧
      r.natoms = .ok n ∧ r.qpoints = .ok points.length ∧ r.nvol = .ok volumes.length ∧
      r.volume = .ok (.vec (volumes.map some)) ∧ r.energy = .ok (.vec (energies.map some)) ∧
      r.frequencies = .ok (points.map fun p => p.bands.map fun f => f.map some) ∧
      r.weights = .ok (points.map fun p => some p.weight) := by
  obtain ⟨hn, hq, ⟨v, hv, hvl⟩, ⟨e, he, hel⟩, ⟨qs, hp, hqs⟩, hb, hc⟩ := h
  have hnat : Reader.natoms ⟨true, none, doc⟩ = .ok n := by
    simp [Reader.natoms, get_entry hn, Except.bind, getInt, npInt]
  have hqp : Reader.qpoints ⟨true, none, doc⟩ = .ok points.length := by
    simp [Reader.qpoints, get_entry hq, Except.bind, getInt, npInt]
  have hvol : Reader.volume ⟨true, none, doc⟩ = .ok (.vec (volumes.map some)) := by
    simp [Reader.volume, get_entry hv, Except.bind, getFloat_givesList hvl]
  have hnv : Reader.nvol ⟨true, none, doc⟩ = .ok volumes.length := by
    simp [Reader.nvol, hvol, Except.map]
  refine ⟨⟨true, none, doc⟩, ?_, rfl, rfl, hnat, hqp, hnv, hvol, ?_, ?_, ?_⟩
  · obtain ⟨l, rfl, _⟩ := hn
    simp only [Reader.load]
    rw [check_map rfl]
    simp [checkKeys, contains_entry hv, contains_entry he, contains_entry hp, Except.bind]
  · simp [Reader.energy, get_entry he, Except.bind, getFloat_givesList hel]
  · unfold Reader.frequencies
    rw [hqp, hnat, hnv]
    simp only [Except.bind, size_nat, get_entry hp, iterate]
    rw [show ((n : ℤ) * 3) = ((n * 3 : ℕ) : ℤ) by push_cast; rfl, size_nat]
    have hfill := fillPoints_ok (n := volumes.length) (b := n * 3) qs
      (points.map fun p => p.bands.map fun f => f.map some) []
      (List.replicate points.length (List.replicate (n * 3) (List.replicate volumes.length (some 0))))
      (by simp) (fun r hr => by rw [List.eq_of_mem_replicate hr]; simp)
      (fun r hr => by
        obtain ⟨p, hp, rfl⟩ := List.mem_map.1 hr
        simp [hb p hp, Nat.mul_comm])
      (by
        rw [List.forall₂_map_right_iff]
        refine forall₂_mem hqs fun q p hp1 hq1 => ?_
        obtain ⟨_, bs, hbs, hf⟩ := hq1
        refine ⟨bs, by simp [get_entry hbs, iterate, Except.bind], ?_⟩
        rw [List.forall₂_map_right_iff]
        refine forall₂_mem hf fun b f hf1 hb1 => ?_
        obtain ⟨w, hw, hwl⟩ := hb1
        simp only [get_entry hw, Except.bind, getFloat_givesList hwl]
        exact broadcast_vec (by simp [hc p hp1 f hf1]))
    simpa using hfill
  · unfold Reader.weights
    rw [hqp]
    simp only [Except.bind, size_nat, get_entry hp, iterate]
    have hfill := fillWeights_ok qs (points.map QPoint.weight) [] (List.replicate points.length (some 0))
      (by simp) (by
        rw [List.forall₂_map_right_iff]
        refine hqs.imp ?_
        rintro q p ⟨⟨w, hw, hg⟩, _⟩
        simp [get_entry hw, Except.bind, getFloat_gives hg])
    simpa [Function.comp_def] using hfill

/-- C52: an input lacking the volumes, the energies or the phonons is not marked completed, and the error
names the first that is missing. -/
theorem C52_lacking {doc : Node} (key : InputError)
    (h : key = .volume ∧ Lacks doc c!"volume" ∨
      key = .energy ∧ (∃ v, Entry doc c!"volume" v) ∧ Lacks doc c!"energy" ∨
      key = .phonon ∧ (∃ v, Entry doc c!"volume" v) ∧ (∃ v, Entry doc c!"energy" v) ∧
        Lacks doc c!"phonon") :
    ∃ r : Reader, Reader.load {} (.tree doc) = .ok r ∧ r.completed = false ∧ r.error = some key := by
  rcases h with ⟨rfl, h⟩ | ⟨rfl, ⟨v, hv⟩, h⟩ | ⟨rfl, ⟨v, hv⟩, ⟨e, he⟩, h⟩
  all_goals
    refine ⟨⟨false, some _, doc⟩, ?_, rfl, rfl⟩
    have hl := contains_lacks h
    obtain ⟨l, rfl, _⟩ := h
    simp only [Reader.load]
    rw [check_map rfl]
  · simp [checkKeys, hl, Except.bind]
  · simp [checkKeys, hl, contains_entry hv, Except.bind]
  · simp [checkKeys, hl, contains_entry hv, contains_entry he, Except.bind]

/-- C52: a file that is not YAML, or not text, is not marked completed and the error says so; an empty
file is not marked completed. -/
theorem C52_unreadable :
    Reader.load {} .badYaml = .ok ⟨false, some .badYaml, .null⟩ ∧
    Reader.load {} .notText = .ok ⟨false, some .notText, .null⟩ ∧
    Reader.load {} (.tree .null) = .ok ⟨false, none, .null⟩ := ⟨rfl, rfl, rfl⟩

/-- C52 fails for a file that is a plain text with the three words in it: it has no data, it is marked
completed, and the volumes cannot be had. -/
theorem C52_text_violated {s : Str} (h1 : c!"volume" <:+: s) (h2 : c!"energy" <:+: s)
    (h3 : c!"phonon" <:+: s) :
    ∃ r : Reader, Reader.load {} (.tree (.str s)) = .ok r ∧ r.completed = true ∧ r.error = none ∧
      r.volume = .error .typeError := by
  refine ⟨⟨true, none, .str s⟩, ?_, rfl, rfl, rfl⟩
  have e1 : contains (.str s) c!"volume" = .ok true := by simp [contains, hasSub, h1]
  have e2 : contains (.str s) c!"energy" = .ok true := by simp [contains, hasSub, h2]
  have e3 : contains (.str s) c!"phonon" = .ok true := by simp [contains, hasSub, h3]
  simp [Reader.load, check, checkKeys, e1, e2, e3, Except.bind]

/-- Such a text. -/
example : c!"volume" <:+: c!"see volume 3 for energy and phonon data" ∧
    c!"energy" <:+: c!"see volume 3 for energy and phonon data" ∧
    c!"phonon" <:+: c!"see volume 3 for energy and phonon data" := by decide +kernel

/-- C52 fails for a reader that has read a complete input before: whatever it reads then, even a file
without volumes, it stays marked completed. -/
theorem C52_reused_violated {r : Reader} (hr : r.completed = true) {doc : Node}
    (h : Lacks doc c!"volume") :
    ∃ r' : Reader, r.load (.tree doc) = .ok r' ∧ r'.completed = true ∧ r'.error = some .volume := by
  refine ⟨⟨true, some .volume, doc⟩, ?_, rfl, rfl⟩
  have hl := contains_lacks h
  obtain ⟨l, rfl, _⟩ := h
  simp only [Reader.load]
  rw [check_map rfl]
  simp [checkKeys, hl, Except.bind, hr]

/-! ### C82: incomplete tables -/

theorem fillBands_shape {n i k : ℕ} : ∀ (fs : List Node) (j : ℕ) (m m' : List (List (List Fl))),
    (∀ r ∈ m, r.length = k ∧ ∀ x ∈ r, x.length = n) → fillBands n i j fs m = .ok m' →
    m'.length = m.length ∧ ∀ r ∈ m', r.length = k ∧ ∀ x ∈ r, x.length = n := by
  intro fs
  induction fs with
  | nil => intro j m m' hm h; obtain rfl := Except.ok.inj h; exact ⟨rfl, hm⟩
  | cons f fs ih =>
    intro j m m' hm h
    unfold fillBands at h
    cases ha : (get f c!"frequency").bind getFloat with
    | error e => rw [ha] at h; exact absurd h (by simp [Except.bind])
    | ok a =>
      rw [ha] at h
      simp only [Except.bind, at_] at h
      cases hi : m[i]? with
      | none => rw [hi] at h; exact absurd h (by simp)
      | some mi =>
        simp only [hi] at h
        cases hj : mi[j]? with
        | none => rw [hj] at h; exact absurd h (by simp)
        | some x =>
          simp only [hj] at h
          cases hb : broadcast n a with
          | error e => rw [hb] at h; exact absurd h (by simp)
          | ok row =>
            simp only [hb] at h
            have hmi := hm mi (List.mem_of_getElem? hi)
            obtain ⟨h1, h2⟩ := ih (j + 1) (m.set i (mi.set j row)) m' (fun r hr => by
              rcases List.mem_or_eq_of_mem_set hr with hr | rfl
              · exact hm r hr
              · refine ⟨by simp [hmi.1], fun x hx => ?_⟩
                rcases List.mem_or_eq_of_mem_set hx with hx | rfl
                · exact hmi.2 x hx
                · exact broadcast_length hb) h
            exact ⟨by simpa using h1, h2⟩

theorem fillPoints_shape {n k : ℕ} : ∀ (qs : List Node) (i : ℕ) (m m' : List (List (List Fl))),
    (∀ r ∈ m, r.length = k ∧ ∀ x ∈ r, x.length = n) → fillPoints n i qs m = .ok m' →
    m'.length = m.length ∧ ∀ r ∈ m', r.length = k ∧ ∀ x ∈ r, x.length = n := by
  intro qs
  induction qs with
  | nil => intro i m m' hm h; obtain rfl := Except.ok.inj h; exact ⟨rfl, hm⟩
  | cons q qs ih =>
    intro i m m' hm h
    unfold fillPoints at h
    cases ha : (get q c!"band").bind iterate with
    | error e => rw [ha] at h; exact absurd h (by simp [Except.bind])
    | ok fs =>
      rw [ha] at h
      simp only [Except.bind] at h
      cases hb : fillBands n i 0 fs m with
      | error e => rw [hb] at h; exact absurd h (by simp)
      | ok m1 =>
        simp only [hb] at h
        obtain ⟨h1, h2⟩ := fillBands_shape fs 0 m m1 hm hb
        obtain ⟨h3, h4⟩ := ih (i + 1) m1 m' h2 h
        exact ⟨h3.trans h1, h4⟩

/-- C82: whatever the file contains, a returned array of frequencies has the announced number of q-points,
three bands per atom and one entry per volume. -/
theorem C82_shape {r : Reader} {M : List (List (List Fl))} (h : r.frequencies = .ok M) :
    ∃ nq nb nv : ℕ, r.qpoints = .ok nq ∧ (∃ na : ℕ, r.natoms = .ok na ∧ nb = 3 * na) ∧
      r.nvol = .ok nv ∧ M.length = nq ∧ ∀ bands ∈ M, bands.length = nb ∧ ∀ f ∈ bands, f.length = nv := by
  unfold Reader.frequencies at h
  cases hq : r.qpoints with
  | error e => rw [hq] at h; exact absurd h (by simp [Except.bind])
  | ok q =>
  cases hn : r.natoms with
  | error e => rw [hq, hn] at h; exact absurd h (by simp [Except.bind])
  | ok n =>
  cases hv : r.nvol with
  | error e => rw [hq, hn, hv] at h; exact absurd h (by simp [Except.bind])
  | ok nv =>
  simp only [hq, hn, hv, Except.bind, size] at h
  by_cases hq0 : q < 0
  · simp [hq0] at h
  by_cases hn0 : n * 3 < 0
  · simp [hq0, hn0] at h
  simp only [hq0, hn0, if_false] at h
  cases hp : get r.data c!"phonon" with
  | error e => rw [hp] at h; exact absurd h (by simp)
  | ok p =>
    simp only [hp] at h
    cases hi : iterate p with
    | error e => rw [hi] at h; exact absurd h (by simp)
    | ok qs =>
      simp only [hi] at h
      obtain ⟨h1, h2⟩ := fillPoints_shape (k := (n * 3).toNat) qs 0 _ _ (fun r hr => by
        rw [List.eq_of_mem_replicate hr]
        refine ⟨by simp, fun x hx => ?_⟩
        rw [List.eq_of_mem_replicate hx]; simp) h
      refine ⟨q.toNat, (n * 3).toNat, nv, ?_, ⟨n.toNat, ?_, by omega⟩, rfl, by simpa using h1, h2⟩
      · rw [Int.toNat_of_nonneg (by omega)]
      · rw [Int.toNat_of_nonneg (by omega)]

/-- C82: an input with more q-points than announced is refused. -/
theorem C82_more_points {r : Reader} {qs : List Node} {nq : ℕ} (hq : r.qpoints = .ok nq)
    (hp : Entry r.data c!"phonon" (.list qs)) (hl : nq < qs.length) :
    ∃ e, r.weights = .error e := by
  have key : ∀ (qs : List Node) (i : ℕ) (w : List Fl), w.length < i + qs.length → i ≤ w.length →
      ∃ e, fillWeights i qs w = .error e := by
    intro qs
    induction qs with
    | nil => intro i w h1 h2; simp at h1; omega
    | cons q qs ih =>
      intro i w h1 h2
      simp only [List.length_cons] at h1
      unfold fillWeights
      cases ha : (get q c!"weight").bind getFloat with
      | error e => exact ⟨e, rfl⟩
      | ok a =>
        simp only [Except.bind, at_]
        cases hi : w[i]? with
        | none => exact ⟨_, rfl⟩
        | some x =>
          have hlt := (List.getElem?_eq_some_iff.1 hi).1
          simp only
          split
          · exact ih _ _ (by simp; omega) (by simp; omega)
          · exact ih _ _ (by simp; omega) (by simp; omega)
          · exact ⟨_, rfl⟩
  unfold Reader.weights
  rw [hq]
  simp only [Except.bind, size_nat, get_entry hp, iterate]
  exact key qs 0 _ (by simpa using hl) (by simp)

theorem fillBands_errors {n i : ℕ} : ∀ (fs : List Node) (j : ℕ) (m : List (List (List Fl))),
    (∃ f ∈ fs, ∃ e, ((get f c!"frequency").bind getFloat).bind (broadcast n) = .error e) →
    ∃ e, fillBands n i j fs m = .error e := by
  intro fs
  induction fs with
  | nil => intro j m h; simp at h
  | cons f fs ih =>
    intro j m h
    unfold fillBands
    cases ha : (get f c!"frequency").bind getFloat with
    | error e => exact ⟨e, rfl⟩
    | ok a =>
      simp only [Except.bind, at_]
      cases hi : m[i]? with
      | none => exact ⟨_, rfl⟩
      | some mi =>
        simp only
        cases hj : mi[j]? with
        | none => exact ⟨_, rfl⟩
        | some x =>
          simp only
          cases hb : broadcast n a with
          | error e => exact ⟨e, rfl⟩
          | ok row =>
            simp only
            obtain ⟨g, hg, e, he⟩ := h
            rcases List.mem_cons.1 hg with rfl | hg
            · rw [ha] at he
              simp only [Except.bind, hb] at he
              exact absurd he (by simp)
            · exact ih _ _ ⟨g, hg, e, he⟩

/-- C82: an input in which a band has neither one frequency nor as many as there are volumes is refused. -/
theorem C82_wrong_number {r : Reader} {nv : ℕ} (hv : r.nvol = .ok nv) {qs bs : List Node} {q b v : Node}
    {freqs : List ℚ} (hp : Entry r.data c!"phonon" (.list qs)) (hq : q ∈ qs)
    (hb : Entry q c!"band" (.list bs)) (hbm : b ∈ bs) (hf : Entry b c!"frequency" v)
    (hl : GivesList v freqs) (h1 : freqs.length ≠ 1) (h2 : freqs.length ≠ nv) :
    ∃ e, r.frequencies = .error e := by
  have hbad : ((get b c!"frequency").bind getFloat).bind (broadcast nv) = .error .valueError := by
    simp only [get_entry hf, Except.bind, getFloat_givesList hl]
    match freqs, h1, h2 with
    | [], _, h2 => simp only [List.map_nil, broadcast]; rw [if_neg (by simpa using h2)]
    | [x], h1, _ => exact absurd rfl h1
    | x :: y :: rest, _, h2 =>
      simp only [List.map_cons, broadcast]
      rw [if_neg (by simpa using h2)]
  have key : ∀ (qs : List Node), q ∈ qs → ∀ (i : ℕ) (m : List (List (List Fl))),
      ∃ e, fillPoints nv i qs m = .error e := by
    intro qs
    induction qs with
    | nil => intro h; simp at h
    | cons x qs ih =>
      intro h i m
      unfold fillPoints
      cases ha : (get x c!"band").bind iterate with
      | error e => exact ⟨e, rfl⟩
      | ok fs =>
        simp only [Except.bind]
        cases hc : fillBands nv i 0 fs m with
        | error e => exact ⟨e, rfl⟩
        | ok m1 =>
          simp only
          rcases List.mem_cons.1 h with rfl | h
          · simp only [get_entry hb, iterate, Except.bind, Except.ok.injEq] at ha
            subst ha
            obtain ⟨e, he⟩ := fillBands_errors (n := nv) (i := i) bs 0 m ⟨b, hbm, _, hbad⟩
            rw [hc] at he
            exact absurd he (by simp)
          · exact ih h _ _
  unfold Reader.frequencies
  cases r.qpoints with
  | error e => exact ⟨e, rfl⟩
  | ok nq =>
    cases r.natoms with
    | error e => exact ⟨e, rfl⟩
    | ok n =>
      simp only [hv, Except.bind, get_entry hp, iterate]
      cases size nq with
      | error e => exact ⟨e, rfl⟩
      | ok a =>
        cases size (n * 3) with
        | error e => exact ⟨e, rfl⟩
        | ok b => exact key qs hq 0 _

/-- A list of numbers. -/
def numbers (qs : List ℚ) : Node := .list (qs.map .float)

/-- A band. -/
def band (qs : List ℚ) : Node := .map [(c!"frequency", numbers qs)]

/-- One atom, one q-point and two volumes, with the given bands. -/
def oneAtom (bands : List Node) : Node := .map [
  (c!"job", .str c!"Example "), (c!"natom", .int 1), (c!"qpoints", .int 1),
  (c!"volume", numbers [75, 74]), (c!"energy", .list [.str c!"-1.5 -1.25"]),
  (c!"phonon", .list [.map [(c!"weight", .int 1), (c!"band", .list bands)]])]

theorem givesList_numbers (qs : List ℚ) : GivesList (numbers qs) qs := by
  refine .inl ⟨_, rfl, ?_⟩
  induction qs with
  | nil => exact .nil
  | cons q qs ih => exact .cons (.inl rfl) ih

theorem entry_of {x : List (Str × Node)} {key : Str} {v : Node} (h : (key, v) ∈ x)
    (hn : (x.map Prod.fst).Nodup) : Entry (.map x) key v := ⟨x, rfl, h, hn⟩

/-- A complete input, with the energies in one text. -/
theorem oneAtom_complete : PhononInput (oneAtom [band [10, 11], band [20, 21], band [30, 31]]) 1
    [75, 74] [-3/2, -5/4] [⟨1, [[10, 11], [20, 21], [30, 31]]⟩] where
  natom := entry_of (by simp) (by decide)
  qpoints := entry_of (by simp) (by decide)
  volume := ⟨numbers [75, 74], entry_of (by simp) (by decide), givesList_numbers _⟩
  energy := ⟨.list [.str c!"-1.5 -1.25"], entry_of (by simp) (by decide),
    .inr ⟨_, rfl, numbers_of (by decide +kernel) (by decide +kernel)⟩⟩
  phonon := by
    refine ⟨[.map [(c!"weight", .int 1), (c!"band", .list [band [10, 11], band [20, 21],
      band [30, 31]])]], entry_of (by simp) (by decide), .cons ⟨⟨.int 1, entry_of (by simp) (by decide),
      .inr (.inl ⟨1, rfl, by norm_num⟩)⟩, [band [10, 11], band [20, 21], band [30, 31]],
      entry_of (by simp) (by decide), ?_⟩ .nil⟩
    have hb : ∀ qs : List ℚ, ∃ v, Entry (band qs) c!"frequency" v ∧ GivesList v qs := fun qs =>
      ⟨numbers qs, entry_of (by simp) (by simp), givesList_numbers qs⟩
    exact .cons (hb _) (.cons (hb _) (.cons (hb _) .nil))
  bands := by simp
  complete := by simp

example : ∃ r : Reader, Reader.load {} (.tree (oneAtom [band [10, 11], band [20, 21], band [30, 31]])) =
      .ok r ∧ r.completed = true ∧
    r.frequencies = .ok [[[some 10, some 11], [some 20, some 21], [some 30, some 31]]] := by
  obtain ⟨r, h1, h2, _, _, _, _, _, _, h3, _⟩ := C52_complete oneAtom_complete
  exact ⟨r, h1, h2, h3⟩

example : Lacks (.map [(c!"energy", numbers [1])]) c!"volume" := ⟨_, rfl, by simp⟩

/-- C82 fails for missing bands: the input lacks the third band, it is marked completed, and the band is
returned with frequencies zero. -/
theorem C82_missing_band_violated :
    ∃ r : Reader, Reader.load {} (.tree (oneAtom [band [10, 11], band [20, 21]])) = .ok r ∧
      r.completed = true ∧ r.error = none ∧
      r.frequencies = .ok [[[some 10, some 11], [some 20, some 21], [some 0, some 0]]] :=
  ⟨_, rfl, rfl, rfl, rfl⟩

/-- C82 fails for a band with one frequency in place of one per volume: it is used at every volume. -/
theorem C82_single_frequency_violated :
    ∃ r : Reader, Reader.load {} (.tree (oneAtom [band [10, 11], band [20, 21], band [30]])) = .ok r ∧
      r.completed = true ∧ r.error = none ∧
      r.frequencies = .ok [[[some 10, some 11], [some 20, some 21], [some 30, some 30]]] :=
  ⟨_, rfl, rfl, rfl, rfl⟩

/-- C82 fails for missing q-points: the announced q-points that are not listed have frequencies and weight
zero.  Whatever the input, an entry `phonon: []` gives only zeros. -/
theorem C82_missing_points_violated {r : Reader} {nq na nv : ℕ} (hq : r.qpoints = .ok nq)
    (hn : r.natoms = .ok na) (hv : r.nvol = .ok nv) (hp : Entry r.data c!"phonon" (.list [])) :
    r.frequencies = .ok (List.replicate nq (List.replicate (na * 3) (List.replicate nv (some 0)))) ∧
      r.weights = .ok (List.replicate nq (some 0)) := by
  constructor
  · unfold Reader.frequencies
    rw [hq, hn, hv]
    simp only [Except.bind, size_nat, get_entry hp, iterate]
    rw [show ((na : ℤ) * 3) = ((na * 3 : ℕ) : ℤ) by push_cast; rfl, size_nat]
    rfl
  · unfold Reader.weights
    rw [hq]
    simp only [Except.bind, size_nat, get_entry hp, iterate]
    rfl

/-- C82 fails for volumes written without brackets, `volume: 75.0 74.0`: of the text, which is not one
number, only the first digit is read. -/
theorem C82_no_brackets_violated {r : Reader} {d : Char} {s : Str} (hd : d ∈ digits)
    (hs : parseFloat (d :: s) = none) (hv : Entry r.data c!"volume" (.str (d :: s))) :
    r.volume = .ok (.vec [some (natOf [d])]) ∧ r.nvol = .ok 1 := by
  have hnum : Numeral [d] (natOf [d]) := by
    refine ⟨[], 1, [d], natOf [d], [], 0, .inl ⟨rfl, rfl⟩, .inl ⟨[d], ?_, by simp, rfl, rfl⟩,
      .inl ⟨rfl, rfl⟩, by simp, by simp⟩
    intro c hc
    simp only [List.mem_singleton] at hc
    exact hc ▸ hd
  have hw : words [d] = [[d]] := words_plain (numeral_token hnum).2 (by simp)
  have hvol : r.volume = .ok (.vec [some (natOf [d])]) := by
    simp [Reader.volume, get_entry hv, Except.bind, getFloat, npFloat, itemFloat, toFloat, hs, Except.map,
      splitFirst, item, at_, hw, each, parseFloat_numeral hnum]
  exact ⟨hvol, by simp [Reader.nvol, hvol, Except.map]⟩

example : parseFloat c!"75.0 74.0" = none ∧ '7' ∈ digits := by decide +kernel

/-! ### Single values -/

theorem get_lacks {x : Node} {key : Str} (h : Lacks x key) : get x key = .error .keyError := by
  obtain ⟨l, rfl, hl⟩ := h
  simp [get, find_none hl]

/-- C52: the title is returned without the blanks at its end, and an input without a title is called
Unknown. -/
theorem C52_title {r : Reader} :
    (∀ title blanks : Str, (∀ c ∈ blanks, isSpace c) → (∀ c, title.getLast? = some c → ¬ isSpace c) →
      Entry r.data c!"job" (.str (title ++ blanks)) → r.jobname = .ok title) ∧
    (Lacks r.data c!"job" → r.jobname = .ok c!"Unknown") := by
  constructor
  · intro title blanks hb ht h
    rw [Reader.jobname, contains_entry h]
    simp only [Except.bind, if_true, get_entry h]
    congr 1
    have h1 : (blanks.reverse ++ title.reverse).dropWhile isSpace = title.reverse := by
      rw [List.dropWhile_append_of_pos (fun c hc => hb c (List.mem_reverse.1 hc))]
      cases hr : title.reverse with
      | nil => rfl
      | cons c cs =>
        have : title.getLast? = some c := by rw [List.getLast?_eq_head?_reverse, hr]; rfl
        rw [List.dropWhile_cons_of_neg (ht c this)]
    simp [rstrip, h1]
  · intro h
    rw [Reader.jobname, contains_lacks h]
    rfl

/-- C52: an input with a single volume, written as a number, has one volume. -/
theorem C52_single_volume {r : Reader} {v : Node} {q : ℚ} (h : Entry r.data c!"volume" v) (hv : Gives v q) :
    r.nvol = .ok 1 ∧ r.volume = .ok (.scalar (some q)) := by
  have : r.volume = .ok (.scalar (some q)) := by
    simp [Reader.volume, get_entry h, Except.bind, getFloat_gives hv]
  exact ⟨by simp [Reader.nvol, this, Except.map], this⟩

/-- C52: the total number of q-points is the sum of the weights. -/
theorem C52_total {r : Reader} {ws : List ℚ} (h : r.weights = .ok (ws.map some)) :
    r.totalQPoints = .ok (some ws.sum) := by
  have key : ∀ ws : List ℚ, total (ws.map some) = some ws.sum := by
    intro ws
    induction ws with
    | nil => rfl
    | cons w ws ih => simp only [List.map_cons, total, ih, List.sum_cons]
  rw [Reader.totalQPoints, h, Except.map, key]

/-- C52 fails for the other mandatory entries: an input without the number of atoms or of q-points is marked
completed, and asking for the number raises KeyError. -/
theorem C52_mandatory_violated {doc v e p : Node} (hv : Entry doc c!"volume" v) (he : Entry doc c!"energy" e)
    (hp : Entry doc c!"phonon" p) (hn : Lacks doc c!"natom") (hq : Lacks doc c!"qpoints") :
    ∃ r : Reader, Reader.load {} (.tree doc) = .ok r ∧ r.completed = true ∧ r.error = none ∧
      r.natoms = .error .keyError ∧ r.qpoints = .error .keyError := by
  refine ⟨⟨true, none, doc⟩, ?_, rfl, rfl, ?_, ?_⟩
  · obtain ⟨l, rfl, _⟩ := hv
    simp only [Reader.load]
    rw [check_map rfl]
    simp [checkKeys, contains_entry ⟨l, rfl, ‹_›⟩, contains_entry he, contains_entry hp, Except.bind]
  · simp [Reader.natoms, get_lacks hn, Except.bind]
  · simp [Reader.qpoints, get_lacks hq, Except.bind]

/-- C82 fails for numbers of atoms that are not whole: `natom: 2.7` is read as 2, `natom: -0.5` as 0 and
`natom: yes` as 1. -/
theorem C82_not_whole_violated {r : Reader} {q : ℚ} {b : Bool} :
    (∀ n : ℕ, (n : ℚ) ≤ q → q < n + 1 → Entry r.data c!"natom" (.float q) → r.natoms = .ok n) ∧
    (∀ n : ℕ, (n : ℚ) ≤ -q → -q < n + 1 → Entry r.data c!"natom" (.float q) → r.natoms = .ok (-n)) ∧
    (Entry r.data c!"natom" (.bool b) → r.natoms = .ok (if b then 1 else 0)) ∧
    (Entry r.data c!"volume" (.bool b) → r.volume = .ok (.scalar (some (if b then 1 else 0)))) := by
  refine ⟨fun n h1 h2 h => ?_, fun n h1 h2 h => ?_, fun h => ?_, fun h => ?_⟩
  · have h0 : ¬ q < 0 := not_lt.2 (le_trans (Nat.cast_nonneg n) h1)
    have : ⌊q⌋ = (n : ℤ) := Int.floor_eq_iff.2 ⟨by exact_mod_cast h1, by exact_mod_cast h2⟩
    simp [Reader.natoms, get_entry h, Except.bind, getInt, npInt, h0, this]
  · have hc : ⌈q⌉ = -(n : ℤ) := by
      rw [Int.ceil_eq_iff]
      push_cast
      exact ⟨by linarith, by linarith⟩
    by_cases h0 : q < 0
    · simp [Reader.natoms, get_entry h, Except.bind, getInt, npInt, h0, hc]
    · have hq : q = 0 := le_antisymm (by have := Nat.cast_nonneg (α := ℚ) n; linarith) (not_lt.1 h0)
      subst hq
      have : n = 0 := by
        have : (n : ℚ) ≤ 0 := by simpa using h1
        exact_mod_cast le_antisymm this (Nat.cast_nonneg n)
      subst this
      simp [Reader.natoms, get_entry h, Except.bind, getInt, npInt]
  · simp [Reader.natoms, get_entry h, Except.bind, getInt, npInt]
  · cases b <;> simp [Reader.volume, get_entry h, Except.bind, getFloat, npFloat, itemFloat, Except.map]

example : ((2 : ℕ) : ℚ) ≤ 27 / 10 ∧ (27 / 10 : ℚ) < (2 : ℕ) + 1 ∧ ((0 : ℕ) : ℚ) ≤ -(-1 / 2 : ℚ) := by norm_num

end Verif.Phonon
