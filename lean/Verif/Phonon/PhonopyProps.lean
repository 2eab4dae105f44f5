/-
Property C83: the reader of phonopy calculations (quantas/interfaces/phonopy.py).
-/
import Verif.Units.Props
import Verif.Phonon.Phonopy
import Verif.Phonon.PhonopySpec
import Verif.Phonon.ReaderProps

namespace Verif.Phonon
open Verif.Py Verif.IO Verif.IO.Spec Verif.Interfaces Verif.Units Spec

theorem number_of {x : Node} {q : ℚ} (h : IsNumber x q) : number x = .ok q := by
  rcases h with rfl | ⟨n, rfl, rfl⟩ <;> rfl

theorem truncate_int (n : ℤ) : truncate n = n := by
  unfold truncate
  split <;> simp

theorem itemInt_of {x : Node} {q : ℚ} (h : IsNumber x q) : itemInt x = .ok (truncate q) := by
  rcases h with rfl | ⟨n, rfl, rfl⟩
  · rfl
  · rw [truncate_int]; rfl

theorem intRow_of {x : Node} {v : Fin 3 → ℚ} (h : IsVector x v) :
    intRow x = .ok (List.ofFn fun i => truncate (v i)) := by
  obtain ⟨a, b, c, rfl, ha, hb, hc⟩ := h
  simp [intRow, each, itemInt_of ha, itemInt_of hb, itemInt_of hc, Except.bind, List.ofFn_succ]

theorem matrix3_of {x : Node} {M : Matrix (Fin 3) (Fin 3) ℚ} (h : IsMatrix x M) : matrix3 x = .ok M := by
  obtain ⟨_, _, _, rfl, ⟨a, b, c, rfl, ha, hb, hc⟩, ⟨d, e, f, rfl, hd, he, hf⟩,
    ⟨g, h, i, rfl, hg, hh, hi⟩⟩ := h
  simp only [matrix3, each, number_of ha, number_of hb, number_of hc, number_of hd, number_of he,
    number_of hf, number_of hg, number_of hh, number_of hi, Except.bind, Except.ok.injEq]
  ext p q
  fin_cases p <;> fin_cases q <;> rfl

theorem atomAt_of {l : List Node} {i : ℕ} {x : Node} {a : ℕ × (Fin 3 → ℚ)} (hi : l[i]? = some x)
    (h : AtomGiven x a) :
    atomAt (.ok (.list l)) i = .ok (a.1, List.ofFn fun j => truncate (a.2 j)) := by
  obtain ⟨⟨s, hs, hk⟩, c, hc, hv⟩ := h
  simp only [atomAt, Except.bind, item, at_, hi, get_entry hs, symbolNumber,
    Chemistry.C61_symbol2number.2 hk, get_entry hc, intRow_of hv, Except.map]

theorem each_range {β : Type} {f : ℕ → Except PyErr β} {l : List β}
    (h : ∀ i y, l[i]? = some y → f i = .ok y) : each f (List.range l.length) = .ok l := by
  have key : ∀ (l : List β) (k : ℕ), (∀ i y, l[i]? = some y → f (k + i) = .ok y) →
      each f (List.range' k l.length) = .ok l := by
    intro l
    induction l with
    | nil => intro k _; rfl
    | cons y l ih =>
      intro k h
      simp only [List.length_cons, List.range'_succ, each]
      rw [show f k = .ok y from h 0 y rfl, ih (k + 1) (fun i z hz => by
        rw [Nat.add_assoc, Nat.add_comm 1 i]; exact h (i + 1) z hz)]
      rfl
  rw [List.range_eq_range']
  exact key l 0 (fun i y hy => by rw [Nat.zero_add]; exact h i y hy)

theorem forall₂_getElem? {α β : Type} {R : α → β → Prop} {l : List α} {m : List β}
    (h : List.Forall₂ R l m) {i : ℕ} {b : β} (hb : m[i]? = some b) : ∃ a, l[i]? = some a ∧ R a b := by
  induction h generalizing i with
  | nil => simp at hb
  | cons hab _ ih =>
    cases i with
    | zero => simp only [List.getElem?_cons_zero, Option.some.injEq] at hb; exact ⟨_, rfl, hb ▸ hab⟩
    | succ i => simpa using ih (by simpa using hb)

theorem each_atoms {l : List Node} {atoms : List (ℕ × (Fin 3 → ℚ))} (h : List.Forall₂ AtomGiven l atoms) :
    each (atomAt (.ok (.list l))) (List.range atoms.length) =
      .ok (atoms.map fun a => (a.1, List.ofFn fun j => truncate (a.2 j))) := by
  have := each_range (f := atomAt (.ok (.list l)))
    (l := atoms.map fun a => (a.1, List.ofFn fun j => truncate (a.2 j))) (fun i y hy => by
      rw [List.getElem?_map] at hy
      cases ha : atoms[i]? with
      | none => rw [ha] at hy; simp at hy
      | some a =>
        rw [ha] at hy
        simp only [Option.map_some, Option.some.injEq] at hy
        obtain ⟨x, hx, hg⟩ := forall₂_getElem? h ha
        rw [atomAt_of hx hg, hy])
  simpa using this

/-- The cell stored for the given atoms. -/
noncomputable def cellOf (atoms : List (ℕ × (Fin 3 → ℚ))) (lattice : Node) : PCell where
  natom := atoms.length
  numbers := atoms.map Prod.fst
  positions := atoms.map fun a => List.ofFn fun j => truncate (a.2 j)
  lattice := lattice

/-- The wavenumber of a frequency in THz. -/
theorem wavenumber_eq (k : Consts) (q : ℚ) :
    wavenumber k q = .ok (10 ^ 12 * (q : ℝ) / (k.c * 100)) := by
  have hA : Means (frequencies k) c!"THz" ⟨[c!"thz"], 10 ^ 12, 0⟩ :=
    ⟨by simp [frequencies], List.mem_singleton.2 (by decide)⟩
  have hB : Means (frequencies k) c!"cm^-1" ⟨[c!"cm^-1"], 100 * k.c, 0⟩ :=
    ⟨by simp [frequencies], List.mem_singleton.2 (by decide)⟩
  have hc := k.c_pos
  have := ((C04_frequency_faithful k).ok_iff [(q : ℝ)] c!"THz" c!"cm^-1"
    [10 ^ 12 * (q : ℝ) / (k.c * 100)]).2 ⟨_, _, hA, hB, .cons (by
      simp only [Scale.toRef]
      field_simp) .nil⟩
  simp [wavenumber, this, Except.bind, at_]

theorem bandAt_of (k : Consts) {x : Node} {p : PPoint} (h : PPointGiven x p) :
    bandAt k p.freqs.length x = .ok (p.freqs.map fun q : ℚ => 10 ^ 12 * (q : ℝ) / (k.c * 100)) := by
  obtain ⟨_, _, bs, hb, hf⟩ := h
  have := each_range (f := fun j => (get x c!"band").bind fun b => (item b j).bind fun f =>
    (get f c!"frequency").bind fun x => (number x).bind (wavenumber k))
    (l := p.freqs.map fun q : ℚ => 10 ^ 12 * (q : ℝ) / (k.c * 100)) (fun i y hy => by
      rw [List.getElem?_map] at hy
      cases ha : p.freqs[i]? with
      | none => rw [ha] at hy; simp at hy
      | some a =>
        rw [ha] at hy
        simp only [Option.map_some, Option.some.injEq] at hy
        obtain ⟨z, hz, v, hv, hn⟩ := forall₂_getElem? hf ha
        simp only [get_entry hb, Except.bind, item, at_, hz, get_entry hv, number_of hn,
          wavenumber_eq, hy])
  rw [List.length_map] at this
  exact this

theorem readEnergy_last {es : List (Str × Str)} {e e0 : ℚ} (h : LastEnergy es e) :
    readEnergy es e0 = .ok e := by
  obtain ⟨a, t, b, rfl, ht, hb, ha⟩ := h
  have hrest : ∀ x : ℚ, readEnergy b x = .ok x := by
    intro x
    induction b with
    | nil => rfl
    | cons p b ih =>
      obtain ⟨n, s⟩ := p
      unfold readEnergy
      rw [if_neg (hb (n, s) (by simp))]
      exact ih fun q hq => hb q (by simp [hq])
  induction a generalizing e0 with
  | nil =>
    simp only [List.nil_append, readEnergy, if_true, toFloat, parseFloat_numeral ht, Except.bind]
    exact hrest e
  | cons p a ih =>
    obtain ⟨n, s⟩ := p
    have ih' := fun e0 => ih (e0 := e0) (fun q hq => ha q (by simp [hq]))
    simp only [List.cons_append, readEnergy]
    split
    · rename_i hn
      obtain ⟨x, hx⟩ := ha (n, s) (by simp) hn
      simp only at hx
      simp only [toFloat, parseFloat_numeral hx, Except.bind]
      exact ih' x
    · exact ih' e0

theorem readEnergy_none {es : List (Str × Str)} {e0 : ℚ} (h : ∀ p ∈ es, p.1 ≠ c!"e_wo_entrp") :
    readEnergy es e0 = .ok e0 := by
  induction es with
  | nil => rfl
  | cons p b ih =>
    obtain ⟨n, s⟩ := p
    unfold readEnergy
    rw [if_neg (h (n, s) (by simp))]
    exact ih fun q hq => h q (by simp [hq])

/-- The energy of a calculation: that of the VASP output, or zero when there is none. -/
def Spec.EnergyOf (vasprun : Option (List (Str × Str))) (e : ℚ) : Prop :=
  vasprun = none ∧ e = 0 ∨ ∃ es, vasprun = some es ∧
    (LastEnergy es e ∨ (∀ p ∈ es, p.1 ≠ c!"e_wo_entrp") ∧ e = 0)

theorem vaspEnergy_of {v : Option (List (Str × Str))} {e : ℚ} (h : EnergyOf v e) :
    vaspEnergy v = .ok e := by
  rcases h with ⟨rfl, rfl⟩ | ⟨es, rfl, h | ⟨h, rfl⟩⟩
  · rfl
  · exact readEnergy_last h
  · exact readEnergy_none h

/-- C83: the files of a phonopy calculation are read completely: the atomic numbers, the volume of the
cell, the number of atoms, q-points and phonons, the coordinates and weight of each q-point, the
energy, and for each phonon the wavenumber of its frequency (`100 c` times the wavenumber is the
frequency in Hz).  Missing from the full property: the coordinates of the atoms. -/
theorem C83_read_partial (k : Consts) {out disp : Node} {atoms satoms : List (ℕ × (Fin 3 → ℚ))}
    {lattice slattice expansion : Matrix (Fin 3) (Fin 3) ℚ} {points : List PPoint}
    {vasprun : Option (List (Str × Str))} {e : ℚ} (ho : PhonopyOutput out atoms lattice points)
    (hd : Displacements disp expansion satoms slattice) (he : EnergyOf vasprun e) :
    ∃ r : Phonopy, phonopyLoad k ⟨some (.tree disp), vasprun, some (.tree out)⟩ = .ok r ∧
      r.completed = true ∧ r.error = none ∧ r.energy = e ∧
      r.natom = .ok atoms.length ∧ r.volume = .ok lattice.det ∧
      (∃ c, r.unitcell = some c ∧ c.numbers = atoms.map Prod.fst) ∧
      (∃ c, r.supercell = some c ∧ c.numbers = satoms.map Prod.fst) ∧
      (∃ x, r.expansion = some x ∧ IsMatrix x expansion) ∧
      r.qpoints = points.length ∧ r.nphonon = 3 * atoms.length ∧
      List.Forall₂ (fun x p => IsVector x p.position) r.qcoords points ∧
      List.Forall₂ (fun x p => IsNumber x p.weight) r.weights points ∧
      List.Forall₂ (fun row p => List.Forall₂
        (fun (y : ℝ) (q : ℚ) => 100 * k.c * y = 10 ^ 12 * (q : ℝ)) row p.freqs) r.phonons points := by
  obtain ⟨hn, hq, ⟨lv, hl, hlm⟩, ⟨al, hal, ha⟩, ⟨pl, hpl, hp⟩, hb⟩ := ho
  obtain ⟨⟨xv, hx, hxm⟩, sc, hsc, ⟨slv, hsl, _⟩, sal, hsal, hsa⟩ := hd
  have huc : setUnitCell out = .ok (cellOf atoms lv) := by
    simp [setUnitCell, get_entry hn, Except.bind, toSize, size_nat, get_entry hl, get_entry hal,
      each_atoms ha, Except.map, Function.comp_def, cellOf]
  have hdc : setDisplacements disp = .ok (xv, cellOf satoms slv) := by
    simp [setDisplacements, get_entry hx, Except.bind, get_entry hsc, get_entry hsal, len,
      hsa.length_eq, get_entry hsl, each_atoms hsa, Except.map, Function.comp_def,
      cellOf]
  -- the q-points
  have hpts : ∃ ps : List (Node × Node × List ℝ),
      each (pointAt k (3 * atoms.length) out) (List.range points.length) = .ok ps ∧
      List.Forall₂ (fun (t : Node × Node × List ℝ) (p : PPoint) => IsVector t.1 p.position ∧
        IsNumber t.2.1 p.weight ∧ t.2.2 = p.freqs.map fun q : ℚ => 10 ^ 12 * (q : ℝ) / (k.c * 100))
        ps points := by
    have hex : ∀ (pl : List Node) (points : List PPoint), List.Forall₂ PPointGiven pl points →
        ∃ ps : List (Node × Node × List ℝ),
        List.Forall₂ (fun x (t : Node × Node × List ℝ) => ∃ p, p ∈ points ∧
          get x c!"q-position" = .ok t.1 ∧ get x c!"weight" = .ok t.2.1 ∧
          bandAt k p.freqs.length x = .ok t.2.2) pl ps ∧
        List.Forall₂ (fun (t : Node × Node × List ℝ) (p : PPoint) => IsVector t.1 p.position ∧
          IsNumber t.2.1 p.weight ∧ t.2.2 = p.freqs.map fun q : ℚ => 10 ^ 12 * (q : ℝ) / (k.c * 100))
          ps points := by
      intro pl points h
      induction h with
      | nil => exact ⟨[], .nil, .nil⟩
      | @cons x p pl points hxp _ ih =>
        obtain ⟨ps, h1, h2⟩ := ih
        have hband := bandAt_of k hxp
        obtain ⟨⟨v, hv, hvv⟩, ⟨w, hw, hww⟩, _⟩ := hxp
        refine ⟨(v, w, p.freqs.map fun q : ℚ => 10 ^ 12 * (q : ℝ) / (k.c * 100)) :: ps,
          .cons ⟨p, by simp, get_entry hv, get_entry hw, hband⟩ (h1.imp ?_),
          .cons ⟨hvv, hww, rfl⟩ h2⟩
        rintro x t ⟨p', hp', h⟩
        exact ⟨p', by simp [hp'], h⟩
    obtain ⟨ps, h1, h2⟩ := hex pl points hp
    refine ⟨ps, ?_, h2⟩
    rw [← h2.length_eq]
    refine each_range fun i t ht => ?_
    obtain ⟨x, hx, p, hpm, hg1, hg2, hg3⟩ := forall₂_getElem? h1 ht
    rw [hb p hpm] at hg3
    simp only [pointAt, get_entry hpl, Except.bind, item, at_, hx, hg1, hg2, hg3, Except.map]
  obtain ⟨ps, hps, hpf⟩ := hpts
  have hph : ∀ r : Phonopy, setPhonons k r out = .ok { r with
      nphonon := 3 * atoms.length, qpoints := points.length, qcoords := ps.map fun p => p.1,
      weights := ps.map fun p => p.2.1, phonons := ps.map fun p => p.2.2 } := by
    intro r
    simp [setPhonons, get_entry hn, get_entry hq, toRange, Except.bind, hps, Except.map]
  let r : Phonopy := {
    completed := true
    energy := e
    unitcell := some (cellOf atoms lv)
    supercell := some (cellOf satoms slv)
    expansion := some xv
    nphonon := 3 * atoms.length
    qpoints := points.length
    qcoords := ps.map fun p => p.1
    weights := ps.map fun p => p.2.1
    phonons := ps.map fun p => p.2.2 }
  refine ⟨r, ?_, rfl, rfl, rfl, rfl, ?_, ⟨_, rfl, rfl⟩, ⟨_, rfl, rfl⟩,
    ⟨_, rfl, hxm⟩, rfl, rfl, ?_, ?_, ?_⟩
  · simp [phonopyLoad, vaspEnergy_of he, loadYaml, huc, hdc, hph, Except.bind, Except.map, r]
  · simp [Phonopy.volume, cellOf, matrix3_of hlm, Except.map, r]
  · rw [List.forall₂_map_left_iff]
    exact hpf.imp fun _ _ h => h.1
  · rw [List.forall₂_map_left_iff]
    exact hpf.imp fun _ _ h => h.2.1
  · rw [List.forall₂_map_left_iff]
    refine hpf.imp fun t p h => ?_
    rw [h.2.2, List.forall₂_map_left_iff, List.forall₂_same]
    intro q _
    have := k.c_pos
    field_simp

/-- C83 fails for the coordinates of the atoms: they are stored in an array of integers, so that every
fractional coordinate between zero and one becomes zero. -/
theorem C83_coordinates_violated {idata : Node} {c : PCell} {atoms : List (ℕ × (Fin 3 → ℚ))}
    {lattice : Matrix (Fin 3) (Fin 3) ℚ} {points : List PPoint}
    (ho : PhonopyOutput idata atoms lattice points) (h : setUnitCell idata = .ok c)
    (hf : ∀ a ∈ atoms, ∀ i, 0 ≤ a.2 i ∧ a.2 i < 1) :
    c.positions = atoms.map fun _ => [0, 0, 0] := by
  obtain ⟨hn, _, ⟨lv, hl, _⟩, ⟨al, hal, ha⟩, _, _⟩ := ho
  simp [setUnitCell, get_entry hn, Except.bind, toSize, size_nat, get_entry hl, get_entry hal,
      each_atoms ha, Except.map, Function.comp_def] at h
  subst h
  refine List.map_congr_left fun a ham => ?_
  have hz : ∀ i, truncate (a.2 i) = 0 := by
    intro i
    obtain ⟨h0, h1⟩ := hf a ham i
    rw [truncate, if_neg (not_lt.2 h0), Int.floor_eq_zero_iff]
    exact ⟨h0, h1⟩
  simp [hz]

/-- C83: without the displacement file, or without the phonopy output, the calculation is not marked
completed and the error says which file is missing. -/
theorem C83_missing_files (k : Consts) (f : PhonopyFiles) :
    (f.disp = none → ∃ r, phonopyLoad k f = .ok r ∧ r.completed = false ∧ r.error = some .noDisp) ∧
    (f.disp ≠ none → f.output = none → ∀ e, EnergyOf f.vasprun e →
      ∃ r, phonopyLoad k f = .ok r ∧ r.completed = false ∧ r.error = some .noOutput) := by
  obtain ⟨d, v, o⟩ := f
  refine ⟨fun h => ?_, fun h h' e he => ?_⟩
  · simp only at h
    subst h
    exact ⟨_, rfl, rfl, rfl⟩
  · simp only at h h' he
    subst h'
    cases d with
    | none => exact absurd rfl h
    | some d =>
      refine ⟨{ error := some .noOutput, energy := e }, ?_, rfl, rfl⟩
      simp [phonopyLoad, vaspEnergy_of he, Except.bind]

/-- C83 fails for a phonopy output that is not YAML: the handler meant to report the error raises
UnboundLocalError. -/
theorem C83_not_yaml_violated (k : Consts) (disp : YamlFile) {vasprun : Option (List (Str × Str))} {e : ℚ}
    (he : EnergyOf vasprun e) :
    phonopyLoad k ⟨some disp, vasprun, some .broken⟩ = .error .unboundLocal := by
  simp [phonopyLoad, vaspEnergy_of he, loadYaml, Except.bind]

theorem each_error {α β : Type} {f : α → Except PyErr β} {l : List α} {x : α} (hx : x ∈ l) {e : PyErr}
    (h : f x = .error e) : ∃ e', each f l = .error e' := by
  induction l with
  | nil => simp at hx
  | cons y l ih =>
    unfold each
    cases hy : f y with
    | error e => exact ⟨e, rfl⟩
    | ok z =>
      rcases List.mem_cons.1 hx with rfl | hx
      · rw [h] at hy; exact absurd hy (by simp)
      · obtain ⟨e', he⟩ := ih hx
        exact ⟨e', by simp [Except.bind, he]⟩

/-- C83: an output with fewer q-points than announced, or a q-point with fewer than three bands per atom,
is refused: nothing is filled in. -/
theorem C83_incomplete (k : Consts) {idata : Node} {nq na : ℕ} {pl : List Node}
    (hn : Entry idata c!"natom" (.int na)) (hq : Entry idata c!"nqpoint" (.int nq))
    (hp : Entry idata c!"phonon" (.list pl))
    (h : pl.length < nq ∨ ∃ i < nq, ∃ x bs, pl[i]? = some x ∧ Entry x c!"band" (.list bs) ∧
      bs.length < 3 * na) (r : Phonopy) : ∃ e, setPhonons k r idata = .error e := by
  have key : ∃ i < nq, ∃ e, pointAt k (3 * na) idata i = .error e := by
    rcases h with h | ⟨i, hi, x, bs, hx, hb, hl⟩
    · exact ⟨pl.length, h, .indexError, by simp [pointAt, get_entry hp, Except.bind, item, at_]⟩
    · refine ⟨i, hi, ?_⟩
      have hbe : ∃ e, bandAt k (3 * na) x = .error e :=
        each_error (x := bs.length) (List.mem_range.2 hl) (e := .indexError) (by
          simp [get_entry hb, Except.bind, item, at_])
      obtain ⟨e, he⟩ := hbe
      simp only [pointAt, get_entry hp, Except.bind, item, at_, hx, he, Except.map]
      cases get x c!"q-position" with
      | error e => exact ⟨e, rfl⟩
      | ok v =>
        cases get x c!"weight" with
        | error e => exact ⟨e, rfl⟩
        | ok w => exact ⟨e, rfl⟩
  obtain ⟨i, hi, e, he⟩ := key
  obtain ⟨e', he'⟩ := each_error (List.mem_range.2 hi) he
  exact ⟨e', by simp [setPhonons, get_entry hn, get_entry hq, toRange, Except.bind, he', Except.map]⟩

end Verif.Phonon
