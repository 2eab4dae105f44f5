/-
What the exporters load, and the tables they write.
-/
import Verif.Export.Exporter
import Verif.Export.Hdf5Props
import Verif.Export.TableWidth

noncomputable section

namespace Verif.Export
open Verif.Py Verif.IO Verif.IO.Spec Verif.Interfaces Verif.Phonon Spec

/-! ### Loading -/

theorem lookup_insert_self {α : Type} (d : List (Str × α)) (key : Str) (a : α) :
    (insert d key a).lookup key = some a := by simp [insert]

theorem lookup_insert_ne {α : Type} (d : List (Str × α)) {key k : Str} (a : α) (h : k ≠ key) :
    (insert d key a).lookup k = d.lookup k := by
  rw [insert, List.lookup_cons, show (k == key) = false by simpa using h]
  simp only
  induction d with
  | nil => rfl
  | cons p d ih =>
    rw [List.filter_cons]
    by_cases hp : p.1 = key
    · rw [if_neg (by simpa using hp), ih, List.lookup_cons, show (k == p.1) = false by simp [hp, h]]
    · rw [if_pos (by simpa using hp), List.lookup_cons, List.lookup_cons, ih]

/-- A data set with a unit, of at least one dimension. -/
def Exportable (d : Dataset) (u : Str) : Prop :=
  (∀ x, d.values ≠ .scalar x) ∧ d.attrs.lookup c!"unit" = some u

theorem slice_ok {v : Values} (h : ∀ x, v ≠ .scalar x) : v.slice = .ok v := by
  cases v with
  | scalar x => exact absurd rfl (h x)
  | vec => rfl
  | mat => rfl

theorem loadData_ok (k : Kind) (unit : Str → Str) {sets : List (Str × Dataset)}
    (hd : (sets.map Prod.fst).Nodup)
    (hs : ∀ p ∈ sets, p.1 ≠ c!"T" → p.1 ≠ k.second → Exportable p.2 (unit p.1)) (s : Shared) :
    ∃ s' keys, loadData k sets s = (s', .ok keys) ∧
      s'.x = s.x ∧ s'.xunit = s.xunit ∧ s'.y = s.y ∧ s'.yunit = s.yunit ∧
      keys = (sets.map Prod.fst).filter (fun key => key ≠ c!"T" ∧ key ≠ k.second) ∧
      (∀ p ∈ sets, p.1 ≠ c!"T" → p.1 ≠ k.second → s'.data.lookup p.1 = some (p.2.values, unit p.1)) ∧
      (∀ key, key ∉ sets.map Prod.fst → s'.data.lookup key = s.data.lookup key) := by
  induction sets generalizing s with
  | nil => exact ⟨s, [], rfl, rfl, rfl, rfl, rfl, rfl, by simp, by simp⟩
  | cons p sets ih =>
    obtain ⟨key, d⟩ := p
    simp only [List.map_cons, List.nodup_cons] at hd
    have hs' : ∀ p ∈ sets, p.1 ≠ c!"T" → p.1 ≠ k.second → Exportable p.2 (unit p.1) :=
      fun p hp => hs p (List.mem_cons_of_mem _ hp)
    by_cases hk : key = c!"T" ∨ key = k.second
    · obtain ⟨s', keys, e, h1, h2, h3, h4, h5, h6, h7⟩ := ih hd.2 hs' s
      refine ⟨s', keys, by rw [loadData, if_pos hk, e], h1, h2, h3, h4, ?_, ?_, ?_⟩
      · rw [List.map_cons, List.filter_cons, if_neg (by simp only [decide_eq_true_eq]; tauto), h5]
      · intro p hp n1 n2
        rcases List.mem_cons.1 hp with rfl | hp
        · exact absurd hk (by tauto)
        · exact h6 p hp n1 n2
      · intro key' hk'
        exact h7 key' fun h => hk' (by simp [h])
    · have hk1 : key ≠ c!"T" := fun h => hk (.inl h)
      have hk2 : key ≠ k.second := fun h => hk (.inr h)
      obtain ⟨g1, g2⟩ := hs (key, d) (by simp) hk1 hk2
      obtain ⟨s', keys, e, h1, h2, h3, h4, h5, h6, h7⟩ := ih hd.2 hs'
        { s with data := insert s.data key (d.values, unit key) }
      refine ⟨s', key :: keys, ?_, h1, h2, h3, h4, ?_, ?_, ?_⟩
      · rw [loadData, if_neg hk, slice_ok g1, item, g2]
        simp only [e, Except.map]
      · rw [List.map_cons, List.filter_cons, if_pos (by simp only [decide_eq_true_eq]; exact ⟨hk1, hk2⟩), h5]
      · intro p hp n1 n2
        rcases List.mem_cons.1 hp with rfl | hp
        · rw [h7 key hd.1]
          exact lookup_insert_self _ _ _
        · exact h6 p hp n1 n2
      · intro key' hk'
        simp only [List.map_cons, List.mem_cons, not_or] at hk'
        rw [h7 key' hk'.2]
        exact lookup_insert_ne _ _ hk'.1

/-- A result file: the two axes, and data sets with units. -/
structure ResultFile (k : Kind) (f : H5) (info : Str) (x y : List ℚ) (xu yu : Str) (unit : Str → Str) :
    Prop where
  info : f.attrs.lookup c!"info" = some info
  names : (f.sets.map Prod.fst).Nodup
  xset : ∃ attrs, (c!"T", ⟨.vec x, attrs⟩) ∈ f.sets ∧ attrs.lookup c!"unit" = some xu
  yset : ∃ attrs, (k.second, ⟨.vec y, attrs⟩) ∈ f.sets ∧ attrs.lookup c!"unit" = some yu
  others : ∀ p ∈ f.sets, p.1 ≠ c!"T" → p.1 ≠ k.second → Exportable p.2 (unit p.1)

theorem load_ok {k : Kind} {f : H5} {info : Str} {x y : List ℚ} {xu yu : Str} {unit : Str → Str}
    (h : ResultFile k f info x y xu yu unit) (s : Shared) (filename : Str) :
    ∃ s' e, load k s filename f = (s', .ok e) ∧ e.basename = splitext filename ∧ e.error = none ∧
      e.keys = (f.sets.map Prod.fst).filter (fun key => key ≠ c!"T" ∧ key ≠ k.second) ∧
      s'.x = some (.vec x) ∧ s'.xunit = some xu ∧ s'.y = some (.vec y) ∧ s'.yunit = some yu ∧
      ∀ p ∈ f.sets, p.1 ≠ c!"T" → p.1 ≠ k.second → s'.data.lookup p.1 = some (p.2.values, unit p.1) := by
  obtain ⟨xa, hx, hxu⟩ := h.xset
  obtain ⟨ya, hy, hyu⟩ := h.yset
  have lx := lookup_of_mem h.names hx
  have ly := lookup_of_mem h.names hy
  obtain ⟨s', keys, e, h1, h2, h3, h4, h5, h6, _⟩ := loadData_ok k unit h.names h.others
    { s with x := some (.vec x), xunit := some xu, y := some (.vec y), yunit := some yu }
  have hax : loadAxes k f s =
      ({ s with x := some (.vec x), xunit := some xu, y := some (.vec y), yunit := some yu }, .ok ()) := by
    simp only [loadAxes, valuesOf, unitOf, item, lx, ly, hxu, hyu, Except.bind, Values.slice]
  refine ⟨s', { basename := splitext filename, info := info, keys := keys }, ?_, rfl, rfl, h5, h1, h2, h3,
    h4, h6⟩
  rw [load]
  simp only [item, h.info, hax, e, Except.map]

theorem tableOf_ok {k : Kind} {s : Shared} {x y : List ℚ} {xu yu zu : Str} {p : Str} {z : Values}
    (hx : s.x = some (.vec x)) (hxu : s.xunit = some xu) (hy : s.y = some (.vec y))
    (hyu : s.yunit = some yu) (hz : s.data.lookup p = some (z, zu)) :
    tableOf k s p = .ok (writeTable k.types k.adimensional ⟨x, c!"T", xu⟩ ⟨y, k.second, yu⟩ z p zu) := by
  simp only [tableOf, hx, hxu, hy, hyu, axis, known, item, hz, Except.bind, Except.map]

/-! ### Tables -/

/-- The matrix of the values of a function. -/
def matrixOf (x y : List ℚ) (z : ℕ → ℕ → ℚ) : Values :=
  .mat ((List.range x.length).map fun i => (List.range y.length).map (z i))

theorem entry_matrixOf {x y : List ℚ} {z : ℕ → ℕ → ℚ} {i j : ℕ} (hi : i < x.length) (hj : j < y.length) :
    (matrixOf x y z).entry i j = .ok (z i j) := by
  simp [matrixOf, Values.entry, at_, hi, hj, Except.bind]

/-- The titles of the harmonic tables. -/
def Spec.haTitles : List (Str × Str) := [
  (c!"U0", c!"Static energy"), (c!"Uzp", c!"Zero-point energy"), (c!"Uth", c!"Thermal energy"),
  (c!"Utot", c!"Internal energy"), (c!"S", c!"Entropy"), (c!"Cv", c!"Isochoric heat capacity"),
  (c!"Fvib", c!"Vibrational Helmholtz free energy"), (c!"F", c!"Helmholtz free energy")]

/-- The titles of the quasi-harmonic tables. -/
def Spec.qhaTitles : List (Str × Str) := [
  (c!"Uzp", c!"Zero-point energy"), (c!"Uth", c!"Thermal energy"),
  (c!"Utot", c!"Internal energy"), (c!"S", c!"Entropy"), (c!"Cv", c!"Isochoric heat capacity"),
  (c!"Fvib", c!"Vibrational Helmholtz free energy"), (c!"F", c!"Helmholtz free energy"),
  (c!"VT", c!"Unit cell volume"), (c!"Cp", c!"Isobaric heat capacity"),
  (c!"Cp-Cv", c!"Correction for isobaric heat capacity"), (c!"KT", c!"Isothermal bulk modulus"),
  (c!"KS", c!"Adiabatic bulk modulus"), (c!"Kp", c!"First-derivative of bulk modulus"),
  (c!"H", c!"Enthalpy"), (c!"G", c!"Gibbs free energy"),
  (c!"alphaV", c!"Volumetric coefficient of thermal expansion"), (c!"gruneisen", c!"Gruneisen parameters")]

/-- Volumes and elastic moduli are written with eight decimals, all other quantities in scientific
notation. -/
def Spec.fixedNames : List Str := [c!"VT", c!"KT", c!"KS", c!"Kp"]

/-- How the values of a quantity are written. -/
def Spec.close (p : Str) : ℚ → ℚ → Prop := if p ∈ fixedNames then Rounded 8 else Significant 12

/-- The value fits in its cell. -/
def Spec.FitsValue (p : Str) (x : ℚ) : Prop := if p ∈ fixedNames then FitsFixed x else FitsEnergy x

/-- The numbers of a table fit in their cells, and so do the labels. -/
structure Spec.AllFit (p : Str) (x y : List ℚ) (z : ℕ → ℕ → ℚ) (xlabel ylabel : Str) : Prop where
  temperatures : ∀ t ∈ x, FitsTemperature t
  columns : ∀ v ∈ y, FitsFixed v
  values : ∀ i < x.length, ∀ j < y.length, FitsValue p (z i j)
  xlabel : xlabel.length ≤ 10
  ylabel : ylabel.length ≤ 19

/-- The style of a quantity is that of the specification. -/
def StyleOf (p : Str) (q : Quantity) : Prop :=
  q.numstyle = if p ∈ fixedNames then .fixed else .energy

theorem style_close {p : Str} {q : Quantity} (h : StyleOf p q) :
    closeAs q.numstyle = Spec.close p ∧ q.numstyle ≠ .temperature ∧
      ∀ v, FitsValue p v → Fits q.numstyle v := by
  rw [StyleOf] at h
  rw [h]
  unfold Spec.close FitsValue
  split
  · exact ⟨rfl, by decide, fun v hv => hv⟩
  · exact ⟨rfl, by decide, fun v hv => hv⟩

theorem writeTable_isTable {k : Kind} {x y : List ℚ} {xu yu zu p : Str} {qx qy qz : Quantity}
    (hx : k.types.lookup c!"T" = some qx) (hqx : qx.numstyle = .temperature)
    (hy : k.types.lookup k.second = some qy) (hqy : qy.numstyle = .fixed)
    (hz : k.types.lookup p = some qz) (hs : StyleOf p qz) (hn : y ≠ []) (z : ℕ → ℕ → ℚ)
    (hxn : '\n' ∉ labelOf qx xu) (hyn : '\n' ∉ labelOf qy yu) :
    ∃ text body, writeTable k.types k.adimensional ⟨x, c!"T", xu⟩ ⟨y, k.second, yu⟩ (matrixOf x y z) p zu =
        ⟨text, none⟩ ∧
      IsTable (Spec.close p) x y z qz.desc (unitLine k.adimensional zu) (labelOf qx xu) (labelOf qy yu)
        body text ∧
      (AllFit p x y z (labelOf qx xu) (labelOf qy yu) → ∀ l ∈ body, l.length = 21 * y.length + 12) := by
  obtain ⟨labels, hl, e⟩ := writeTable_ok (types := k.types) (adim := k.adimensional)
    (x := ⟨x, c!"T", xu⟩) (y := ⟨y, k.second, yu⟩) (z := matrixOf x y z) (zname := p) (zunit := zu) hx hqx hy
    hqy hz hn (zf := z) (fun i hi j hj => entry_matrixOf hi hj)
  obtain ⟨c1, c2, c3⟩ := style_close hs
  refine ⟨_, bodyLines qz.numstyle labels x y z, e, ?_, ?_⟩
  · rw [← c1]
    exact bodyLines_isTable (header_isLabels hl) hxn hyn
  · intro h
    exact bodyLines_length c2 (header_length hl h.xlabel h.ylabel) h.temperatures h.columns
      fun i hi j hj => c3 _ (h.values i hi j hj)

theorem haTypes_ok : ∀ p ∈ Spec.haTitles, ∃ q, haTypes.lookup p.1 = some q ∧ q.desc = p.2 ∧ StyleOf p.1 q := by
  intro p hp
  simp only [haTitles, List.mem_cons, List.not_mem_nil, or_false] at hp
  rcases hp with rfl | rfl | rfl | rfl | rfl | rfl | rfl | rfl <;>
    exact ⟨_, rfl, rfl, by unfold StyleOf; decide⟩

theorem qhaTypes_ok : ∀ p ∈ Spec.qhaTitles, ∃ q, qhaTypes.lookup p.1 = some q ∧ q.desc = p.2 ∧ StyleOf p.1 q := by
  intro p hp
  simp only [qhaTitles, List.mem_cons, List.not_mem_nil, or_false] at hp
  rcases hp with rfl | rfl | rfl | rfl | rfl | rfl | rfl | rfl | rfl | rfl | rfl | rfl | rfl | rfl | rfl | rfl | rfl <;>
    exact ⟨_, rfl, rfl, by unfold StyleOf; decide⟩

/-- The line of the units of a quantity. -/
def Spec.unitText (unit : Str) : Str :=
  if unit = [] then c!"Adimensional data" else c!"Data in " ++ unit ++ c!" units"

/-- The result of a round of the dialogue in which a table was written. -/
def Spec.Wrote (k : Kind) (s : Shared) (e : Exporter) (a : Answer) (disk : Disk) (text : Str) : Prop :=
  ∀ rest, run k s e (a :: rest) disk =
    if a.more then run k s e rest (Function.update disk (outfileOf e disk a) (some text))
    else (Function.update disk (outfileOf e disk a) (some text), .finished)

theorem run_wrote {k : Kind} {s : Shared} {e : Exporter} {a : Answer} {disk : Disk} {text : Str}
    (h : a.selection ∈ e.keys) (ht : tableOf k s a.selection = .ok ⟨text, none⟩) :
    Wrote k s e a disk text := by
  intro rest
  rw [run, if_pos h, ht]

theorem run_crashed {k : Kind} {s : Shared} {e : Exporter} {a : Answer} {disk : Disk} {text : Str}
    {err : PyErr} (h : a.selection ∈ e.keys) (ht : tableOf k s a.selection = .ok ⟨text, some err⟩)
    (rest : List Answer) : run k s e (a :: rest) disk =
      (Function.update disk (outfileOf e disk a) (some text), .crashed err) := by
  rw [run, if_pos h, ht]

/-! ### The saved files -/

theorem saveQha_file {u : Scales} {info : Str} {descriptions : Str → Str} {r : QhaRun}
    (hr : ∀ p ∈ qhaProperties, ∀ x, r.results p ≠ .scalar x) :
    ResultFile quasiHarmonic (saveQha u info descriptions r) info r.temperature r.pressure u.temperature
      u.pressure (qhaUnit u) := by
  refine ⟨rfl, ?_, ⟨_, List.mem_cons_self .., rfl⟩,
    ⟨_, List.mem_cons_of_mem _ (List.mem_cons_self ..), rfl⟩, ?_⟩
  · show (c!"T" :: c!"P" :: (qhaProperties.map _).map Prod.fst).Nodup
    rw [List.map_map]
    show (c!"T" :: c!"P" :: qhaProperties.map id).Nodup
    decide
  · intro p hp h1 h2
    simp only [saveQha, List.mem_cons, List.mem_map] at hp
    rcases hp with rfl | rfl | ⟨q, hq, rfl⟩
    · exact absurd rfl h1
    · exact absurd rfl h2
    · exact ⟨hr q hq, rfl⟩

theorem saveHa_file {u : Scales} {info : Str} {descriptions : Str → Str} {r : HaRun}
    (hr : ∀ p ∈ haProperties, ∀ x, r.results p ≠ .scalar x) :
    ResultFile harmonic (saveHa u info descriptions r) info r.temperature r.volume u.temperature
      u.volume (haUnit u) := by
  refine ⟨rfl, ?_, ⟨_, List.mem_cons_of_mem _ (List.mem_cons_self ..), rfl⟩,
    ⟨_, List.mem_cons_self .., rfl⟩, ?_⟩
  · show (c!"V" :: c!"T" :: c!"U0" :: (haProperties.map _).map Prod.fst).Nodup
    rw [List.map_map]
    show (c!"V" :: c!"T" :: c!"U0" :: haProperties.map id).Nodup
    decide
  · intro p hp h1 h2
    simp only [saveHa, List.mem_cons, List.mem_map] at hp
    rcases hp with rfl | rfl | rfl | ⟨q, hq, rfl⟩
    · exact absurd rfl h2
    · exact absurd rfl h1
    · exact ⟨fun x => by simp [dataset], rfl⟩
    · exact ⟨hr q hq, rfl⟩

end Verif.Export
