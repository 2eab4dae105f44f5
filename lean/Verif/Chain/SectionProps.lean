/-
Property C156: from an elastic input file to the exported sections.
-/
import Verif.Chain.SectionSpec
import Verif.Chain.ElasticProps
import Verif.Chain.QuasiTableProps
import Verif.Polar.Figures

noncomputable section

namespace Verif.Chain
open Verif.Py Verif.IO Verif.IO.Spec Verif.Elastic Verif.Elastic.Spec Verif.Seismic Verif.Seismic.Spec Verif.Polar Spec
open Verif.Polar.Spec (angle direction Listed Descends available)
open Verif.Export (H5 Answer Disk)
open Verif.Export.Spec (IsSectionTable SectionTables FitsSection sectionWidth sectionTitle WroteElastic Foreign SavedElastic
  afterLoading)

theorem plain_orthorhombic {m : Mat} (hc : Plain m) (hs : IO.Spec.Symmetric m)
    (hk : checkSymmetry (real m) = .ok .orthorhombic) : OrthorhombicForm (real m) := by
  refine ⟨real_symm hs, fun i j hij h3 => ?_⟩
  rcases hc with hc | ⟨a, b, hab, hab3, hv⟩
  · show ((m i j : ℚ) : ℝ) = 0
    rw [hc i j hij h3]; simp
  · exfalso
    have h2 : |((m a b : ℚ) : ℝ)| ≤ 1 / 1000 := orthorhombic_small hk a b hab hab3
    have h3 : ((|m a b| : ℚ) : ℝ) ≤ ((1 / 1000 : ℚ) : ℝ) := by push_cast; exact h2
    exact absurd (show |m a b| ≤ 1 / 1000 by exact_mod_cast h3) (not_le.2 hv)

theorem listed_width {C : M6} {density : ℝ} {a : V3} {v : Var} {l : List ℝ} (h : Listed C density a v l) :
    l.length = sectionWidth v := by
  cases v
  · obtain ⟨E, rfl, -⟩ := h; rfl
  · obtain ⟨p, q, β, rfl, -⟩ := h; rfl
  · obtain ⟨p, q, rfl, -⟩ := h; rfl
  · obtain ⟨p, q, r, s, rfl, -⟩ := h; rfl
  · obtain ⟨V, -, rfl⟩ := h; rfl

/-- Reading the input file of a stable crystal. -/
theorem read_input {y : Layout} (hy : y ≠ .lower) {C : Mat} (hC : IO.Spec.Symmetric C) (hp : (real C).PosDef)
    {title : Option Str} {rho : ℚ} {ls : List Str} {text : Str} (h : SoecLines y C title (some rho) ls) (hf : IsFile ls text) :
    ∃ i, readInput text = .ok (.ok i) ∧ load (real C) rho = .ok (i.system, i.solid) := by
  obtain ⟨d, e, hs, hd, -⟩ := C47_matrix_partial hy hC h hf .initial
  obtain ⟨sys, o, hl⟩ := load_of_symm (posDef_det hp) (real_symm hC) (rho : ℝ)
  refine ⟨⟨d.job, sys, o⟩, ?_, hl⟩
  unfold readInput
  rw [e]
  simp [hs, hd rho rfl, hl, bind, Except.bind, pure, Except.pure]

theorem forall₂_getElem? {α β : Type} {R : α → β → Prop} {l : List α} {m : List β} (h : List.Forall₂ R l m) {i : ℕ} {x : α}
    (hx : l[i]? = some x) : ∃ y, m[i]? = some y ∧ R x y := by
  induction h generalizing i with
  | nil => simp at hx
  | cons h _ ih =>
    cases i with
    | zero => simp at hx; subst hx; exact ⟨_, rfl, h⟩
    | succ i => simpa using ih (by simpa using hx)

/-- The rows of the saved tables. -/
theorem held_tables {C : M6} {density ε : ℝ} {v : Var} {tab : Plane → List (List ℚ)} {angles : List ℚ} {n : ℕ}
    (hrow : ∀ k, ∃ table : List (List ℝ), table.length = n ∧ Held ε table (tab k) ∧
      ∀ i < n, ∃ values, table[i]? = some (angle n i :: values) ∧
        Listed C density (direction k (radians (angle n i))) v values)
    (ha : ∀ k, (tab k).map List.head? = angles.map some) :
    ∃ values : Plane → ℕ → List ℚ, SectionTables v n angles values tab ∧
      ∀ i < n, ∃ t : ℚ, angles[i]? = some t ∧ |(t : ℝ) - angle n i| ≤ ε * |angle n i| ∧
        ∀ k, (tab k)[i]? = some (t :: values k i) ∧ ∃ xs, Listed C density (direction k (radians (angle n i))) v xs ∧
          List.Forall₂ (fun (x : ℝ) (q : ℚ) => |(q : ℝ) - x| ≤ ε * |x|) xs (values k i) := by
  have hlen : ∀ k, (tab k).length = n := fun k => by
    obtain ⟨table, h1, h2, -⟩ := hrow k
    rw [← h1]; exact h2.length_eq.symm
  have hal : angles.length = n := by
    have := congrArg List.length (ha .xy)
    simpa [hlen] using this.symm
  have key : ∀ k, ∀ i < n, ∃ t qs, angles[i]? = some t ∧ (tab k)[i]? = some (t :: qs) ∧
      |(t : ℝ) - angle n i| ≤ ε * |angle n i| ∧ ∃ xs, Listed C density (direction k (radians (angle n i))) v xs ∧
          List.Forall₂ (fun (x : ℝ) (q : ℚ) => |(q : ℝ) - x| ≤ ε * |x|) xs qs := by
    intro k i hi
    obtain ⟨table, h1, h2, h3⟩ := hrow k
    obtain ⟨xs, e, hl⟩ := h3 i hi
    obtain ⟨row, er, hr⟩ := forall₂_getElem? h2 e
    obtain ⟨t, qs, ht, hq, rfl⟩ : ∃ (t : ℚ) (qs : List ℚ), |(t : ℝ) - angle n i| ≤ ε * |angle n i| ∧
        List.Forall₂ (fun (x : ℝ) (q : ℚ) => |(q : ℝ) - x| ≤ ε * |x|) xs qs ∧ row = t :: qs := by
      cases hr with
      | cons a b => exact ⟨_, _, a, b, rfl⟩
    refine ⟨t, qs, ?_, er, ht, xs, hl, hq⟩
    have := congrArg (fun l => l[i]?) (ha k)
    simp only [List.getElem?_map, er, Option.map_some, List.head?_cons] at this
    cases hx : angles[i]? with
    | none => rw [hx] at this; simp at this
    | some z => rw [hx] at this; simp at this; rw [this]
  refine ⟨fun k i => if i < n then ((tab k)[i]?.getD []).tail else List.replicate (sectionWidth v) 0, ⟨hal, fun k i => ?_,
    fun k => ⟨hlen k, fun i t ht => ?_⟩⟩, fun i hi => ?_⟩
  · by_cases hi : i < n
    · obtain ⟨t, qs, -, e, -, xs, hl, hq⟩ := key k i hi
      simp only [hi, if_true, e, Option.getD_some, List.tail_cons, ← hq.length_eq, listed_width hl]
    · simp [hi]
  · have hi : i < n := by
      rw [← hal]
      exact (List.getElem?_eq_some_iff.1 ht).1
    obtain ⟨t', qs, e', e, -⟩ := key k i hi
    rw [ht] at e'
    cases e'
    simp [hi, e]
  · obtain ⟨t, -, e, -, ht, -⟩ := key .xy i hi
    refine ⟨t, e, ht, fun k => ?_⟩
    obtain ⟨t', qs, e', er, -, hx⟩ := key k i hi
    rw [e] at e'
    cases e'
    simp only [hi, if_true, er, Option.getD_some, List.tail_cons, true_and]
    exact hx

theorem caption_lines (v : Var) : sectionTitle v = (caption v).1 ∧
    (if Polar.unitOf c!"GPa" v = [] then c!"Adimensional data" else c!"Data in " ++ Polar.unitOf c!"GPa" v ++ c!" units") =
      (caption v).2 ∧ '\n' ∉ (caption v).1 ∧ '\n' ∉ (caption v).2 := by
  cases v <;> decide +kernel

theorem forall₂_split {α β : Type} {R : α → β → Prop} {a b c : List α} {m : List β} (h : List.Forall₂ R (a ++ b ++ c) m) :
    ∃ x y z, m = x ++ y ++ z ∧ List.Forall₂ R a x ∧ List.Forall₂ R b y ∧ List.Forall₂ R c z := by
  have h1 := List.forall₂_take_append m (a ++ b) c h.flip
  have h2 := List.forall₂_drop_append m (a ++ b) c h.flip
  have h3 := List.forall₂_take_append _ a b h1
  have h4 := List.forall₂_drop_append _ a b h1
  exact ⟨_, _, _, by rw [List.take_append_drop, List.take_append_drop], h3.flip, h4.flip, h2.flip⟩

theorem forall₂_mem {α β : Type} {R : α → β → Prop} {l : List α} {m : List β} (h : List.Forall₂ R l m) {y : β} (hy : y ∈ m) :
    ∃ x ∈ l, R x y := by
  induction h with
  | nil => simp at hy
  | cons a _ ih =>
    rcases List.mem_cons.1 hy with rfl | hy
    · exact ⟨_, by simp, a⟩
    · obtain ⟨x, hx, e⟩ := ih hy
      exact ⟨x, by simp [hx], e⟩

theorem forall₂_rounded {ε : ℝ} {xs : List ℝ} {qs ps : List ℚ}
    (h : List.Forall₂ (fun (x : ℝ) (q : ℚ) => |(q : ℝ) - x| ≤ ε * |x|) xs qs) (h' : List.Forall₂ (Rounded 4) qs ps) :
    List.Forall₂ (fun (x : ℝ) (q : ℚ) => |(q : ℝ) - x| ≤ 1 / (2 * 10 ^ 4) + ε * |x|) xs ps := by
  induction h generalizing ps with
  | nil => cases h'; exact .nil
  | cons a _ ih =>
    cases h' with
    | cons b c => exact .cons (rounded_near b a) (ih c)

/-- A table of saved sections shows the values of the crystal. -/
theorem section_shows {C : M6} {density ε : ℝ} {v : Var} {tab : Plane → List (List ℚ)} {angles : List ℚ}
    {values : Plane → ℕ → List ℚ} {body : List Str} {text : Str}
    (ht : IsSectionTable v angles values (Polar.unitOf c!"GPa" v) body text) (hal : angles.length = 360)
    (hv : ∀ i < 360, ∃ t : ℚ, angles[i]? = some t ∧ |(t : ℝ) - angle 360 i| ≤ ε * |angle 360 i| ∧
        ∀ k, (tab k)[i]? = some (t :: values k i) ∧ ∃ xs, Listed C density (direction k (radians (angle 360 i))) v xs ∧
          List.Forall₂ (fun (x : ℝ) (q : ℚ) => |(q : ℝ) - x| ≤ ε * |x|) xs (values k i))
    (h1 : ε ≤ 1) : ExportsSections ε C density v text := by
  intro i hi hm
  obtain ⟨t, e, hta, hk⟩ := hv i hi
  have han : angle 360 i = 360 * i / 359 := by unfold Polar.Spec.angle; norm_num
  have hrd : radians (angle 360 i) = 360 * i / 359 * Real.pi / 180 := by rw [han]; rfl
  obtain ⟨r1, labels, dirs, names, r2, rows, r3, hb, -, -, -, -, -, -, hlen, hrows⟩ := ht.body_eq
  have hir : i < rows.length := by omega
  have small : ∀ {x : ℝ} {q : ℚ}, |(q : ℝ) - x| ≤ ε * |x| → |x| ≤ 100000 → |q| ≤ 10 ^ 6 - 1 := fun {x q} hq hx => by
    have a1 := abs_sub_abs_le_abs_sub (q : ℝ) x
    have a2 := mul_le_mul_of_nonneg_right h1 (abs_nonneg x)
    have : ((|q| : ℚ) : ℝ) ≤ ((10 ^ 6 - 1 : ℚ) : ℝ) := by push_cast; linarith
    exact_mod_cast this
  have hbd : ∀ k, ∀ q ∈ values k i, |q| ≤ 10 ^ 6 - 1 := fun k q hq => by
    obtain ⟨-, xs, l1, l2⟩ := hk k
    rw [hrd] at l1
    obtain ⟨x, hx, e⟩ := forall₂_mem l2 hq
    exact small e (hm k xs l1 x hx)
  have hbt : |t| ≤ 10 ^ 6 - 1 := by
    refine small hta ?_
    rw [han, abs_of_nonneg (by positivity)]
    have : (i : ℝ) ≤ 359 := by exact_mod_cast Nat.le_of_lt_succ hi
    linarith
  obtain ⟨t', vs, a1, a2, a3⟩ := hrows i t rows[i] e (List.getElem?_eq_getElem hir) ⟨hbt, fun q hq => by
    have : |q| ≤ 10 ^ 6 - 1 := by
      rcases List.mem_append.1 hq with hq | hq
      · rcases List.mem_append.1 hq with hq | hq
        · exact hbd .xy q hq
        · exact hbd .xz q hq
      · exact hbd .yz q hq
    exact this.trans (by norm_num)⟩
  obtain ⟨x, y, z, rfl, b1, b2, b3⟩ := forall₂_split a2
  obtain ⟨c1, c2, c3, c4⟩ := caption_lines v
  refine ⟨t', fun | .xy => x | .xz => y | .yz => z, ⟨_, rows[i], ?_, ht.text_eq, ?_, ?_, ?_, a3⟩, ?_, fun k => ?_⟩
  · intro l hl
    rw [c1, c2] at hl
    rcases List.mem_append.1 hl with hl | hl
    · simp only [List.mem_cons, List.not_mem_nil, or_false] at hl
      rcases hl with rfl | rfl | rfl | rfl | rfl
      · decide
      · decide
      · exact c3
      · exact c4
      · decide
    · exact ht.lines l hl
  · rw [← c1]; rfl
  · rw [← c2]; rfl
  · rw [hb, show 10 + i = i + 5 + 5 by omega]
    simp only [List.cons_append, List.nil_append, List.getElem?_cons_succ]
    rw [List.getElem?_append_left hir, List.getElem?_eq_getElem hir]
  · have := rounded_near a1 hta
    rw [han] at this
    rw [abs_of_nonneg (show (0 : ℝ) ≤ 360 * i / 359 by positivity)] at this
    norm_num at this ⊢
    exact this
  · obtain ⟨-, xs, h1, h2⟩ := hk k
    rw [hrd] at h1
    refine ⟨xs, h1, ?_⟩
    cases k
    · exact forall₂_rounded h2 b1
    · exact forall₂_rounded h2 b2
    · exact forall₂_rounded h2 b3

/-- C156, in part: for every input file with the moduli of a stable crystal, as a full matrix or an upper triangle, and its density,
the calculator reads the file, and when the sections it calculates are saved with the relative error `ε`, the exporter offers each
quantity that has a section and writes, whatever was loaded before, a table with the angles from 0 to 360 degrees and the values of
this crystal along the direction at each angle on each of the three planes.  Missing: crystals that are orthorhombic only within
the tolerance of the classifier, see `C94_near_violated`, and lower triangles, see `C47_lower_violated`. -/
theorem C156_sections_partial {y : Layout} (hy : y ≠ .lower) {C : Mat} (hC : IO.Spec.Symmetric C) (hp : (real C).PosDef)
    (hc : Plain C) {title : Option Str} {rho : ℚ} {ls : List Str} {text : Str} (h : SoecLines y C title (some rho) ls)
    (hf : IsFile ls text) :
    ∃ i, readInput text = .ok (.ok i) ∧
      ∀ (powell : Powell), Descends powell → ∀ (num : Numerics), EighCorrect num → ∀ eigvals ε (r : Polar.Results ℚ),
        ε ≤ 1 → HoldsSections ε r (finalResults eigvals powell num i.solid true).polar →
        ∀ history : List (Str × H5), (∀ p ∈ history, Foreign p.2 ∨ SavedElastic p.2) → ∀ filename,
          ∃ d e, Export.loadElastic (afterLoading [] history) filename (Export.elasticFile (saveElastic c!"GPa" r)) = (d, .ok e) ∧
            e.error = none ∧ (∀ key, key ∈ e.keys ↔ ∃ v : Var, key = v.key ∧ (v = .waves → 0 < rho)) ∧
            ∀ v : Var, (v = .waves → 0 < rho) → ∀ (a : Answer) (disk : Disk), a.selection = v.key →
              ∃ out, WroteElastic d e a disk out ∧ ExportsSections ε (real C) rho v out := by
  obtain ⟨i, hi, hl⟩ := read_input hy hC hp h hf
  refine ⟨i, hi, fun powell hpo num hn eigvals ε r he ⟨waves, tab, angles, hr, ht⟩ history hh filename => ?_⟩
  have ho : i.system = .orthorhombic → OrthorhombicForm (real C) := fun e => by
    obtain ⟨-, -, -, -, -, -, hk⟩ := load_solid hl
    exact plain_orthorhombic hc hC (e ▸ hk)
  obtain ⟨s1, s2, -⟩ := C94_sections_partial (real C) hp rho i.system i.solid hl ho powell hpo num hn 360 (by norm_num)
  have hav : ∀ v : Var, available (rho : ℝ) v ↔ (v = .waves → 0 < rho) := fun v => by
    unfold available; norm_cast
  have hw : ∀ v : Var, (v = .waves → waves = true) ↔ (v = .waves → 0 < rho) := fun v => by
    rw [(ht v).1, ← hav]
    constructor
    · rintro ⟨table, e⟩
      by_contra hn
      have := s2 .xy v hn
      exact absurd (e.symm.trans this) (by simp)
    · intro ha
      obtain ⟨table, e, -⟩ := s1 .xy v ha
      exact ⟨table, e⟩
  obtain ⟨d, e, h1, h2, h3, h4⟩ := Export.C97_tables history hh c!"GPa" r waves tab hr filename
  refine ⟨d, e, h1, h2, fun key => (h3 key).trans ?_, fun v hv a disk hsel => ?_⟩
  · simp only [hw]
  · have hq := fun k => s1 k v ((hav v).2 hv)
    choose table e1 e2 e3 using hq
    obtain ⟨values, hst, hvals⟩ := held_tables (C := real C) (density := rho) (ε := ε) (v := v) (tab := fun k => tab k v)
      (angles := angles) (n := 360) (fun k => ⟨table k, e2 k, ((ht v).2 k (table k) (e1 k)).1, e3 k⟩)
      (fun k => ((ht v).2 k (table k) (e1 k)).2)
    obtain ⟨out, body, hwr, htab⟩ := h4 v ((hw v).2 hv) 360 angles values (by norm_num) hst a disk hsel
    exact ⟨out, hwr, section_shows (tab := fun k => tab k v) htab hst.1 hvals he⟩

end Verif.Chain
