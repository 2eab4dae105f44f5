/-
A concrete input file that meets the hypotheses of C156.
-/
import Verif.Chain.SectionProps
import Verif.Chain.TableCases
import Verif.Chain.Witness
import Verif.Polar.Witness

noncomputable section

namespace Verif.Chain
open Verif.Py Verif.IO Verif.IO.Spec Verif.Elastic Verif.Elastic.Spec Verif.Seismic Verif.Seismic.Spec Verif.Polar Spec
open Verif.Polar.Spec (angle direction Listed Descends available IsYoung)

theorem forall₂_map {α β : Type} {R : α → β → Prop} {f : α → β} (h : ∀ x, R x (f x)) (l : List α) :
    List.Forall₂ R l (l.map f) := by
  induction l with
  | nil => exact .nil
  | cons x l ih => exact .cons (h x) ih

/-- The sections of every stable crystal can be held by a file, with any relative error. -/
theorem holds_sections_exists {C : M6} (hC : C.PosDef) {density : ℝ} {sys : System} {o : Solid}
    (h : load C density = .ok (sys, o)) (ho : sys = .orthorhombic → OrthorhombicForm C) {powell : Powell} (hp : Descends powell)
    {num : Numerics} (hn : EighCorrect num) (eigvals : M6 → List ℝ) {ε : ℝ} (hε : 0 < ε) :
    ∃ r, HoldsSections ε r (finalResults eigvals powell num o true).polar := by
  classical
  choose q hq using fun y => near_rat hε y
  obtain ⟨s1, s2, -⟩ := C94_sections_partial C hC density sys o h ho powell hp num hn 360 (by norm_num)
  let tab (k : Plane) (v : Var) : List (List ℚ) := (((calculatePolar powell num o 360).table k v).getD []).map fun l => l.map q
  refine ⟨⟨[], [], [], [], sectionsOf (decide (0 < density)) tab⟩, decide (0 < density), tab,
    (List.range 360).map fun i => q (angle 360 i), rfl, fun v => ⟨?_, fun k table e => ?_⟩⟩
  · rw [show ((v = .waves → decide (0 < density) = true) ↔ available density v) by simp [available]]
    constructor
    · intro ha
      obtain ⟨table, e, -⟩ := s1 .xy v ha
      exact ⟨table, e⟩
    · rintro ⟨table, e⟩
      by_contra hv
      exact absurd (e.symm.trans (s2 .xy v hv)) (by simp)
  · have e' : (calculatePolar powell num o 360).table k v = some table := e
    have ht : tab k v = table.map fun l => l.map q := by simp only [tab, e', Option.getD_some]
    rw [ht]
    refine ⟨forall₂_map (fun l => forall₂_map (R := fun (x : ℝ) (p : ℚ) => |(p : ℝ) - x| ≤ ε * |x|) (fun x => hq x) l) table, ?_⟩
    have ha : available density v := by
      by_contra hv
      exact absurd (e'.symm.trans (s2 k v hv)) (by simp)
    obtain ⟨table', e1, e2, e3⟩ := s1 k v ha
    rw [e'] at e1
    cases e1
    refine List.ext_getElem? fun i => ?_
    by_cases hi : i < 360
    · obtain ⟨values, er, -⟩ := e3 i hi
      simp [List.getElem?_map, er, List.getElem?_range hi]
    · have h1 : table[i]? = none := List.getElem?_eq_none (by omega)
      have h2 : (List.range 360)[i]? = none := List.getElem?_eq_none (by simp; omega)
      simp only [List.getElem?_map, h1, h2, Option.map_none]

theorem layered_posDef : (real layered).PosDef :=
  close_posDef (by norm_num : (0 : ℝ) < 1 / 10) (real_symm layered_symm) (resists_quad layered_resists)

theorem layered_lines : SoecLines .full layered (some c!"layers") (some 3000)
    ([c!"layers"] ++ (List.finRange 6).map (fun i => writeRow (layered i)) ++ [alignRight 9 (formatFixed 1 3000)]) := by
  have ht : Title c!"layers" := ⟨[], 'l', c!"ayers", by simp [IO.Spec.Blank], by decide, by decide, rfl⟩
  have h := writeSoec_lines layered 3000 ht
  have e1 : (fun i j => printed 4 (layered i j)) = layered := by
    have : ∀ i j, printed 4 (layered i j) = layered i j := by decide +kernel
    funext i j; exact this i j
  have e2 : printed 1 3000 = 3000 := by decide +kernel
  rwa [e1, e2] at h

/-- Young's modulus of the layers along the directions of a section is not above 3000 GPa. -/
theorem layered_young {n : V3} (hn : UnitVector n) {E : ℝ} (h : IsYoung (real layered) n E) :
    E = 1 / (n 0 ^ 4 / 1000 + n 1 ^ 4 + n 2 ^ 4 + n 1 ^ 2 * n 2 ^ 2 * 10 + n 0 ^ 2 * n 2 ^ 2 / 1000 +
      n 0 ^ 2 * n 1 ^ 2 / 1000) ∧ |E| ≤ 100000 := by
  obtain ⟨ε, hh, he⟩ := h
  have h0 : along ε n n ≠ 0 := fun h => by rw [h] at he; simp at he
  have e := diagonal_young layered_diagonal (by decide +kernel) (E := E) (n := n) ⟨ε, hh, h0, by rw [eq_div_iff h0]; exact he⟩
  have d0 : layered 0 0 = 1000 := by decide +kernel
  have d1 : layered 1 1 = 1 := by decide +kernel
  have d2 : layered 2 2 = 1 := by decide +kernel
  have d3 : layered 3 3 = 1 / 10 := by decide +kernel
  have d4 : layered 4 4 = 1000 := by decide +kernel
  have d5 : layered 5 5 = 1000 := by decide +kernel
  rw [d0, d1, d2, d3, d4, d5] at e
  push_cast at e
  have e' : E = 1 / (n 0 ^ 4 / 1000 + n 1 ^ 4 + n 2 ^ 4 + n 1 ^ 2 * n 2 ^ 2 * 10 + n 0 ^ 2 * n 2 ^ 2 / 1000 +
      n 0 ^ 2 * n 1 ^ 2 / 1000) := by
    rw [e]; congr 1; ring
  refine ⟨e', ?_⟩
  simp only [UnitVector, dot, Fin.sum_univ_three] at hn
  have k : (1 : ℝ) / 100000 ≤ n 0 ^ 4 / 1000 + n 1 ^ 4 + n 2 ^ 4 + n 1 ^ 2 * n 2 ^ 2 * 10 + n 0 ^ 2 * n 2 ^ 2 / 1000 +
      n 0 ^ 2 * n 1 ^ 2 / 1000 := by
    have hu : n 0 ^ 2 = 1 - n 1 ^ 2 - n 2 ^ 2 := by linarith
    have e4 : n 0 ^ 4 = (n 0 ^ 2) ^ 2 := by ring
    have e5 : n 1 ^ 4 = (n 1 ^ 2) ^ 2 := by ring
    have e6 : n 2 ^ 4 = (n 2 ^ 2) ^ 2 := by ring
    have a := sq_nonneg (n 0)
    have b := sq_nonneg (n 1)
    have c := sq_nonneg (n 2)
    rw [e4, e5, e6]
    have h1 : n 0 ^ 2 + n 1 ^ 2 + n 2 ^ 2 = 1 := by linarith
    generalize n 0 ^ 2 = u at *
    generalize n 1 ^ 2 = v at *
    generalize n 2 ^ 2 = w at *
    nlinarith [mul_nonneg a b, mul_nonneg a c, mul_nonneg b c, sq_nonneg (u - v), sq_nonneg (u - w), sq_nonneg (v - w)]
  rw [e', abs_of_pos (by positivity), div_le_iff₀ (by linarith)]
  linarith

theorem section_unit (k : Plane) (i : ℕ) : UnitVector (sectionDirection k i) := by
  unfold sectionDirection
  generalize (360 * (i : ℝ) / 359 * Real.pi / 180) = t
  have := Real.sin_sq_add_cos_sq t
  cases k <;> simp [UnitVector, dot, Fin.sum_univ_three, Polar.Spec.direction] <;> linarith

/-- `C156_sections_partial` applies to the input file of layers: after a run whose sections are saved with eleven correct digits the
exporter writes the table of Young's moduli, and its first line shows the angle 0, 1000 GPa along x and 1 GPa along z. -/
example (disk : Export.Disk) : ∃ (i : Input) (r : Polar.Results ℚ) (d : Export.Data) (e : Export.Exporter) (out : Str),
    readInput (writeSoec layered 3000 c!"layers") = .ok (.ok i) ∧
    Export.loadElastic [] c!"layers.hdf5" (Export.elasticFile (saveElastic c!"GPa" r)) = (d, .ok e) ∧
    c!"waves" ∈ e.keys ∧
    Export.Spec.WroteElastic d e ⟨c!"E", false, [], true⟩ disk out ∧
    ∃ t x1 x2 x3, ShowsSection out .E 0 t [x1, x2, x3] ∧ |(t : ℝ)| ≤ 1 / 20 ∧ |(x1 : ℝ) - 1000| ≤ 1 / 1000 ∧
      |(x2 : ℝ) - 1| ≤ 1 / 1000 ∧ |(x3 : ℝ) - 1| ≤ 1 / 1000 := by
  obtain ⟨powell, hd, -⟩ := exists_powell
  obtain ⟨num, hn, -⟩ := exists_numerics
  have hpl : Plain layered := .inl fun i j hij _ => layered_diagonal i j hij
  obtain ⟨i, h1, h2⟩ := C156_sections_partial (by decide) layered_symm layered_posDef hpl layered_lines
    (writeSoec_file layered 3000 (by decide))
  obtain ⟨i', h1', hl⟩ := read_input (by decide) layered_symm layered_posDef layered_lines
    (writeSoec_file layered 3000 (by decide))
  rw [h1] at h1'
  cases h1'
  obtain ⟨r, hr⟩ := holds_sections_exists layered_posDef hl
    (fun e => plain_orthorhombic hpl layered_symm (e ▸ (load_solid hl).2.2.2.2.2.2)) hd hn (fun _ => [])
    (show (0 : ℝ) < 1 / 10 ^ 11 by norm_num)
  obtain ⟨d, e, g1, -, g2, g3⟩ := h2 powell hd num hn _ _ r (by norm_num) hr [] (by simp) c!"layers.hdf5"
  obtain ⟨out, g4, g5⟩ := g3 .E (by simp) ⟨c!"E", false, [], true⟩ disk rfl
  have hE : ∀ k values, Listed (real layered) ((3000 : ℚ) : ℝ) (sectionDirection k 0) .E values →
      ∃ E, values = [E] ∧ IsYoung (real layered) (sectionDirection k 0) E := fun k values h => h
  obtain ⟨t, vs, k1, k2, k3⟩ := g5 0 (by norm_num) fun k values hv x hx => by
    obtain ⟨E, rfl, h⟩ := hE k values hv
    simp at hx
    rw [hx]
    exact (layered_young (section_unit k 0) h).2
  have one : ∀ k, ∃ x : ℚ, vs k = [x] ∧ ∃ E, IsYoung (real layered) (sectionDirection k 0) E ∧
      |(x : ℝ) - E| ≤ 1 / (2 * 10 ^ 4) + 1 / 10 ^ 11 * |E| := fun k => by
    obtain ⟨values, h, hf⟩ := k3 k
    obtain ⟨E, rfl, hy⟩ := hE k values h
    generalize vs k = l at hf
    cases hf with
    | cons a b => cases b; exact ⟨_, rfl, E, hy, a⟩
  obtain ⟨x1, v1, E1, y1, z1⟩ := one .xy
  obtain ⟨x2, v2, E2, y2, z2⟩ := one .xz
  obtain ⟨x3, v3, E3, y3, z3⟩ := one .yz
  have w1 := (layered_young (section_unit _ 0) y1).1
  have w2 := (layered_young (section_unit _ 0) y2).1
  have w3 := (layered_young (section_unit _ 0) y3).1
  simp [sectionDirection, Polar.Spec.direction] at w1 w2 w3
  rw [v1, v2, v3] at k1
  refine ⟨i, r, d, e, out, h1, g1, (g2 _).2 ⟨.waves, rfl, fun _ => by norm_num⟩, g4, t, x1, x2, x3, k1, ?_, ?_, ?_, ?_⟩
  · norm_num at k2 ⊢; exact k2
  · rw [w1] at z1; norm_num at z1 ⊢; linarith
  · rw [w2] at z2; norm_num at z2 ⊢; linarith
  · rw [w3] at z3; norm_num at z3 ⊢; linarith

end Verif.Chain
