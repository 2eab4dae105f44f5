/-
Property C142: a VASP output for which the reported extremes are wrong, and concrete outputs that meet the hypotheses.
-/
import Verif.Chain.VaspProps
import Verif.Interfaces.SoecWitness
import Verif.Elastic.Cases

namespace Verif.Chain
open Verif.Py Verif.IO Verif.Interfaces Verif.Elastic Verif.Elastic.Spec Spec
open Interfaces.Spec (Comp exchange voigt vasp TotalOutput ClampedOutput)

/-- A table from its lines. -/
theorem rows_table {rows : Fin 6 → Str} {m : Mat}
    (key : ∀ i, words (rows i) = (words (rows i)).headD [] :: (words (rows i)).tail ∧
      ∀ c ∈ rows i, isSpace c = true → c = ' ' ∨ c = '\t')
    (hp : ∀ i, ((words (rows i)).tail).map parseFloat = (List.ofFn (m i)).map some) (i : Fin 6) :
    ∃ label ts, IO.Spec.Tokens (label :: ts) (rows i) ∧ label ≠ [] ∧ (∀ c ∈ label, c ∉ IO.Spec.whitespace) ∧
      List.Forall₂ IO.Spec.Numeral ts (List.ofFn (m i)) := by
  obtain ⟨h1, h2⟩ := tokens_words _ (key i).2
  rw [(key i).1] at h1 h2
  have hw := words_witness (key i).2 (key i).1
  refine ⟨_, _, h1, (hw.2 _ (by simp)).1, (hw.2 _ (by simp)).2, ?_⟩
  have hp := hp i
  have h3 : ∀ t ∈ (words (rows i)).tail, IsToken t := fun t ht => h2 t (by simp [ht])
  generalize (words (rows i)).tail = ts at hp h3
  generalize List.ofFn (m i) = qs at hp
  clear h1 h2 hw
  induction ts generalizing qs with
  | nil => cases qs with
    | nil => exact .nil
    | cons => simp at hp
  | cons t ts ih => cases qs with
    | nil => simp at hp
    | cons q qs =>
      simp only [List.map_cons, List.cons.injEq] at hp
      exact .cons (parseFloat_token (h3 t (by simp)) hp.1) (ih (fun t ht => h3 t (by simp [ht])) qs hp.2)

/-- Moduli in kBar, in VASP's order. -/
def layeredTable : Mat := fun i j => if i = j then ![10000, 10, 10, 10000, 1, 10000] i else 0

/-- The same in GPa, in Voigt's order: a crystal that shears easily in the plane of `y` and `z`. -/
def layered : Mat := fun i j => if i = j then ![1000, 1, 1, 1 / 10, 1000, 1000] i else 0

/-- The lines of the table. -/
def layeredRow : Fin 6 → Str :=
  ![c!" XX       10000.0000      0.0000      0.0000      0.0000      0.0000      0.0000",
    c!" YY           0.0000     10.0000      0.0000      0.0000      0.0000      0.0000",
    c!" ZZ           0.0000      0.0000     10.0000      0.0000      0.0000      0.0000",
    c!" XY           0.0000      0.0000      0.0000  10000.0000      0.0000      0.0000",
    c!" YZ           0.0000      0.0000      0.0000      0.0000      1.0000      0.0000",
    c!" ZX           0.0000      0.0000      0.0000      0.0000      0.0000  10000.0000"]

/-- A table with its titles and rules. -/
def layeredBlock : List Str :=
  [c!" Direction    XX          YY          ZZ          XY          YZ          ZX",
    c!" ------------------------------------------------------------"] ++ List.ofFn layeredRow ++
  [c!" ------------------------------------------------------------"]

/-- A VASP output. -/
def layeredOutcar : List Str :=
  [c!" vasp", c!"  SYMMETRIZED ELASTIC MODULI (kBar)", c!"", c!" ELASTIC MODULI CONTR FROM IONIC RELAXATION (kBar)",
    c!" TOTAL ELASTIC MODULI (kBar)"] ++ layeredBlock

theorem layeredOutcar_total : TotalOutput layeredOutcar layeredTable := by
  refine ⟨layeredOutcar.take 4, c!" TOTAL ELASTIC MODULI (kBar)", layeredBlock, rfl, total_iff.2 (by decide),
    ?_, ?_, ⟨c!"  SYMMETRIZED ELASTIC MODULI (kBar)", by decide, clamped_iff.2 (by decide)⟩, ?_⟩
  · simp only [total_iff]; decide +kernel
  · simp only [total_iff]; decide +kernel
  · intro i
    obtain ⟨label, ts, h1, h2, h3, h4⟩ := rows_table (rows := layeredRow) (m := layeredTable) (by decide +kernel)
      (by decide +kernel) i
    exact ⟨layeredRow i, label, ts, by clear h1 h4; revert i; decide +kernel, h1, h2, h3, h4⟩

theorem layered_printed : Printed layeredTable layered := by
  intro p q
  cases p <;> cases q <;> decide +kernel

theorem layered_symm : IO.Spec.Symmetric layered := by
  have : ∀ i j, layered i j = layered j i := by decide +kernel
  exact this

/-- The quadratic form of a crystal with a diagonal matrix. -/
theorem quad_real_diagonal {m : Mat} (h : ∀ i j, i ≠ j → m i j = 0) (e : Fin 6 → ℝ) :
    quad (real m) e e = ∑ i, (m i i : ℝ) * e i ^ 2 := by
  unfold quad
  refine Finset.sum_congr rfl fun i _ => ?_
  rw [Finset.sum_eq_single i]
  · show e i * (m i i : ℝ) * e i = _
    ring
  · intro j _ hj
    show e i * (m i j : ℝ) * e j = 0
    rw [h i j hj.symm]
    simp
  · simp

theorem layered_diagonal (i j : Fin 6) (h : i ≠ j) : layered i j = 0 := if_neg h

theorem layered_resists : Resists (real layered) (1 / 10) := by
  refine resists_of_quad fun e => ?_
  rw [quad_real_diagonal layered_diagonal, Finset.mul_sum]
  refine Finset.sum_le_sum fun i _ => mul_le_mul_of_nonneg_right ?_ (sq_nonneg _)
  have : ∀ i : Fin 6, (1 / 10 : ℚ) ≤ layered i i := by decide +kernel
  have h : ((1 / 10 : ℚ) : ℝ) ≤ layered i i := by exact_mod_cast this i
  push_cast at h
  exact h

theorem layered_error : ChainError layered 0 := by
  refine .inr ⟨.inl fun i j hij _ => ?_, .inr ⟨rfl, fun i j => ⟨(layered i j * 10 ^ 4).num, ?_⟩⟩⟩
  · rw [layered_diagonal i j hij]; norm_num
  · revert i j; decide +kernel

/-- A crystal with a diagonal matrix pulled along `n`. -/
theorem diagonal_young {m : Mat} (h : ∀ i j, i ≠ j → m i j = 0) (h0 : ∀ i, m i i ≠ 0) {n : V3} {E : ℝ}
    (hE : YoungIs (real m) n E) :
    E = 1 / (n 0 ^ 4 / m 0 0 + n 1 ^ 4 / m 1 1 + n 2 ^ 4 / m 2 2 + n 1 ^ 2 * n 2 ^ 2 / m 3 3 + n 0 ^ 2 * n 2 ^ 2 / m 4 4 +
      n 0 ^ 2 * n 1 ^ 2 / m 5 5) := by
  obtain ⟨ε, ⟨hs, -, hh⟩, -, rfl⟩ := hE
  have one : ∀ I, voigtStress (uniaxial 1 n) I = (m I I : ℝ) * voigtStrain ε I := by
    intro I
    rw [hh I, Finset.sum_eq_single I]
    · rfl
    · intro J _ hJ
      show (m I J : ℝ) * _ = 0
      rw [h I J hJ.symm]
      simp
    · simp
  have c : ∀ I, (m I I : ℝ) ≠ 0 := fun I => by exact_mod_cast h0 I
  have a0 := one 0
  have a1 := one 1
  have a2 := one 2
  have a3 := one 3
  have a4 := one 4
  have a5 := one 5
  simp only [voigtStress, voigtStrain, uniaxial, Matrix.cons_val, one_mul] at a0 a1 a2 a3 a4 a5
  have e0 : ε 0 0 = n 0 * n 0 / m 0 0 := by rw [eq_div_iff (c 0)]; linarith
  have e1 : ε 1 1 = n 1 * n 1 / m 1 1 := by rw [eq_div_iff (c 1)]; linarith
  have e2 : ε 2 2 = n 2 * n 2 / m 2 2 := by rw [eq_div_iff (c 2)]; linarith
  have e3 : ε 1 2 = n 1 * n 2 / m 3 3 / 2 := by rw [eq_div_iff two_ne_zero, eq_div_iff (c 3)]; linarith
  have e4 : ε 0 2 = n 0 * n 2 / m 4 4 / 2 := by rw [eq_div_iff two_ne_zero, eq_div_iff (c 4)]; linarith
  have e5 : ε 0 1 = n 0 * n 1 / m 5 5 / 2 := by rw [eq_div_iff two_ne_zero, eq_div_iff (c 5)]; linarith
  congr 1
  simp only [along, Fin.sum_univ_three]
  rw [hs 1 0, hs 2 0, hs 2 1, e0, e1, e2, e3, e4, e5]
  ring

/-- The crystal that is analysed instead. -/
def layeredRead : Mat := fun i j => if i = j then ![1000, 1, 1, 1000, 1 / 10, 1000] i else 0

theorem layered_exchanged : Exchanged layered layeredRead := by
  intro p q
  cases p <;> cases q <;> decide +kernel

/-- C142 fails for VASP: a stable crystal whose Young's modulus is 1/3 GPa along the diagonal between `y` and `z`, and for which
the commands report a smallest modulus above 0.35 GPa. -/
theorem C142_vasp_violated : ∃ ls output m C n, IsText ls output ∧ TotalOutput ls m ∧ Printed m C ∧ IO.Spec.Symmetric C ∧
    Resists (real C) (1 / 10) ∧ ChainError C 0 ∧ UnitVector n ∧ YoungIs (real C) n (1 / 3) ∧
    ∀ answer, answer = [] ∨ GoodTitle answer → ∀ eigvals, EigenSolver eigvals → ∀ min2 : Search (ℝ × ℝ), Finds min2 →
      ∀ min3 : Search (ℝ × ℝ × ℝ), Finds min3 → ∃ file i E LC G Nu, generate .vasp output answer = .ok (.ok file) ∧
        readInput file = .ok (.ok i) ∧ (run eigvals min2 min3 i.solid).variations = some (E, LC, G, Nu) ∧
        7 / 20 < E.minimum := by
  have hsq : (√2)⁻¹ * (√2)⁻¹ = (1 / 2 : ℝ) := by rw [← mul_inv, Real.mul_self_sqrt (by norm_num)]; norm_num
  refine ⟨layeredOutcar, _, layeredTable, layered, ![0, (√2)⁻¹, (√2)⁻¹], isText_join _ (by decide +kernel),
    layeredOutcar_total, layered_printed, layered_symm, layered_resists, layered_error, ?_, ?_, ?_⟩
  · simp only [UnitVector, dot, Fin.sum_univ_three, Matrix.cons_val]
    rw [hsq]
    norm_num
  · have hn : UnitVector ![0, (√2)⁻¹, (√2)⁻¹] := by
      simp only [UnitVector, dot, Fin.sum_univ_three, Matrix.cons_val]
      rw [hsq]
      norm_num
    have p : (real layered).PosDef :=
      close_posDef (by norm_num : (0 : ℝ) < 1 / 10) (real_symm layered_symm) (resists_quad layered_resists)
    have hE := (young_is p hn _).2 rfl
    have := diagonal_young layered_diagonal (by decide +kernel) hE
    rw [this] at hE
    convert hE using 1
    congr 1
    have h4 : (√2)⁻¹ ^ 4 = (1 / 4 : ℝ) := by
      rw [show (√2)⁻¹ ^ 4 = ((√2)⁻¹ * (√2)⁻¹) * ((√2)⁻¹ * (√2)⁻¹) by ring, hsq]; norm_num
    have h2 : (√2)⁻¹ ^ 2 = (1 / 2 : ℝ) := by rw [sq, hsq]
    have d1 : layered 1 1 = 1 := by decide +kernel
    have d2 : layered 2 2 = 1 := by decide +kernel
    have d3 : layered 3 3 = 1 / 10 := by decide +kernel
    simp only [Matrix.cons_val, h4, h2, d1, d2, d3]
    norm_num
  · intro answer ha eigvals he min2 h2 min3 h3
    obtain ⟨file, i, g1, g2, -, -, -, E, LC, G, Nu, g3, Elo, Ehi, Llo, Lhi, Glo, Ghi, Nlo, Nhi, ⟨-, ⟨n, hn, hE⟩, -⟩, -, -, -,
      ⟨hm, -⟩, -⟩ :=
      vasp_chain (isText_join _ (by decide +kernel)) (.inl layeredOutcar_total) layered_printed layered_exchanged layered_symm ha
        layered_error (by norm_num) layered_resists he h2 h3
    refine ⟨file, i, E, LC, G, Nu, g1, g2, g3, ?_⟩
    have e : E.minimum = Elo := by
      obtain ⟨a, b⟩ := hm
      norm_num at a b
      exact le_antisymm b a
    rw [e, diagonal_young (fun i j h => if_neg h) (by decide +kernel) hE]
    simp only [UnitVector, dot, Fin.sum_univ_three] at hn
    have k : ∀ u v w : ℝ, 0 ≤ u → 0 ≤ v → 0 ≤ w → u + v + w = 1 →
        0 < u ^ 2 / 1000 + v ^ 2 / 1 + w ^ 2 / 1 + v * w / 1000 + u * w / (1 / 10) + u * v / 1000 ∧
        u ^ 2 / 1000 + v ^ 2 / 1 + w ^ 2 / 1 + v * w / 1000 + u * w / (1 / 10) + u * v / 1000 < 20 / 7 := by
      intro u v w hu hv hw h1
      have uw := mul_nonneg hu hw
      have uv := mul_nonneg hu hv
      have vw := mul_nonneg hv hw
      constructor
      · have : 0 < u ^ 2 + v ^ 2 + w ^ 2 := by
          by_contra hn
          have a : u = 0 := by nlinarith [sq_nonneg u, sq_nonneg v, sq_nonneg w]
          have b : v = 0 := by nlinarith [sq_nonneg u, sq_nonneg v, sq_nonneg w]
          have c : w = 0 := by nlinarith [sq_nonneg u, sq_nonneg v, sq_nonneg w]
          rw [a, b, c] at h1
          norm_num at h1
        nlinarith [sq_nonneg u, sq_nonneg v, sq_nonneg w]
      · have hh : (u + v + w) ^ 2 = 1 := by rw [h1]; norm_num
        nlinarith [sq_nonneg (5 * u - 4 * w), sq_nonneg u, sq_nonneg v, sq_nonneg w]
    obtain ⟨k1, k2⟩ := k (n 0 ^ 2) (n 1 ^ 2) (n 2 ^ 2) (sq_nonneg _) (sq_nonneg _) (sq_nonneg _) (by linarith)
    have e4 : ∀ x : ℝ, (x ^ 2) ^ 2 = x ^ 4 := fun x => by ring
    simp only [e4] at k1 k2
    simp only [layeredRead, if_true, Matrix.cons_val]
    push_cast
    rw [lt_div_iff₀ k1]
    linarith

/-! ### Concrete outputs -/

/-- The moduli of the CRYSTAL output resist every strain with at least 169 GPa. -/
theorem cubic_resists : Resists (real exampleCubic) 169 := by
  refine resists_of_quad fun e => ?_
  have h : ∀ i j, real exampleCubic i j = ((exampleCubic i j : ℚ) : ℝ) := fun i j => rfl
  simp only [quad, h, Fin.sum_univ_six]
  simp only [exampleCubic, Matrix.cons_val]
  norm_num
  nlinarith [sq_nonneg (e 0 + e 1 + e 2), sq_nonneg (e 0), sq_nonneg (e 1), sq_nonneg (e 2), sq_nonneg (e 3), sq_nonneg (e 4),
    sq_nonneg (e 5)]

theorem cubic_error : ChainError exampleCubic 0 := by
  refine .inr ⟨.inl fun i j hij h3 => ?_, .inr ⟨rfl, fun i j => ⟨(exampleCubic i j * 10 ^ 4).num, ?_⟩⟩⟩
  · revert i j; decide +kernel
  · revert i j; decide +kernel

theorem cubic_symm : IO.Spec.Symmetric exampleCubic := by
  have : ∀ i j, exampleCubic i j = exampleCubic j i := by decide +kernel
  exact this

theorem goodTitle_diamond : GoodTitle c!"Diamond, PBE" := by
  refine ⟨⟨[], 'D', c!"iamond, PBE", by simp [IO.Spec.Blank], by decide, by decide, rfl⟩, by decide, ?_⟩
  intro c hc
  have : c = 'E' := by
    have h : (c!"Diamond, PBE").getLast? = some 'E' := by decide
    rw [h] at hc
    cases hc
    rfl
  subst this
  decide

/-- The CRYSTAL output of the tests, with a title: everything reported is exact. -/
example {eigvals : M6 → List ℝ} (he : EigenSolver eigvals) {min2 : Search (ℝ × ℝ)} (h2 : Finds min2)
    {min3 : Search (ℝ × ℝ × ℝ)} (h3 : Finds min3) :=
  C142_crystal_partial (isText_join _ (by decide +kernel)) exampleCrystal_output cubic_symm exampleCrystal_density
    (.inr goodTitle_diamond) cubic_error (by norm_num) cubic_resists he h2 h3

/-- The title `2H-MoS2`. -/
example := C142_title_violated (isText_join _ (by decide +kernel)) exampleCrystal_output exampleCrystal_density (c := '2')
  (t := c!"H-MoS2") (by decide) (by decide) (fun ⟨q, h⟩ => by
    have := parseFloat_numeral h
    have h0 : parseFloat c!"2H-MoS2" = none := by decide +kernel
    rw [h0] at this
    cases this)

/-- The layered crystal: averages. -/
example {eigvals : M6 → List ℝ} (he : EigenSolver eigvals) {min2 : Search (ℝ × ℝ)} (h2 : Finds min2)
    {min3 : Search (ℝ × ℝ × ℝ)} (h3 : Finds min3) :=
  C142_vasp_partial (isText_join _ (by decide +kernel)) (.inl layeredOutcar_total) layered_printed layered_symm (.inl rfl)
    layered_error (by norm_num) layered_resists he h2 h3

/-- The exchange does not matter for cubic crystals. -/
example : Exchanged exampleCubic exampleCubic := by
  intro p q
  cases p <;> cases q <;> decide +kernel

/-- A crystal with a small modulus that vanishes in orthorhombic crystals. -/
def nearly : Mat := fun i j => layered i j + if i = 0 ∧ j = 3 ∨ i = 3 ∧ j = 0 then 1 / 2000 else 0

/-- It can be analysed, whatever the classifier makes of it. -/
example {eigvals : M6 → List ℝ} (he : EigenSolver eigvals) {min2 : Search (ℝ × ℝ)} (h2 : Finds min2)
    {min3 : Search (ℝ × ℝ × ℝ)} (h3 : Finds min3) : ∃ sys o, load (real nearly) 3000 = .ok (sys, o) ∧
      Accurate (real nearly) (9 / 100) (2 / 1000) (run eigvals min2 min3 o) := by
  have hs : (real nearly).IsSymm := real_symm (by
    have : ∀ i j, nearly i j = nearly j i := by decide +kernel
    exact this)
  have hr : Resists (real nearly) (9 / 100) := by
    refine resists_of_quad fun e => ?_
    have a := resists_quad layered_resists e
    have b : quad (real nearly) e e = quad (real layered) e e + e 0 * e 3 / 1000 := by
      have h : ∀ i j, real nearly i j = real layered i j + if i = 0 ∧ j = 3 ∨ i = 3 ∧ j = 0 then 1 / 2000 else 0 := by
        intro i j
        show ((nearly i j : ℚ) : ℝ) = (layered i j : ℝ) + _
        unfold nearly
        split_ifs <;> push_cast <;> rfl
      simp only [quad, h, Fin.sum_univ_six]
      simp only [Fin.isValue, Fin.reduceEq, and_false, and_true, or_false, or_true, and_self, or_self, if_true, if_false]
      ring
    rw [b]
    rw [Fin.sum_univ_six] at a ⊢
    nlinarith [sq_nonneg (e 0 + e 3), sq_nonneg (e 0), sq_nonneg (e 1), sq_nonneg (e 2), sq_nonneg (e 3), sq_nonneg (e 4),
      sq_nonneg (e 5)]
  have p : (real nearly).PosDef := close_posDef (by norm_num : (0 : ℝ) < 9 / 100) hs (resists_quad hr)
  obtain ⟨s, es⟩ := soec_of_det (posDef_det p) 3000
  obtain ⟨sys, hk⟩ := (C44_total_first (real nearly)).1 fun i j => by rw [hs.apply]; simp
  have hsC : s.C = real nearly := by obtain ⟨-, rfl⟩ := soec_ok es; rfl
  have hload : load (real nearly) 3000 = .ok (sys, { soec := s, ortho := decide (sys = .orthorhombic) }) := by
    simp [load, bind, Except.bind, es, hsC, hk, pure, Except.pure]
  exact ⟨_, _, hload, (C46_tolerance_partial hs hr hload he h2 h3).2 (by norm_num)⟩

/-- A solver and searches exist. -/
example : (∃ eigvals, EigenSolver eigvals) ∧ (∃ m : Search (ℝ × ℝ), Finds m) ∧ ∃ m : Search (ℝ × ℝ × ℝ), Finds m :=
  ⟨Elastic.Cases.eigenSolver_exists, exists_finds, exists_finds⟩

end Verif.Chain
