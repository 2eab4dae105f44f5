/-
Property C46 for a whole run of the elastic calculator: input matrix, symmetry, averages and variations.
-/
import Verif.Elastic.Extremes
import Verif.Elastic.Props
import Mathlib.Analysis.Matrix.Spectrum
import Mathlib.LinearAlgebra.Matrix.Charpoly.Eigs

namespace Verif.Elastic
open Verif.Py Spec

theorem exists_eigenvalue {C : M6} (hC : C.PosDef) : ∃ l, Eigenvalue C l := by
  have h := hC.isHermitian
  refine ⟨h.eigenvalues 0, (h.eigenvectorBasis 0).ofLp, ?_, ?_⟩
  · intro h0
    have := h.eigenvectorBasis.orthonormal.ne_zero 0
    exact this (by ext i; exact congrFun h0 i)
  · exact h.mulVec_eigenvectorBasis 0

/-- C46, runs: for a stable crystal, whatever system it was assigned to, a run is completed and reports the Voigt, Reuss and Hill
averages of the input matrix, its eigenvalues, and, in this order, the extremes of Young's modulus, linear compressibility, shear
modulus and Poisson's ratio over all directions.  Missing from the full property: the axes reported for the last two, see
`C46_two_axes_violated`; and a matrix that the classifier takes for orthorhombic although it is so only within its tolerance, for
which the closed forms leave entries out. -/
theorem C46_run_partial (C : M6) (hC : C.PosDef) (density : ℝ) (sys : System) (o : Solid) (h : load C density = .ok (sys, o))
    (hsys : sys = .orthorhombic → OrthorhombicForm C) (eigvals : M6 → List ℝ) (he : EigenSolver eigvals)
    (min2 : Search (ℝ × ℝ)) (h2 : Finds min2) (min3 : Search (ℝ × ℝ × ℝ)) (h3 : Finds min3) :
    ∃ s, soec C density = .ok s ∧ (run eigvals min2 min3 o).completed = true ∧
      (run eigvals min2 min3 o).averages = s.averages ∧ (∀ l, l ∈ (run eigvals min2 min3 o).eigv ↔ Eigenvalue C l) ∧
      ∃ E LC G Nu, (run eigvals min2 min3 o).variations = some (E, LC, G, Nu) ∧
        ExtremesOf (youngAlong s.Smat) E ∧ ExtremesOf (compressibilityAlong s.Smat) LC ∧
        PairExtremes (shearAlong s.Smat) G ∧ PairExtremes (poissonAlong s.Smat) Nu := by
  obtain ⟨s, hs⟩ := soec_of_det (posDef_det hC) density
  have hsym : C.IsSymm := by
    ext i j
    simpa using congrFun (congrFun hC.isHermitian i) j
  obtain ⟨a1, a2⟩ := C46_extremes C hC density s hs min2 h2
  obtain ⟨a3, a4⟩ := C46_pair_extremes_partial C hC density s hs min3 h3
  have ho : o.soec = s ∧ (o.ortho = true ↔ sys = .orthorhombic) := by
    have h' := h
    unfold load at h'
    simp only [bind, Except.bind, hs] at h'
    split at h'
    · cases h'
    · simp only [pure, Except.pure, Except.ok.injEq, Prod.mk.injEq] at h'
      obtain ⟨rfl, rfl⟩ := h'
      exact ⟨rfl, by simp⟩
  obtain ⟨f1, f2, f3, f4⟩ : (o.youngModulus = s.youngModulus) ∧ (o.linearCompressibility = s.linearCompressibility) ∧
      (o.shearModulus = s.shearModulus) ∧ (o.poissonRatio = s.poissonRatio) := by
    by_cases hb : sys = .orthorhombic
    · obtain ⟨g1, g2, g3, g4⟩ := C34_calculator C (hsys hb) density sys o h s hs
      exact ⟨funext g1, funext g2, funext g3, funext g4⟩
    · have : o.ortho = false := by
        cases e : o.ortho
        · rfl
        · exact absurd (ho.2.1 e) hb
      refine ⟨funext fun x => ?_, funext fun x => ?_, funext fun x => ?_, funext fun x => ?_⟩ <;>
        simp only [Solid.youngModulus, Solid.linearCompressibility, Solid.shearModulus, Solid.poissonRatio, this,
          Bool.false_eq_true, if_false, ho.1]
  have hsC : s.C = C := by obtain ⟨-, rfl⟩ := soec_ok hs; rfl
  obtain ⟨l, hl⟩ := exists_eigenvalue hC
  have hr : ¬ refusal (eigvals o.soec.C) := by
    rw [ho.1, hsC]
    unfold refusal pyAny
    rw [not_not]
    refine ⟨l, (he C hsym l).2 hl, ?_⟩
    rintro rfl
    obtain ⟨v, hv, hm⟩ := hl
    rw [zero_smul] at hm
    exact hv (Matrix.eq_zero_of_mulVec_eq_zero (posDef_det hC) hm)
  have hrun : run eigvals min2 min3 o = { averages := s.averages, eigv := eigvals C
                                          variations := some (variation2 min2 s.youngModulus,
                                            variation2 min2 s.linearCompressibility, variation3 min3 s.shearModulus,
                                            variation3 min3 s.poissonRatio), completed := true } := by
    simp only [run, if_neg hr, f1, f2, f3, f4, ho.1, hsC]
  rw [hrun]
  exact ⟨s, hs, rfl, rfl, he C hsym, _, _, _, _, rfl, a1, a2, a3, a4⟩

/-- The hypotheses are met by an orthorhombic crystal, with the closed forms in use. -/
example : ∃ o eigvals, ∃ min2 : Search (ℝ × ℝ), ∃ min3 : Search (ℝ × ℝ × ℝ), (ofInt olivine).PosDef ∧
    load (ofInt olivine) 3300 = .ok (.orthorhombic, o) ∧ o.ortho = true ∧ OrthorhombicForm (ofInt olivine) ∧
    EigenSolver eigvals ∧ Finds min2 ∧ Finds min3 := by
  obtain ⟨s, hs⟩ := soec_of_det (posDef_det olivine_posDef) 3300
  have hc : s.C = ofInt olivine := by obtain ⟨-, rfl⟩ := soec_ok hs; rfl
  have hk : checkSymmetry (ofInt olivine) = .ok .orthorhombic := check_int (by decide +kernel)
  obtain ⟨min2, h2⟩ := exists_finds (X := ℝ × ℝ)
  obtain ⟨min3, h3⟩ := exists_finds (X := ℝ × ℝ × ℝ)
  have hfin : ∀ m : M6, m.IsSymm → {l | Eigenvalue m l}.Finite := by
    intro m _
    refine (m.charpoly.rootSet_finite ℝ).subset fun l hl => ?_
    obtain ⟨v, hv, e⟩ := hl
    rw [Polynomial.mem_rootSet]
    refine ⟨m.charpoly_monic.ne_zero, ?_⟩
    rw [Polynomial.coe_aeval_eq_eval, Matrix.eval_charpoly]
    refine Matrix.exists_mulVec_eq_zero_iff.1 ⟨v, hv, ?_⟩
    rw [Matrix.sub_mulVec, e]
    simp [Matrix.scalar_apply, Matrix.mulVec_diagonal, funext_iff]
  classical
  refine ⟨{ soec := s, ortho := true }, fun m => if h : m.IsSymm then (hfin m h).toFinset.toList else [], min2, min3,
    olivine_posDef, ?_, rfl, ⟨?_, ?_⟩, ?_, h2, h3⟩
  · simp [load, bind, Except.bind, hs, hc, hk, pure, Except.pure]
  · ext i j; fin_cases i <;> fin_cases j <;> rfl
  · intro i j hij h3
    rw [olivine_diagonal, Matrix.diagonal_apply_ne _ hij]
  · intro m hm l
    simp [dif_pos hm]

end Verif.Elastic
