/-
Property C129: sound is at least as fast in a stiffer and not denser crystal, for each of the three waves in each direction.
-/
import Verif.Elastic.Stiffer
import Verif.Seismic.Projector
import Verif.Seismic.Rod
import Verif.Seismic.Waves
import Mathlib.LinearAlgebra.Matrix.ToLinearEquiv
import Verif.Tac

namespace Verif.Seismic
open Verif.Py Verif.Elastic Verif.Elastic.Spec Spec

/-- Some vector is perpendicular to two given ones. -/
theorem exists_perp (a b : V3) : ∃ y : V3, y ≠ 0 ∧ dot a y = 0 ∧ dot b y = 0 := by
  have hdet : (Matrix.of ![a, b, b] : M3).det = 0 :=
    Matrix.det_zero_of_row_eq (i := 1) (j := 2) (by decide) rfl
  obtain ⟨y, hy, h⟩ := Matrix.exists_mulVec_eq_zero_iff.2 hdet
  refine ⟨y, hy, ?_, ?_⟩
  · simpa [Matrix.mulVec, dotProduct, dot] using congrFun h 0
  · simpa [Matrix.mulVec, dotProduct, dot] using congrFun h 1

theorem dot_self_pos' {y : V3} (hy : y ≠ 0) : 0 < dot y y := by
  obtain ⟨i, hi⟩ := Function.ne_iff.1 hy
  unfold dot
  refine Finset.sum_pos' (fun j _ => mul_self_nonneg _) ⟨i, Finset.mem_univ _, ?_⟩
  exact mul_self_pos.2 hi

/-- The sorted eigenvalues of a symmetric matrix grow with its quadratic form. -/
theorem spectrum_mono {M M' : M3} {w w' : V3} (h : Spectrum M w) (h' : Spectrum M' w')
    (hle : ∀ y, dot y (M.mulVec y) ≤ dot y (M'.mulVec y)) (i : Fin 3) : w i ≤ w' i := by
  obtain ⟨h1, h2, e, hf, he⟩ := h
  obtain ⟨h1', h2', e', hf', he'⟩ := h'
  have unit : ∀ {e : Fin 3 → V3}, Frame e → ∀ i, dot (e i) (e i) = 1 := fun hf i => by
    have := hf i i
    rwa [if_pos rfl] at this
  have val : ∀ {M : M3} {w : V3} {e : Fin 3 → V3}, Frame e → (∀ i, Eigen M (w i) (e i)) → ∀ i,
      dot (e i) (M.mulVec (e i)) = w i := fun hf he i => by
    rw [eigen_mulVec (he i), dot_smul, unit hf, mul_one]
  fin_cases i
  · have a := (spectrum_bounds ⟨h1, h2⟩ hf he (e' 0) (unit hf' 0)).1
    have b := hle (e' 0)
    rw [val hf' he' 0] at b
    exact a.trans b
  · obtain ⟨y, hy, p, p'⟩ := exists_perp (e 0) (e' 2)
    have b := hle y
    rw [quadratic_frame hf he, quadratic_frame hf' he', Fin.sum_univ_three, Fin.sum_univ_three, p, p'] at b
    have n := frame_parseval hf y
    have n' := frame_parseval hf' y
    rw [Fin.sum_univ_three, p] at n
    rw [Fin.sum_univ_three, p'] at n'
    have pos := dot_self_pos' hy
    have c2 := mul_nonneg (sub_nonneg.2 h2) (sq_nonneg (dot (e 2) y))
    have c0 := mul_nonneg (sub_nonneg.2 h1') (sq_nonneg (dot (e' 0) y))
    have : w 1 * dot y y ≤ w' 1 * dot y y := by
      have k := congrArg (w 1 * ·) n
      have k' := congrArg (w' 1 * ·) n'
      linarith
    exact le_of_mul_le_mul_right this pos
  · have a := (spectrum_bounds ⟨h1', h2'⟩ hf' he' (e 2) (unit hf 2)).2
    have b := hle (e 2)
    rw [val hf he 2] at b
    exact b.trans a

theorem acoustic_mono {C C' : M6} (hC : C.PosDef) (h : Stiffer C C') {density density' : ℝ} (hd' : 0 < density')
    (hd : density' ≤ density) (q y : V3) :
    dot y ((acoustic (fun i j k l => 10 ^ 9 * cTensor C i j k l) density q).mulVec y) ≤
      dot y ((acoustic (fun i j k l => 10 ^ 9 * cTensor C' i j k l) density' q).mulVec y) := by
  have e := acoustic_quad C density q y
  have e' := acoustic_quad C' density' q y
  rw [← quad_eq] at e e'
  have h0 := stiffer_quad h ((divop q).transpose.mulVec y)
  have hn : 0 ≤ quad C ((divop q).transpose.mulVec y) ((divop q).transpose.mulVec y) := by
    by_cases hz : (divop q).transpose.mulVec y = 0
    · rw [hz]
      simp [quad]
    · exact (quad_posDef hC hz).le
  have i1 : (10 : ℝ) ^ 9 / density ≤ 10 ^ 9 / density' := div_le_div_of_nonneg_left (by norm_num) hd' hd
  have : ∀ M : M3, dot y (M.mulVec y) = ∑ i, y i * ∑ k, M i k * y k := fun M => rfl
  rw [this, this, e, e']
  exact mul_le_mul i1 h0 hn (by positivity)

/-- C129: in every direction each of the three waves, from the slowest to the fastest, travels at least as fast in a crystal
that is stiffer and not denser, as both modules report it. -/
theorem C129_waves (num : Numerics) (hn : EighCorrect num) {C C' : M6} (hC : C.PosDef) (hC' : C'.PosDef)
    (h : Stiffer C C') {density density' : ℝ} (hd' : 0 < density') (hd : density' ≤ density) {s s' : Soec}
    (hs : soec C density = .ok s) (hs' : soec C' density' = .ok s') {o o' : Seismic} (ho : seismic C density = .ok o)
    (ho' : seismic C' density' = .ok o') (theta phi : ℝ) (st st' : State) :
    (∀ i, Soec.phaseVelocity num s theta phi i ≤ Soec.phaseVelocity num s' theta phi i) ∧
    ∃ V V', (step num o (.read .phaseVelocity) (step num o (.spherical theta phi) st).2).1 = .ok (.vec V) ∧
      (step num o' (.read .phaseVelocity) (step num o' (.spherical theta phi) st').2).1 = .ok (.vec V') ∧
      ∀ i, V i ≤ V' i := by
  obtain ⟨p, pos, r⟩ := C37_velocities num hn C hC density (hd'.trans_le hd) s hs o ho theta phi
  obtain ⟨p', pos', r'⟩ := C37_velocities num hn C' hC' density' hd' s' hs' o' ho' theta phi
  have key : ∀ i, Soec.phaseVelocity num s theta phi i ≤ Soec.phaseVelocity num s' theta phi i := by
    intro i
    have := spectrum_mono p.2 p'.2 (acoustic_mono hC h hd' hd _) i
    have h1 : (1000 * Soec.phaseVelocity num s theta phi i) ^ 2 ≤ (1000 * Soec.phaseVelocity num s' theta phi i) ^ 2 := this
    have h2 := pos i
    have h3 := pos' i
    have := abs_le_of_sq_le_sq h1 (by linarith)
    have := (le_abs_self _).trans this
    linarith
  exact ⟨key, _, _, r st, r' st', key⟩

/-- The hypotheses of C129 are met: two isotropic solids of which the second is stiffer and lighter. -/
example : ∃ s s' o o', soec (isotropic 100 50) 3000 = .ok s ∧ soec (isotropic 120 60) 2900 = .ok s' ∧
    seismic (isotropic 100 50) 3000 = .ok o ∧ seismic (isotropic 120 60) 2900 = .ok o' ∧
    Stiffer (isotropic 100 50) (isotropic 120 60) := by
  have d1 := posDef_det (isotropic_posDef (K := 100) (G := 50) (by norm_num) (by norm_num))
  have d2 := posDef_det (isotropic_posDef (K := 120) (G := 60) (by norm_num) (by norm_num))
  have q : ∀ {C : M6} (d : ℝ), C.det ≠ 0 → ∃ o, seismic C d = .ok o := by
    intro C d h
    unfold seismic
    rw [if_neg h]
    exact ⟨_, rfl⟩
  obtain ⟨s, hs⟩ := soec_of_det d1 3000
  obtain ⟨s', hs'⟩ := soec_of_det d2 2900
  obtain ⟨o, ho⟩ := q 3000 d1
  obtain ⟨o', ho'⟩ := q 2900 d2
  exact ⟨s, s', o, o', hs, hs', ho, ho', stiffer_isotropic (by norm_num) (by norm_num)⟩

end Verif.Seismic
