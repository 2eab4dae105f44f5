/-
Uniqueness and existence of the sorted spectrum of a symmetric 3×3 matrix.
-/
import Mathlib.Analysis.Matrix.Spectrum
import Mathlib.LinearAlgebra.Matrix.Charpoly.Coeff
import Mathlib.Data.List.Sort
import Verif.Seismic.Spec

namespace Verif.Seismic
open Verif.Elastic Verif.Elastic.Spec Spec Matrix Polynomial

theorem frame_mul {e : Fin 3 → V3} (h : Frame e) : (Matrix.of e) * (Matrix.of e).transpose = 1 := by
  ext i j
  rw [Matrix.mul_apply, Matrix.one_apply]
  exact h i j

theorem frame_mul' {e : Fin 3 → V3} (h : Frame e) : (Matrix.of e).transpose * (Matrix.of e) = 1 :=
  mul_eq_one_comm.1 (frame_mul h)

theorem eigen_mul {M : M3} {w : V3} {e : Fin 3 → V3} (h : ∀ i, Eigen M (w i) (e i)) :
    M * (Matrix.of e).transpose = (Matrix.of e).transpose * Matrix.diagonal w := by
  ext i j
  rw [Matrix.mul_diagonal, Matrix.mul_apply]
  simp only [Matrix.transpose_apply, Matrix.of_apply]
  rw [h j i, mul_comm]

theorem spectral {M : M3} {w : V3} {e : Fin 3 → V3} (hf : Frame e)
    (h : ∀ i, Eigen M (w i) (e i)) :
    M = (Matrix.of e).transpose * Matrix.diagonal w * Matrix.of e := by
  rw [← eigen_mul h, Matrix.mul_assoc, frame_mul' hf, Matrix.mul_one]

theorem charpoly_spectrum {M : M3} {w : V3} {e : Fin 3 → V3} (hf : Frame e)
    (h : ∀ i, Eigen M (w i) (e i)) : M.charpoly = ∏ i, (X - C (w i)) := by
  rw [spectral hf h, Matrix.mul_assoc, Matrix.charpoly_mul_comm, Matrix.mul_assoc, frame_mul hf,
    Matrix.mul_one, Matrix.charpoly_diagonal]

theorem sorted_unique {a b : V3} (ha : a 0 ≤ a 1 ∧ a 1 ≤ a 2) (hb : b 0 ≤ b 1 ∧ b 1 ≤ b 2)
    (h : ∏ i, (X - C (a i)) = ∏ i, (X - C (b i))) : a = b := by
  have e : ∀ a : V3, ∏ i, (X - C (a i)) =
      (Multiset.map (fun x => X - C x) (([a 0, a 1, a 2] : List ℝ) : Multiset ℝ)).prod := by
    intro a
    simp [Fin.prod_univ_three, mul_assoc]
  rw [e a, e b] at h
  have hr := congrArg Polynomial.roots h
  rw [Polynomial.roots_multiset_prod_X_sub_C, Polynomial.roots_multiset_prod_X_sub_C,
    Multiset.coe_eq_coe] at hr
  have sorted : ∀ c : V3, c 0 ≤ c 1 ∧ c 1 ≤ c 2 → ([c 0, c 1, c 2] : List ℝ).Pairwise (· ≤ ·) := by
    intro c hc
    simp [hc.1, hc.2, hc.1.trans hc.2]
  have hl := hr.eq_of_pairwise' (sorted a ha) (sorted b hb)
  simp only [List.cons.injEq, and_true] at hl
  funext i
  fin_cases i
  · exact hl.1
  · exact hl.2.1
  · exact hl.2.2

theorem spectrum_unique {M : M3} {v w : V3} (hv : Spectrum M v) (hw : Spectrum M w) : v = w := by
  obtain ⟨h1, h2, e, hf, he⟩ := hv
  obtain ⟨h1', h2', e', hf', he'⟩ := hw
  exact sorted_unique ⟨h1, h2⟩ ⟨h1', h2'⟩
    ((charpoly_spectrum hf he).symm.trans (charpoly_spectrum hf' he'))

/-- The spectral theorem, in the vocabulary of the specification. -/
theorem exists_spectrum (M : M3) (hM : ∀ i j, M i j = M j i) :
    ∃ (w : V3) (e : Fin 3 → V3), w 0 ≤ w 1 ∧ w 1 ≤ w 2 ∧ Frame e ∧ ∀ i, Eigen M (w i) (e i) := by
  have hH : M.IsHermitian := by
    ext i j
    exact hM j i
  let σ := Tuple.sort hH.eigenvalues
  have hmono : Monotone (hH.eigenvalues ∘ σ) := Tuple.monotone_sort _
  refine ⟨hH.eigenvalues ∘ σ, fun k => (hH.eigenvectorBasis (σ k)).ofLp, hmono (by decide),
    hmono (by decide), ?_, ?_⟩
  · intro i j
    have h := (orthonormal_iff_ite.1 hH.eigenvectorBasis.orthonormal) (σ i) (σ j)
    rw [EuclideanSpace.inner_eq_star_dotProduct] at h
    simp only [EmbeddingLike.apply_eq_iff_eq] at h
    rw [← h, dotProduct_comm]
    rfl
  · intro i k
    have h := congrFun (hH.mulVec_eigenvectorBasis (σ i)) k
    exact h

/-- The contract of `eigh` can be met. -/
theorem exists_eighCorrect (pinv : M3 → M3) : ∃ num : Numerics, num.pinv = pinv ∧ EighCorrect num := by
  classical
  let eigh : M3 → V3 × M3 := fun M =>
    if h : ∀ i j, M i j = M j i then
      (Classical.choose (exists_spectrum M h),
        Matrix.of fun i k => Classical.choose (Classical.choose_spec (exists_spectrum M h)) k i)
    else (0, 0)
  refine ⟨⟨eigh, pinv⟩, rfl, fun M hM => ?_⟩
  have h := Classical.choose_spec (Classical.choose_spec (exists_spectrum M hM))
  have he : eigh M = (Classical.choose (exists_spectrum M hM),
      Matrix.of fun i k => Classical.choose (Classical.choose_spec (exists_spectrum M hM)) k i) :=
    dif_pos hM
  rw [show (Numerics.mk eigh pinv).eigh M = eigh M from rfl, he]
  exact h

end Verif.Seismic
