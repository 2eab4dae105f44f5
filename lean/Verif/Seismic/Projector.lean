/-
First-order expansion of the eigenprojectors of a symmetric 3×3 matrix, uniform in the perturbation.
-/
import Mathlib.Analysis.Asymptotics.Lemmas
import Verif.Seismic.Expansion

namespace Verif.Seismic
open Verif.Elastic Verif.Elastic.Spec Spec Asymptotics Filter Topology

theorem frame_le_one {f : Fin 3 → V3} (h : Frame f) (i k : Fin 3) : |f i k| ≤ 1 := by
  have h1 := h i i
  rw [if_pos rfl] at h1
  have h2 : f i k * f i k ≤ dot (f i) (f i) :=
    Finset.single_le_sum (f := fun k => f i k * f i k) (fun j _ => mul_self_nonneg _) (Finset.mem_univ k)
  rw [h1] at h2
  exact abs_le_one_iff_mul_self_le_one.2 h2

/-- The quadratic form in the eigenframe. -/
theorem quadratic_frame {M : M3} {w : V3} {e : Fin 3 → V3} (hf : Frame e) (h : ∀ i, Eigen M (w i) (e i)) (y : V3) :
    dot y (M.mulVec y) = ∑ j, w j * dot (e j) y ^ 2 := by
  have h1 : ∀ j, dot (e j) (M.mulVec y) = w j * dot (e j) y := by
    intro j
    rw [dot_mulVec_symm (eigen_symm hf h), eigen_mulVec (h j), dot_comm, dot_smul, dot_comm]
  have h2 : ∀ z : V3, dot y z = ∑ j, dot (e j) y * dot (e j) z := by
    intro z
    conv_lhs => rw [frame_expand hf y]
    simp only [dot, Finset.sum_apply, Pi.smul_apply, smul_eq_mul, Fin.sum_univ_three]
    ring
  rw [h2]
  refine Finset.sum_congr rfl fun j _ => ?_
  rw [h1]
  ring

/-- The sum of the moduli of the entries. -/
def size (A : M3) : ℝ := ∑ i, ∑ j, |A i j|

theorem quadratic_le_size (A : M3) {y : V3} (h : ∀ i, |y i| ≤ 1) : |dot y (A.mulVec y)| ≤ size A := by
  have e : dot y (A.mulVec y) = ∑ i, ∑ j, y i * A i j * y j := by
    simp only [dot, Matrix.mulVec, dotProduct, Finset.mul_sum, mul_assoc]
  rw [e]
  refine (Finset.abs_sum_le_sum_abs _ _).trans (Finset.sum_le_sum fun i _ => ?_)
  refine (Finset.abs_sum_le_sum_abs _ _).trans (Finset.sum_le_sum fun j _ => ?_)
  rw [abs_mul, abs_mul]
  have h1 := mul_le_mul (h i) (le_refl |A i j|) (abs_nonneg _) zero_le_one
  have h2 := mul_le_mul h1 (h j) (abs_nonneg _) (by rw [one_mul]; exact abs_nonneg _)
  linarith

theorem trace_spectrum {M : M3} {w : V3} {e : Fin 3 → V3} (hf : Frame e) (h : ∀ i, Eigen M (w i) (e i)) :
    M 0 0 + M 1 1 + M 2 2 = w 0 + w 1 + w 2 := by
  have := congrArg Matrix.trace (spectral hf h)
  rw [Matrix.mul_assoc, Matrix.trace_mul_comm, Matrix.mul_assoc, frame_mul hf, Matrix.mul_one, Matrix.trace_fin_three,
    Matrix.trace_fin_three] at this
  simpa using this

theorem spectrum_bounds {M : M3} {w : V3} {e : Fin 3 → V3} (hs : w 0 ≤ w 1 ∧ w 1 ≤ w 2) (hf : Frame e)
    (h : ∀ i, Eigen M (w i) (e i)) (y : V3) (hy : dot y y = 1) :
    w 0 ≤ dot y (M.mulVec y) ∧ dot y (M.mulVec y) ≤ w 2 := by
  rw [quadratic_frame hf h]
  have hp := frame_parseval hf y
  rw [hy, Fin.sum_univ_three] at hp
  rw [Fin.sum_univ_three]
  have h0 := congrArg (w 0 * ·) hp
  have h2 := congrArg (w 2 * ·) hp
  have a1 := mul_nonneg (sub_nonneg.2 hs.1) (sq_nonneg (dot (e 1) y))
  have a2 := mul_nonneg (sub_nonneg.2 (hs.1.trans hs.2)) (sq_nonneg (dot (e 2) y))
  have b1 := mul_nonneg (sub_nonneg.2 hs.2) (sq_nonneg (dot (e 1) y))
  have b0 := mul_nonneg (sub_nonneg.2 (hs.1.trans hs.2)) (sq_nonneg (dot (e 0) y))
  constructor <;> linarith

/-- The sorted eigenvalues move no more than the entries of the matrix (up to a factor). -/
theorem eigenvalue_near {M M' : M3} {w w' : V3} {e e' : Fin 3 → V3} (hs : w 0 ≤ w 1 ∧ w 1 ≤ w 2) (hf : Frame e)
    (h : ∀ i, Eigen M (w i) (e i)) (hs' : w' 0 ≤ w' 1 ∧ w' 1 ≤ w' 2) (hf' : Frame e')
    (h' : ∀ i, Eigen M' (w' i) (e' i)) (j : Fin 3) : |w' j - w j| ≤ 3 * size (M' - M) := by
  have hu : ∀ {f : Fin 3 → V3}, Frame f → ∀ i, dot (f i) (f i) = 1 := by
    intro f hf i
    have := hf i i
    rwa [if_pos rfl] at this
  have hv : ∀ {M : M3} {w : V3} {e : Fin 3 → V3}, Frame e → (∀ i, Eigen M (w i) (e i)) → ∀ i,
      dot (e i) (M.mulVec (e i)) = w i := by
    intro M w e hf h i
    rw [eigen_mulVec (h i), dot_smul, hu hf, mul_one]
  have hd : ∀ y, dot y (M'.mulVec y) = dot y (M.mulVec y) + dot y ((M' - M).mulVec y) := by
    intro y
    rw [← dot_add, ← Matrix.add_mulVec]
    congr 2
    abel
  have hb : ∀ {f : Fin 3 → V3}, Frame f → ∀ i, |dot (f i) ((M' - M).mulVec (f i))| ≤ size (M' - M) :=
    fun hf i => quadratic_le_size _ (frame_le_one hf i)
  have a0 := (spectrum_bounds hs' hf' h' (e 0) (hu hf 0)).1
  have a2 := (spectrum_bounds hs' hf' h' (e 2) (hu hf 2)).2
  have b0 := (spectrum_bounds hs hf h (e' 0) (hu hf' 0)).1
  have b2 := (spectrum_bounds hs hf h (e' 2) (hu hf' 2)).2
  rw [hd, hv hf h] at a0 a2
  have c0 := hd (e' 0)
  have c2 := hd (e' 2)
  rw [hv hf' h'] at c0 c2
  have d0 := abs_le.1 (hb hf 0)
  have d2 := abs_le.1 (hb hf 2)
  have d0' := abs_le.1 (hb hf' 0)
  have d2' := abs_le.1 (hb hf' 2)
  have ht := trace_spectrum hf h
  have ht' := trace_spectrum hf' h'
  have htr : |(M' - M) 0 0 + (M' - M) 1 1 + (M' - M) 2 2| ≤ size (M' - M) := by
    have g : ∀ A : M3, |A 0 0 + A 1 1 + A 2 2| ≤ size A := by
      intro A
      refine (abs_add_three _ _ _).trans ?_
      simp only [size, Fin.sum_univ_three]
      linarith [abs_nonneg (A 0 1), abs_nonneg (A 0 2), abs_nonneg (A 1 0), abs_nonneg (A 1 2), abs_nonneg (A 2 0),
        abs_nonneg (A 2 1)]
    exact g _
  have htr' := abs_le.1 htr
  simp only [Matrix.sub_apply] at htr'
  have hS : 0 ≤ size (M' - M) := (abs_nonneg _).trans (hb hf 0)
  rw [abs_le]
  fin_cases j
  · exact ⟨by simp only [Fin.zero_eta]; linarith, by simp only [Fin.zero_eta]; linarith⟩
  · exact ⟨by simp only [Fin.mk_one]; linarith, by simp only [Fin.mk_one]; linarith⟩
  · exact ⟨by show _ ≤ w' 2 - w 2; linarith, by show w' 2 - w 2 ≤ _; linarith⟩

variable {α : Type} {l : Filter α} {Δ : α → ℝ}

theorem eigenvalue_tendsto {M : α → M3} {M0 : M3} {w : V3} {e : Fin 3 → V3} (hs : w 0 ≤ w 1 ∧ w 1 ≤ w 2) (hf : Frame e)
    (h : ∀ i, Eigen M0 (w i) (e i)) {ω : α → V3} {f : α → Fin 3 → V3} (hsa : ∀ a, ω a 0 ≤ ω a 1 ∧ ω a 1 ≤ ω a 2)
    (hfa : ∀ a, Frame (f a)) (ha : ∀ a i, Eigen (M a) (ω a i) (f a i))
    (hM : ∀ k m, Tendsto (fun a => M a k m) l (𝓝 (M0 k m))) (j : Fin 3) : Tendsto (fun a => ω a j) l (𝓝 (w j)) := by
  have hsize : Tendsto (fun a => 3 * size (M a - M0)) l (𝓝 0) := by
    have : Tendsto (fun a => 3 * ∑ k, ∑ m, |M a k m - M0 k m|) l (𝓝 (3 * ∑ k : Fin 3, ∑ m : Fin 3, |M0 k m - M0 k m|)) := by
      refine Tendsto.const_mul 3 (tendsto_finsetSum _ fun k _ => tendsto_finsetSum _ fun m _ => ?_)
      exact ((hM k m).sub_const _).abs
    simpa [size] using this
  rw [tendsto_iff_norm_sub_tendsto_zero]
  exact squeeze_zero (fun _ => norm_nonneg _) (fun a => eigenvalue_near hs hf h (hsa a) (hfa a) (ha a) j) hsize

theorem isBigO_bounded {g : α → ℝ} {c : ℝ} (h : ∀ a, |g a| ≤ c) : g =O[l] (fun _ => (1 : ℝ)) :=
  IsBigO.of_bound c (Eventually.of_forall fun a => by simpa using h a)

theorem isBigO_sum {ι : Type} (s : Finset ι) {F : ι → α → ℝ} {g : α → ℝ} (h : ∀ j ∈ s, (fun a => F j a) =O[l] g) :
    (fun a => ∑ j ∈ s, F j a) =O[l] g := by
  have := IsBigO.sum (A := F) h
  refine this.congr_left fun a => ?_
  rw [Finset.sum_apply]

/-- The eigenprojector of a simple eigenvalue, to first order: `x` is the change of the eigenvector. -/
theorem projector_expansion {M : α → M3} {M0 : M3} {w : V3} {e : Fin 3 → V3} (hs : w 0 ≤ w 1 ∧ w 1 ≤ w 2) (hf : Frame e)
    (h : ∀ i, Eigen M0 (w i) (e i)) {ω : α → V3} {f : α → Fin 3 → V3} (hsa : ∀ a, ω a 0 ≤ ω a 1 ∧ ω a 1 ≤ ω a 2)
    (hfa : ∀ a, Frame (f a)) (ha : ∀ a i, Eigen (M a) (ω a i) (f a i))
    (hM : ∀ k m, Tendsto (fun a => M a k m) l (𝓝 (M0 k m))) {i : Fin 3} (hi : ∀ j, j ≠ i → w j ≠ w i)
    {x : α → V3} (hx : ∀ k, (fun a => x a k) =O[l] Δ) (hΔ : Tendsto Δ l (𝓝 0)) (hperp : ∀ a, dot (e i) (x a) = 0)
    {μ : α → ℝ} (hμ : Tendsto μ l (𝓝 (w i)))
    (hres : ∀ k, (fun a => ((M a).mulVec (e i + x a) - μ a • (e i + x a)) k) =O[l] fun a => Δ a ^ 2) (k m : Fin 3) :
    (fun a => f a i k * f a i m - (e i k * e i m + e i k * x a m + x a k * e i m)) =O[l] fun a => Δ a ^ 2 := by
  set v : α → V3 := fun a => e i + x a with hv
  set r : α → V3 := fun a => (M a).mulVec (v a) - μ a • v a with hr
  have hΔ1 : Δ =O[l] fun _ => (1 : ℝ) := hΔ.isBigO_one ℝ
  have hsq : (fun a => Δ a ^ 2) =O[l] fun _ => (1 : ℝ) := by simpa using hΔ1.pow 2
  have hf1 : ∀ j k, (fun a => f a j k) =O[l] fun _ => (1 : ℝ) := fun j k => isBigO_bounded fun a => frame_le_one (hfa a) j k
  -- components along the other eigenvectors
  have hc : ∀ j, j ≠ i → (fun a => dot (f a j) (v a)) =O[l] fun a => Δ a ^ 2 := by
    intro j hj
    have h1 : ∀ a, dot (f a j) (r a) = (ω a j - μ a) * dot (f a j) (v a) := by
      intro a
      have h2 : dot (f a j) ((M a).mulVec (v a)) = ω a j * dot (f a j) (v a) := by
        rw [dot_mulVec_symm (eigen_symm (hfa a) (ha a)), eigen_mulVec (ha a j), dot_comm, dot_smul, dot_comm]
      have h3 : dot (f a j) (r a) = dot (f a j) ((M a).mulVec (v a)) - μ a * dot (f a j) (v a) := by
        simp only [hr, dot, Pi.sub_apply, Pi.smul_apply, smul_eq_mul, Fin.sum_univ_three]; ring
      rw [h3, h2]; ring
    have h2 : (fun a => dot (f a j) (r a)) =O[l] fun a => Δ a ^ 2 := by
      refine isBigO_sum _ fun k _ => ?_
      have hrk : (fun a => r a k) =O[l] fun a => Δ a ^ 2 := hres k
      simpa only [one_mul] using (hf1 j k).mul hrk
    have hgap : Tendsto (fun a => ω a j - μ a) l (𝓝 (w j - w i)) :=
      (eigenvalue_tendsto hs hf h hsa hfa ha hM j).sub hμ
    have hne : w j - w i ≠ 0 := sub_ne_zero.2 (hi j hj)
    have hinv : (fun a => (ω a j - μ a)⁻¹) =O[l] fun _ => (1 : ℝ) := (hgap.inv₀ hne).isBigO_one ℝ
    have h3 : (fun a => (ω a j - μ a)⁻¹ * dot (f a j) (r a)) =O[l] fun a => Δ a ^ 2 := by simpa using hinv.mul h2
    refine h3.congr' ?_ EventuallyEq.rfl
    filter_upwards [hgap.eventually_ne hne] with a hA
    rw [h1, inv_mul_cancel_left₀ hA]
  -- the component along the eigenvector itself
  have hv1 : ∀ k, (fun a => v a k) =O[l] fun _ => (1 : ℝ) := fun k =>
    (isBigO_const_const (e i k) (one_ne_zero) l).add ((hx k).trans hΔ1)
  have hci : (fun a => dot (f a i) (v a)) =O[l] fun _ => (1 : ℝ) := by
    refine isBigO_sum _ fun k _ => ?_
    simpa using (hf1 i k).mul (hv1 k)
  have hee : dot (e i) (e i) = 1 := by have := hf i i; rwa [if_pos rfl] at this
  have hnorm : (fun a => dot (f a i) (v a) ^ 2 - 1) =O[l] fun a => Δ a ^ 2 := by
    have e1 : (fun a => dot (f a i) (v a) ^ 2 - 1) = fun a => dot (x a) (x a) -
        ∑ j ∈ Finset.univ.erase i, dot (f a j) (v a) ^ 2 := by
      funext a
      have hp := frame_parseval (hfa a) (v a)
      have hvv : dot (v a) (v a) = 1 + dot (x a) (x a) := by
        have : dot (v a) (v a) = dot (e i) (e i) + 2 * dot (e i) (x a) + dot (x a) (x a) := by
          simp only [hv, dot, Pi.add_apply, Fin.sum_univ_three]; ring
        rw [this, hee, hperp]; ring
      rw [hvv, ← Finset.add_sum_erase _ _ (Finset.mem_univ i)] at hp
      linarith
    rw [e1]
    refine IsBigO.sub (isBigO_sum _ fun k _ => ?_) (isBigO_sum _ fun j hj => ?_)
    · simpa [sq] using (hx k).mul (hx k)
    · have := (hc j (Finset.ne_of_mem_erase hj)).mul ((hc j (Finset.ne_of_mem_erase hj)).trans hsq)
      simpa [sq] using this
  -- the vector itself
  have hvk : ∀ k, (fun a => v a k - dot (f a i) (v a) * f a i k) =O[l] fun a => Δ a ^ 2 := by
    intro k
    have e1 : (fun a => v a k - dot (f a i) (v a) * f a i k) =
        fun a => ∑ j ∈ Finset.univ.erase i, dot (f a j) (v a) * f a j k := by
      funext a
      have := congrFun (frame_expand (hfa a) (v a)) k
      simp only [Finset.sum_apply, Pi.smul_apply, smul_eq_mul] at this
      rw [← Finset.add_sum_erase _ _ (Finset.mem_univ i)] at this
      linarith
    rw [e1]
    refine isBigO_sum _ fun j hj => ?_
    simpa using (hc j (Finset.ne_of_mem_erase hj)).mul (hf1 j k)
  have e2 : (fun a => f a i k * f a i m - (e i k * e i m + e i k * x a m + x a k * e i m)) = fun a =>
      -((dot (f a i) (v a) ^ 2 - 1) * (f a i k * f a i m)) -
        (v a k - dot (f a i) (v a) * f a i k) * v a m -
        (dot (f a i) (v a) * f a i k) * (v a m - dot (f a i) (v a) * f a i m) + x a k * x a m := by
    funext a
    have h1 : v a k = e i k + x a k := rfl
    have h2 : v a m = e i m + x a m := rfl
    rw [h1, h2]
    ring
  rw [e2]
  refine ((IsBigO.neg_left ?_).sub ?_).sub ?_ |>.add ?_
  · simpa using hnorm.mul ((hf1 i k).mul (hf1 i m))
  · simpa using (hvk k).mul (hv1 m)
  · simpa using (hci.mul (hf1 i k)).mul (hvk m)
  · simpa [sq] using (hx k).mul (hx m)

end Verif.Seismic
