/-
How the ray of a wave turns with the direction of the wave.
-/
import Mathlib.Analysis.Calculus.Deriv.Inv
import Mathlib.Analysis.Calculus.FDeriv.Pow
import Mathlib.Analysis.SpecialFunctions.Sqrt
import Verif.Seismic.Derivative
import Verif.Seismic.Projector

namespace Verif.Seismic
open Verif.Py Verif.Elastic Verif.Elastic.Spec Spec Asymptotics Filter Topology

/-! ### The eigenvalue gradient as a function of the direction -/

/-- `∇λ_i` at `p`, from an eigenvector `f`. -/
def slope (c : T4) (f : V3) (p : V3) : V3 := fun b => ∑ k, ∑ m, f k * f m * gradChristoffel c p b k m

theorem slope_eq (c : T4) (f p : V3) (b : Fin 3) :
    slope c f p b = dotProduct f ((gradChristoffel c p b).mulVec f) := by
  simp only [slope, dotProduct, Matrix.mulVec, Fin.sum_univ_three]
  ring

theorem gradChristoffel_add (c : T4) (p h : V3) (b k m : Fin 3) :
    gradChristoffel c (p + h) b k m = gradChristoffel c p b k m + gradChristoffel c h b k m := by
  simp only [gradChristoffel, Matrix.of_apply, Pi.add_apply, add_mul, Finset.sum_add_distrib]

theorem gradChristoffel_smul (c : T4) (s : ℝ) (p : V3) (b k m : Fin 3) :
    gradChristoffel c (s • p) b k m = s * gradChristoffel c p b k m := by
  simp only [gradChristoffel, Matrix.of_apply, Pi.smul_apply, smul_eq_mul, Finset.mul_sum, mul_assoc]

theorem christoffel_smul (c : T4) (s : ℝ) (p : V3) : christoffel c (s • p) = s ^ 2 • christoffel c p := by
  ext k m
  simp only [christoffel, Matrix.of_apply, Pi.smul_apply, smul_eq_mul, Matrix.smul_apply, Fin.sum_univ_three]
  ring

section

variable {q : V3}

theorem coord_bigO (k : Fin 3) : (fun p : V3 => (p - q) k) =O[𝓝 q] fun p => ‖p - q‖ :=
  IsBigO.of_bound 1 (Eventually.of_forall fun p => by
    rw [one_mul, norm_norm]
    exact norm_le_pi_norm (p - q) k)

theorem dist_tendsto : Tendsto (fun p : V3 => ‖p - q‖) (𝓝 q) (𝓝 0) := tendsto_norm_sub_self q

theorem firstOrder_bigO (c : T4) (k m : Fin 3) :
    (fun p : V3 => firstOrder c q (p - q) k m) =O[𝓝 q] fun p => ‖p - q‖ := by
  have : (fun p : V3 => firstOrder c q (p - q) k m) = fun p => ∑ b, (p - q) b * gradChristoffel c q b k m := by
    funext p
    simp only [firstOrder, Matrix.sum_apply, Matrix.smul_apply, smul_eq_mul]
  rw [this]
  refine isBigO_sum _ fun b _ => ?_
  simpa only [mul_one] using (coord_bigO b).mul (isBigO_const_const (gradChristoffel c q b k m) one_ne_zero (𝓝 q))

theorem secondOrder_bigO (hess : T4) (k m : Fin 3) :
    (fun p : V3 => secondOrder hess (p - q) k m) =O[𝓝 q] fun p => ‖p - q‖ ^ 2 := by
  have : (fun p : V3 => secondOrder hess (p - q) k m) =
      fun p => (1 / 2) * ∑ i, ∑ j, (p - q) i * (p - q) j * hess i j k m := rfl
  rw [this]
  refine IsBigO.const_mul_left (isBigO_sum _ fun i _ => isBigO_sum _ fun j _ => ?_) _
  simpa only [mul_one, sq] using
    ((coord_bigO i).mul (coord_bigO j)).mul (isBigO_const_const (hess i j k m) one_ne_zero (𝓝 q))

/-- The change of the eigenvector, to first order. -/
noncomputable def change (c : T4) (q : V3) (w : V3) (e : Fin 3 → V3) (i : Fin 3) (h : V3) : V3 :=
  reduced w e i ((firstOrder c q h).mulVec (e i))

theorem change_bigO (c : T4) (w : V3) (e : Fin 3 → V3) (i k : Fin 3) :
    (fun p : V3 => change c q w e i (p - q) k) =O[𝓝 q] fun p => ‖p - q‖ := by
  have hy : ∀ m, (fun p : V3 => (firstOrder c q (p - q)).mulVec (e i) m) =O[𝓝 q] fun p => ‖p - q‖ := by
    intro m
    simp only [Matrix.mulVec, dotProduct]
    refine isBigO_sum _ fun n _ => ?_
    simpa only [mul_one] using (firstOrder_bigO c m n).mul (isBigO_const_const (e i n) one_ne_zero (𝓝 q))
  have : (fun p : V3 => change c q w e i (p - q) k) = fun p => ∑ j,
      (if j = i then 0 else dot (e j) ((firstOrder c q (p - q)).mulVec (e i)) / (w i - w j)) * e j k := by
    funext p
    simp only [change, reduced, Finset.sum_apply, Pi.smul_apply, smul_eq_mul]
  rw [this]
  refine isBigO_sum _ fun j _ => ?_
  by_cases hj : j = i
  · simp only [if_pos hj, zero_mul]
    exact isBigO_zero _ _
  · simp only [if_neg hj]
    have h1 : (fun p : V3 => dot (e j) ((firstOrder c q (p - q)).mulVec (e i))) =O[𝓝 q] fun p => ‖p - q‖ := by
      refine isBigO_sum _ fun n _ => ?_
      simpa only [one_mul] using (isBigO_const_const (e j n) one_ne_zero (𝓝 q)).mul (hy n)
    have h2 := (h1.mul (isBigO_const_const ((w i - w j)⁻¹) one_ne_zero (𝓝 q))).mul
      (isBigO_const_const (e j k) one_ne_zero (𝓝 q))
    simpa only [mul_one, ← div_eq_mul_inv] using h2

theorem christoffel_shift (c : T4) (p : V3) :
    christoffel c p = christoffel c q + firstOrder c q (p - q) + secondOrder (hessianChristoffel c) (p - q) := by
  have := christoffel_line c q (p - q) 1
  simpa using this

theorem isBigO_mulVec {A : V3 → M3} {y : V3 → V3} {f g : V3 → ℝ} (hA : ∀ k m, (fun p => A p k m) =O[𝓝 q] f)
    (hy : ∀ m, (fun p => y p m) =O[𝓝 q] g) (k : Fin 3) :
    (fun p => (A p).mulVec (y p) k) =O[𝓝 q] fun p => f p * g p := by
  simp only [Matrix.mulVec, dotProduct]
  refine isBigO_sum _ fun n _ => ?_
  exact (hA k n).mul (hy n)

/-- The projector on the eigenvector along all directions near `q`. -/
theorem projector_near (c : T4) {ω : V3 → V3} {f : V3 → Fin 3 → V3}
    (hs : ∀ p, ω p 0 ≤ ω p 1 ∧ ω p 1 ≤ ω p 2) (hf : ∀ p, Frame (f p))
    (he : ∀ p i, Eigen (christoffel c p) (ω p i) (f p i)) {i : Fin 3} (hi : ∀ j, j ≠ i → ω q j ≠ ω q i) (k m : Fin 3) :
    (fun p => f p i k * f p i m - (f q i k * f q i m + f q i k * change c q (ω q) (f q) i (p - q) m +
      change c q (ω q) (f q) i (p - q) k * f q i m)) =O[𝓝 q] fun p => ‖p - q‖ ^ 2 := by
  set e := f q with hee
  set w := ω q with hw
  have hM : ∀ k m, Tendsto (fun p => christoffel c p k m) (𝓝 q) (𝓝 (christoffel c q k m)) := by
    intro k m
    have : Continuous fun p : V3 => christoffel c p k m := by
      simp only [christoffel, Matrix.of_apply]
      fun_prop
    exact this.tendsto q
  set μ : V3 → ℝ := fun p => w i + dot (e i) ((firstOrder c q (p - q)).mulVec (e i)) with hμ
  have hd : (fun p : V3 => dot (e i) ((firstOrder c q (p - q)).mulVec (e i))) =O[𝓝 q] fun p => ‖p - q‖ := by
    refine isBigO_sum _ fun n _ => ?_
    have h1 : (fun p : V3 => (firstOrder c q (p - q)).mulVec (e i) n) =O[𝓝 q] fun p => ‖p - q‖ := by
      simpa only [mul_one] using isBigO_mulVec (firstOrder_bigO c)
        (fun m => isBigO_const_const (e i m) (one_ne_zero (α := ℝ)) (𝓝 q)) n
    simpa only [one_mul] using (isBigO_const_const (e i n) one_ne_zero (𝓝 q)).mul h1
  have hμt : Tendsto μ (𝓝 q) (𝓝 (w i)) := by
    have : Tendsto (fun p : V3 => dot (e i) ((firstOrder c q (p - q)).mulVec (e i))) (𝓝 q) (𝓝 0) :=
      hd.trans_tendsto dist_tendsto
    simpa using this.const_add (w i)
  refine projector_expansion (M := christoffel c) (M0 := christoffel c q) (hs q) (hf q) (he q) hs hf he hM hi
    (fun k => change_bigO c w e i k) dist_tendsto (fun p => dot_reduced (hf q) i _) hμt (fun k => ?_) k m
  have hx := fun p => mulVec_reduced (M := christoffel c q) (hf q) (he q) (i := i) (fun j hj => (hi j hj).symm)
    ((firstOrder c q (p - q)).mulVec (e i))
  have hres : (fun p => ((christoffel c p).mulVec (e i + change c q w e i (p - q)) -
      μ p • (e i + change c q w e i (p - q))) k) = fun p =>
      (firstOrder c q (p - q)).mulVec (change c q w e i (p - q)) k -
        dot (e i) ((firstOrder c q (p - q)).mulVec (e i)) * change c q w e i (p - q) k +
        (secondOrder (hessianChristoffel c) (p - q)).mulVec (e i + change c q w e i (p - q)) k := by
    funext p
    have h1 := congrFun (hx p) k
    have h2 := congrFun (eigen_mulVec (he q i)) k
    simp only [Pi.add_apply, Pi.sub_apply, Pi.smul_apply, smul_eq_mul] at h1 h2
    rw [christoffel_shift (q := q) c p]
    simp only [Matrix.add_mulVec, Matrix.mulVec_add, Pi.add_apply, Pi.sub_apply, Pi.smul_apply, smul_eq_mul, change, hμ]
    rw [h1, h2]
    ring
  rw [hres]
  refine (IsBigO.sub ?_ ?_).add ?_
  · simpa only [sq] using isBigO_mulVec (firstOrder_bigO c) (change_bigO c w e i) k
  · simpa only [sq] using hd.mul (change_bigO c w e i k)
  · have h1 : ∀ m, (fun p : V3 => (e i + change c q w e i (p - q)) m) =O[𝓝 q] fun _ => (1 : ℝ) := fun m =>
      (isBigO_const_const (e i m) one_ne_zero (𝓝 q)).add
        ((change_bigO c w e i m).trans (dist_tendsto.isBigO_one ℝ))
    simpa only [mul_one] using isBigO_mulVec (secondOrder_bigO (hessianChristoffel c)) h1 k

/-- The eigenvalue gradient is differentiable, and its derivative is the matrix `H` that first-order perturbation theory
gives. -/
theorem slope_hasFDeriv (c : T4) (hc : ∀ p b k m, gradChristoffel c p b k m = gradChristoffel c p b m k)
    {ω : V3 → V3} {f : V3 → Fin 3 → V3}
    (hs : ∀ p, ω p 0 ≤ ω p 1 ∧ ω p 1 ≤ ω p 2) (hf : ∀ p, Frame (f p))
    (he : ∀ p i, Eigen (christoffel c p) (ω p i) (f p i)) {i : Fin 3} (hi : ∀ j, j ≠ i → ω q j ≠ ω q i) {H : M3}
    (hH : ∀ h b, H.mulVec h b = (∑ k, ∑ m, f q i k * f q i m * gradChristoffel c h b k m) +
      2 * ∑ k, ∑ m, f q i k * change c q (ω q) (f q) i h m * gradChristoffel c q b k m) (b : Fin 3) :
    HasFDerivAt (fun p => slope c (f p i) p b)
      ((ContinuousLinearMap.proj b).comp (LinearMap.toContinuousLinearMap H.mulVecLin)) q := by
  rw [hasFDerivAt_iff_isLittleO]
  have hsq : (fun p : V3 => ‖p - q‖ ^ 2) =o[𝓝 q] fun p => p - q := by
    have : (fun p : V3 => ‖p - q‖ ^ 2) =o[𝓝 q] fun p => ‖p - q‖ := by
      simpa only [sq, one_mul] using
        ((isLittleO_one_iff ℝ).2 (dist_tendsto (q := q))).mul_isBigO (isBigO_refl (fun p : V3 => ‖p - q‖) (𝓝 q))
    exact this.trans_isBigO (isBigO_refl _ _).norm_left
  refine IsBigO.trans_isLittleO ?_ hsq
  have key : (fun p => slope c (f p i) p b - slope c (f q i) q b -
      ((ContinuousLinearMap.proj b).comp (LinearMap.toContinuousLinearMap H.mulVecLin)) (p - q)) = fun p =>
      ∑ k, ∑ m, ((f p i k * f p i m - (f q i k * f q i m + f q i k * change c q (ω q) (f q) i (p - q) m +
        change c q (ω q) (f q) i (p - q) k * f q i m)) * gradChristoffel c p b k m +
      (f q i k * change c q (ω q) (f q) i (p - q) m + change c q (ω q) (f q) i (p - q) k * f q i m) *
        gradChristoffel c (p - q) b k m) := by
    funext p
    have h1 : ((ContinuousLinearMap.proj b).comp (LinearMap.toContinuousLinearMap H.mulVecLin)) (p - q) =
        H.mulVec (p - q) b := rfl
    have h2 : ∀ k m, gradChristoffel c p b k m = gradChristoffel c q b k m + gradChristoffel c (p - q) b k m := by
      intro k m
      rw [← gradChristoffel_add]
      congr
      abel
    rw [h1, hH]
    simp only [slope, h2, Fin.sum_univ_three]
    rw [hc q b 1 0, hc q b 2 0, hc q b 2 1]
    ring
  rw [key]
  refine isBigO_sum _ fun k _ => isBigO_sum _ fun m _ => IsBigO.add ?_ ?_
  · have h1 : (fun p => gradChristoffel c p b k m) =O[𝓝 q] fun _ => (1 : ℝ) := by
      have : Continuous fun p : V3 => gradChristoffel c p b k m := by
        simp only [gradChristoffel, Matrix.of_apply]
        fun_prop
      exact (this.tendsto q).isBigO_one ℝ
    simpa only [mul_one] using (projector_near c hs hf he hi k m).mul h1
  · have h1 : (fun p => gradChristoffel c (p - q) b k m) =O[𝓝 q] fun p => ‖p - q‖ := by
      simp only [gradChristoffel, Matrix.of_apply]
      refine isBigO_sum _ fun n _ => ?_
      simpa only [mul_one] using (coord_bigO n).mul (isBigO_const_const (c k b n m + c k n b m) one_ne_zero (𝓝 q))
    have h2 : (fun p => f q i k * change c q (ω q) (f q) i (p - q) m + change c q (ω q) (f q) i (p - q) k * f q i m)
        =O[𝓝 q] fun p => ‖p - q‖ := by
      refine IsBigO.add ?_ ?_
      · simpa only [one_mul] using (isBigO_const_const (f q i k) one_ne_zero (𝓝 q)).mul (change_bigO c (ω q) (f q) i m)
      · simpa only [mul_one] using (change_bigO c (ω q) (f q) i k).mul (isBigO_const_const (f q i m) one_ne_zero (𝓝 q))
    simpa only [sq] using h2.mul h1

end

/-- The derivative of a direction `g / |g|`. -/
theorem direction_hasFDeriv {g : V3 → V3} {q : V3} {H : M3}
    (hg : ∀ b, HasFDerivAt (fun p => g p b)
      ((ContinuousLinearMap.proj b).comp (LinearMap.toContinuousLinearMap H.mulVecLin)) q)
    (h0 : 0 < dot (g q) (g q)) {D : M3}
    (hD : ∀ u a, D.mulVec u a = H.mulVec u a / norm (g q) - g q a * dot (g q) (H.mulVec u) / norm (g q) ^ 3) :
    HasFDerivAt (fun p => fun a => g p a / norm (g p)) (LinearMap.toContinuousLinearMap D.mulVecLin) q := by
  have hn0 : ∑ i, g q i ^ 2 ≠ 0 := by
    have : ∑ i, g q i ^ 2 = dot (g q) (g q) := Finset.sum_congr rfl fun i _ => by ring
    rw [this]
    exact h0.ne'
  have hnpos : 0 < norm (g q) := by
    unfold norm
    refine Real.sqrt_pos.2 ?_
    have : ∑ i, g q i ^ 2 = dot (g q) (g q) := Finset.sum_congr rfl fun i _ => by ring
    rw [this]
    exact h0
  have hsum := HasFDerivAt.fun_sum (u := Finset.univ) fun i _ => (hg i).pow 2
  have hn := hsum.sqrt hn0
  rw [hasFDerivAt_pi']
  intro a
  have hne : Real.sqrt (∑ i, g q i ^ 2) ≠ 0 := hnpos.ne'
  have hinv := (hasDerivAt_inv hne).comp_hasFDerivAt q hn
  have hdiv := (hg a).mul hinv
  have hfun : (fun p => g p a / norm (g p)) = (fun p => g p a) * (Inv.inv ∘ fun y => Real.sqrt (∑ i, g y i ^ 2)) := by
    funext p
    rw [div_eq_mul_inv]
    rfl
  rw [hfun]
  refine hdiv.congr_fderiv ?_
  ext u
  have h1 : ((ContinuousLinearMap.proj a).comp (LinearMap.toContinuousLinearMap D.mulVecLin)) u = D.mulVec u a := rfl
  rw [h1, hD]
  have h2 : Real.sqrt (∑ i, g q i ^ 2) = norm (g q) := rfl
  simp only [h2, ContinuousLinearMap.add_apply, ContinuousLinearMap.smul_apply, ContinuousLinearMap.comp_apply,
    ContinuousLinearMap.sum_apply, smul_eq_mul, Function.comp_apply]
  have h3 : ∀ i, (ContinuousLinearMap.proj (R := ℝ) (φ := fun _ : Fin 3 => ℝ) i)
      ((LinearMap.toContinuousLinearMap H.mulVecLin) u) = H.mulVec u i := fun i => rfl
  simp only [h3, dot, Fin.sum_univ_three]
  field_simp
  ring

end Verif.Seismic
