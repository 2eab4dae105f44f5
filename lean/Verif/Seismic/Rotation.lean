/-
C117: the waves do not depend on the Cartesian frame.
-/
import Verif.Elastic.RotationProps
import Verif.Seismic.Derivative

namespace Verif.Seismic
open Verif.Py Verif.Elastic Verif.Elastic.Spec Spec

variable {R : Fin 3 → Fin 3 → ℝ}

/-! ### Turned matrices -/

/-- The matrix in the turned frame. -/
def conj (R : Fin 3 → Fin 3 → ℝ) (A : M3) : M3 := Matrix.of R * A * (Matrix.of R).transpose

theorem eq_of_dot {x y : V3} (h : ∀ v, dot v x = dot v y) : x = y := by
  funext i
  have := h (axis i)
  simpa [dot, axis] using this

/-- A matrix is the turned one when its entries along turned vectors are those of the other. -/
theorem eq_conj (hR : Orthogonal R) {A A' : M3}
    (h : ∀ v w, dot (turn R v) (A'.mulVec (turn R w)) = dot v (A.mulVec w)) : A' = conj R A := by
  have h1 : (Matrix.of R).transpose * A' * Matrix.of R = A := by
    ext i j
    have := h (axis i) (axis j)
    have e : ∀ B : M3, dot (axis i) (B.mulVec (axis j)) = B i j := by
      intro B
      simp [dot, axis, Matrix.mulVec, dotProduct]
    rw [e A] at this
    refine (e ((Matrix.of R).transpose * A' * Matrix.of R)).symm.trans (Eq.trans ?_ this)
    rw [← Matrix.mulVec_mulVec, ← Matrix.mulVec_mulVec]
    show axis i ⬝ᵥ (Matrix.of R).transpose.mulVec (Matrix.mulVec A' ((Matrix.of R).mulVec (axis j))) = _
    rw [Matrix.dotProduct_mulVec, Matrix.vecMul_transpose]
    rfl
  rw [← h1, conj]
  calc A' = (Matrix.of R * (Matrix.of R).transpose) * A' * (Matrix.of R * (Matrix.of R).transpose) := by
        rw [orthogonal_mul' hR, Matrix.one_mul, Matrix.mul_one]
    _ = _ := by simp only [Matrix.mul_assoc]

theorem conj_mulVec (hR : Orthogonal R) (A : M3) (w : V3) : (conj R A).mulVec (turn R w) = turn R (A.mulVec w) := by
  rw [turn_eq, turn_eq, conj, Matrix.mulVec_mulVec, Matrix.mul_assoc, orthogonal_mul hR, Matrix.mul_one,
    Matrix.mulVec_mulVec]

theorem conj_apply (A : M3) (a b : Fin 3) : conj R A a b = ∑ k, ∑ l, R a k * R b l * A k l := by
  have := congrFun (congrFun (turnTensor_eq R A) a) b
  exact this.symm

theorem conj_mul (hR : Orthogonal R) (A B : M3) : conj R A * conj R B = conj R (A * B) := by
  unfold conj
  calc _ = Matrix.of R * A * ((Matrix.of R).transpose * Matrix.of R) * B * (Matrix.of R).transpose := by
        simp only [Matrix.mul_assoc]
    _ = _ := by rw [orthogonal_mul hR, Matrix.mul_one]; simp only [Matrix.mul_assoc]

theorem conj_transpose (A : M3) : (conj R A).transpose = conj R A.transpose := by
  unfold conj
  rw [Matrix.transpose_mul, Matrix.transpose_mul, Matrix.transpose_transpose, Matrix.mul_assoc]

theorem conj_add (A B : M3) : conj R (A + B) = conj R A + conj R B := by
  unfold conj; rw [Matrix.mul_add, Matrix.add_mul]

theorem conj_smul (c : ℝ) (A : M3) : conj R (c • A) = c • conj R A := by
  unfold conj; rw [Matrix.mul_smul, Matrix.smul_mul]

theorem turn_smul (c : ℝ) (a : V3) : turn R (c • a) = c • turn R a := by
  rw [turn_eq, turn_eq, Matrix.mulVec_smul]

theorem turn_zero : turn R 0 = 0 := by rw [turn_eq, Matrix.mulVec_zero]

theorem norm_dot (a : V3) : norm a = Real.sqrt (dot a a) := by
  unfold norm dot
  congr 1
  exact Finset.sum_congr rfl fun i _ => by ring

theorem norm_turn (hR : Orthogonal R) (a : V3) : norm (turn R a) = norm a := by
  rw [norm_dot, norm_dot, dot_turn hR]

theorem frame_turn (hR : Orthogonal R) {e : Fin 3 → V3} (h : Frame e) : Frame fun i => turn R (e i) := by
  intro i j
  rw [dot_turn hR]
  exact h i j

theorem eigen_turn (hR : Orthogonal R) {A : M3} {w : ℝ} {e : V3} (h : Eigen A w e) :
    Eigen (conj R A) w (turn R e) := by
  intro i
  have := congrFun (conj_mulVec hR A e) i
  rw [eigen_mulVec h, turn_smul] at this
  exact this

theorem conj_symm {A : M3} (h : ∀ i j, A i j = A j i) (i j : Fin 3) : conj R A i j = conj R A j i := by
  have hT : A.transpose = A := by ext i j; exact h j i
  have := conj_transpose (R := R) A
  rw [hT] at this
  exact congrFun (congrFun this j) i

theorem spectrum_turn (hR : Orthogonal R) {A : M3} {w : V3} (h : Spectrum A w) : Spectrum (conj R A) w := by
  obtain ⟨h1, h2, e, hf, he⟩ := h
  exact ⟨h1, h2, _, frame_turn hR hf, fun i => eigen_turn hR (he i)⟩

/-- A unit eigenvector of a simple eigenvalue is determined up to its sign. -/
theorem eigen_sign {A : M3} {w : V3} {e : Fin 3 → V3} (hf : Frame e) (he : ∀ i, Eigen A (w i) (e i)) {x : V3} {i : Fin 3}
    (hx : Eigen A (w i) x) (hu : UnitVector x) (hs : ∀ j, j ≠ i → w j ≠ w i) :
    ∃ s : ℝ, s * s = 1 ∧ x = s • e i := by
  have h0 : ∀ j, j ≠ i → dot (e j) x = 0 := fun j hj =>
    (mul_eq_zero.1 (eigen_component hf he hx j)).resolve_left (sub_ne_zero.2 (hs j hj))
  have hexp := frame_expand hf x
  rw [Finset.sum_eq_single i (fun j _ hj => by rw [h0 j hj, zero_smul]) (by simp)] at hexp
  refine ⟨dot (e i) x, ?_, hexp⟩
  have hii : dot (e i) (e i) = 1 := by have := hf i i; rwa [if_pos rfl] at this
  have h1 : dot x x = 1 := hu
  calc dot (e i) x * dot (e i) x = dot x (dot (e i) x • e i) := by rw [dot_smul, dot_comm x]
    _ = dot x x := by rw [← hexp]
    _ = 1 := h1

/-- The pseudo-inverse of the turned matrix. -/
theorem pinv_turn (hR : Orthogonal R) {num : Numerics} (hp : PinvCorrect num) {A : M3} {a : V3} {e : Fin 3 → V3}
    (hf : Frame e) (he : ∀ i, Eigen A (a i) (e i)) : num.pinv (conj R A) = conj R (num.pinv A) := by
  have h1 := hp A a e hf he
  have h2 := hp (conj R A) a _ (frame_turn hR hf) fun i => eigen_turn hR (he i)
  have h3 : ∀ i, (num.pinv (conj R A)).mulVec (turn R (e i)) = turn R ((num.pinv A).mulVec (e i)) := by
    intro i
    by_cases hc : ∃ k, |a i| ≤ (1 / 10 ^ 10) * |a k|
    · rw [(h1 i).1 hc, (h2 i).1 hc, turn_zero]
    · push Not at hc
      rw [(h1 i).2 hc, (h2 i).2 hc, turn_smul]
  refine eq_conj hR fun v w => ?_
  have h4 : (num.pinv (conj R A)).mulVec (turn R w) = turn R ((num.pinv A).mulVec w) := by
    rw [frame_expand hf w]
    simp only [turn_eq, Matrix.mulVec_sum, Matrix.mulVec_smul]
    refine Finset.sum_congr rfl fun i _ => ?_
    have := h3 i
    simp only [turn_eq] at this
    rw [this]
  rw [h4, dot_turn hR]

/-- The cofactors of the turned matrix. -/
theorem cofactor_turn (hR : Orthogonal R) (A : M3) : cofactor (conj R A) = conj R (cofactor A) := by
  have key : ∀ A : M3, cofactor A = A.adjugate.transpose := by
    intro A
    rw [(C62_cofactor_partial A).1, Matrix.adjugate_fin_three]
    ext i j
    fin_cases i <;> fin_cases j <;> simp <;> ring
  have hdet : (Matrix.of R).det * (Matrix.of R).det = 1 := by
    have := congrArg Matrix.det (orthogonal_mul hR)
    rwa [Matrix.det_mul, Matrix.det_transpose, Matrix.det_one] at this
  have hadj : (Matrix.of R).adjugate = (Matrix.of R).det • (Matrix.of R).transpose := by
    have h1 : (Matrix.of R).adjugate * Matrix.of R = (Matrix.of R).det • 1 := Matrix.adjugate_mul _
    calc (Matrix.of R).adjugate = (Matrix.of R).adjugate * (Matrix.of R * (Matrix.of R).transpose) := by
          rw [orthogonal_mul' hR, Matrix.mul_one]
      _ = _ := by rw [← Matrix.mul_assoc, h1, Matrix.smul_mul, Matrix.one_mul]
  have hadj' : (Matrix.of R).transpose.adjugate = (Matrix.of R).det • Matrix.of R := by
    rw [← Matrix.adjugate_transpose, hadj, Matrix.transpose_smul, Matrix.transpose_transpose]
  have hmain : (conj R A).adjugate = conj R A.adjugate := by
    unfold conj
    rw [Matrix.adjugate_mul_distrib, Matrix.adjugate_mul_distrib, hadj, hadj', Matrix.mul_smul, Matrix.mul_smul,
      Matrix.smul_mul, smul_smul, hdet, one_smul, Matrix.mul_assoc]
  rw [key, key, hmain, conj_transpose]

/-! ### The wave matrices of a turned crystal -/

theorem cmat_turn (hR : Orthogonal R) {C C' : M6} (h : Turned R C C') {rho : ℝ} {o o' : Seismic}
    (ho : seismic C rho = .ok o) (ho' : seismic C' rho = .ok o') (a b c d : V3) :
    contract4 o'.Cmat (turn R a) (turn R b) (turn R c) (turn R d) = contract4 o.Cmat a b c d := by
  obtain ⟨-, rfl⟩ := seismic_ok ho
  obtain ⟨-, rfl⟩ := seismic_ok ho'
  have e : ∀ (T : T4) (k : ℝ) (a b c d : V3), contract4 (fun i j l m => T i j l m * k) a b c d =
      contract4 T a b c d * k := by
    intro T k a b c d
    simp only [contract4, Finset.sum_mul]
    refine Finset.sum_congr rfl fun i _ => Finset.sum_congr rfl fun j _ => Finset.sum_congr rfl fun l _ =>
      Finset.sum_congr rfl fun m _ => by ring
  rw [e, e, stiffness_turn hR h]

theorem dot_christoffel (T : T4) (q v w : V3) : dot v ((christoffel T q).mulVec w) = contract4 T v q q w := by
  simp only [dot, christoffel, Matrix.mulVec, dotProduct, Matrix.of_apply, contract4, Fin.sum_univ_three]
  ring

/-- The gradient along a direction, between two vectors. -/
theorem dot_grad (T : T4) (q u v w : V3) :
    ∑ b, u b * dot v ((gradChristoffel T q b).mulVec w) = contract4 T v u q w + contract4 T v q u w := by
  simp only [dot, gradChristoffel, Matrix.mulVec, dotProduct, Matrix.of_apply, contract4, Fin.sum_univ_three]
  ring

theorem christoffel_turn (hR : Orthogonal R) {T T' : T4}
    (h : ∀ a b c d, contract4 T' (turn R a) (turn R b) (turn R c) (turn R d) = contract4 T a b c d) (q : V3) :
    christoffel T' (turn R q) = conj R (christoffel T q) :=
  eq_conj hR fun v w => by rw [dot_christoffel, dot_christoffel, h]

theorem contract4_smul_ends (T : T4) (s : ℝ) (hs : s * s = 1) (a b c d : V3) :
    contract4 T (s • a) b c (s • d) = contract4 T a b c d := by
  have : contract4 T (s • a) b c (s • d) = s * s * contract4 T a b c d := by
    simp only [contract4, Pi.smul_apply, smul_eq_mul, Finset.mul_sum]
    refine Finset.sum_congr rfl fun i _ => Finset.sum_congr rfl fun j _ => Finset.sum_congr rfl fun l _ =>
      Finset.sum_congr rfl fun m _ => by ring
  rw [this, hs, one_mul]

section waves

variable (hR : Orthogonal R) {T T' : T4}
  (h : ∀ a b c d, contract4 T' (turn R a) (turn R b) (turn R c) (turn R d) = contract4 T a b c d)
include hR h

/-- The gradient of an eigenvalue of the turned crystal. -/
theorem gradEig_turn (q : V3) {pv pv' : V3} {e e' : M3} {i : Fin 3} {s : ℝ} (hs : s * s = 1) (he : e' i = s • turn R (e i)) :
    (groupOf (turn R q) pv' e' (gradChristoffel T' (turn R q))).gradEig i =
      turn R ((groupOf q pv e (gradChristoffel T q)).gradEig i) := by
  have key : ∀ (T : T4) (q pv : V3) (e : M3) (u : V3), dot u ((groupOf q pv e (gradChristoffel T q)).gradEig i) =
      contract4 T (e i) u q (e i) + contract4 T (e i) q u (e i) := by
    intro T q pv e u
    rw [← dot_grad]
    rfl
  refine eq_of_dot fun v => ?_
  rw [← turn_transpose' hR v, dot_turn hR, key, key, he, contract4_smul_ends _ s hs, contract4_smul_ends _ s hs, h, h]

theorem velocity_turn (q : V3) {pv pv' : V3} {e e' : M3} {i : Fin 3} {s : ℝ} (hs : s * s = 1) (he : e' i = s • turn R (e i))
    (hpv : pv' i = pv i) :
    (groupOf (turn R q) pv' e' (gradChristoffel T' (turn R q))).velocity i =
      turn R ((groupOf q pv e (gradChristoffel T q)).velocity i) := by
  have hg := gradEig_turn hR h q (pv := pv) (pv' := pv') hs he
  have e1 : ∀ (T : T4) (q pv : V3) (e : M3), (groupOf q pv e (gradChristoffel T q)).velocity i =
      (1 / (2 * pv i)) • (groupOf q pv e (gradChristoffel T q)).gradEig i := by
    intro T q pv e
    funext j
    rw [Pi.smul_apply, smul_eq_mul, one_div, mul_comm, ← div_eq_mul_inv]
    rfl
  rw [e1, e1, hg, turn_smul, hpv]

theorem group_turn (q : V3) {pv pv' : V3} {e e' : M3} {i : Fin 3} {s : ℝ} (hs : s * s = 1) (he : e' i = s • turn R (e i))
    (hpv : pv' i = pv i) :
    (groupOf (turn R q) pv' e' (gradChristoffel T' (turn R q))).abs i = (groupOf q pv e (gradChristoffel T q)).abs i ∧
    (groupOf (turn R q) pv' e' (gradChristoffel T' (turn R q))).powerflow i =
      (groupOf q pv e (gradChristoffel T q)).powerflow i := by
  have hv := velocity_turn hR h q (pv := pv) (pv' := pv') hs he hpv
  have ha : (groupOf (turn R q) pv' e' (gradChristoffel T' (turn R q))).abs i =
      (groupOf q pv e (gradChristoffel T q)).abs i := by
    show norm ((groupOf (turn R q) pv' e' (gradChristoffel T' (turn R q))).velocity i) =
      norm ((groupOf q pv e (gradChristoffel T q)).velocity i)
    rw [hv, norm_turn hR]
  refine ⟨ha, ?_⟩
  have hd : ∀ (T : T4) (q pv : V3) (e : M3), (groupOf q pv e (gradChristoffel T q)).dir i =
      (1 / (groupOf q pv e (gradChristoffel T q)).abs i) • (groupOf q pv e (gradChristoffel T q)).velocity i := by
    intro T q pv e
    funext j
    rw [Pi.smul_apply, smul_eq_mul, one_div, mul_comm, ← div_eq_mul_inv]
    rfl
  show Real.arccos (around10 (dot ((groupOf (turn R q) pv' e' (gradChristoffel T' (turn R q))).dir i) (turn R q))) =
    Real.arccos (around10 (dot ((groupOf q pv e (gradChristoffel T q)).dir i) q))
  rw [hd, hd, ha, hv, ← turn_smul, dot_turn hR]

theorem hessian_turn {num : Numerics} (hp : PinvCorrect num) (q : V3) {w : V3} {e e' : M3} (hf : Frame e)
    (hev : ∀ i, Eigen (christoffel T q) (w i) (e i)) {i : Fin 3} {s : ℝ} (hs : s * s = 1)
    (he : e' i = s • turn R (e i)) :
    hessianEigenval num (hessianChristoffel T') (christoffel T' (turn R q)) w e' (gradChristoffel T' (turn R q)) i =
      conj R (hessianEigenval num (hessianChristoffel T) (christoffel T q) w e (gradChristoffel T q) i) := by
  have hfirst : (Matrix.of fun a b => ∑ k, (∑ l, hessianChristoffel T' a b k l * e' i l) * e' i k : M3) =
      conj R (Matrix.of fun a b => ∑ k, (∑ l, hessianChristoffel T a b k l * e i l) * e i k) := by
    have key : ∀ (T : T4) (e : M3) (u v : V3),
        dot u ((Matrix.of fun a b => ∑ k, (∑ l, hessianChristoffel T a b k l * e i l) * e i k : M3).mulVec v) =
          contract4 T (e i) u v (e i) + contract4 T (e i) v u (e i) := by
      intro T e u v
      simp only [dot, Matrix.mulVec, dotProduct, Matrix.of_apply, hessianChristoffel, contract4, Fin.sum_univ_three]
      ring
    refine eq_conj hR fun u v => ?_
    rw [key, key, he, contract4_smul_ends _ s hs, contract4_smul_ends _ s hs, h, h]
  have hdvec : (Matrix.of fun b a => ∑ d, gradChristoffel T' (turn R q) b a d * e' i d : M3) =
      s • conj R (Matrix.of fun b a => ∑ d, gradChristoffel T q b a d * e i d) := by
    have key : ∀ (T : T4) (q x u v : V3),
        dot u ((Matrix.of fun b a => ∑ d, gradChristoffel T q b a d * x d : M3).mulVec v) =
          contract4 T v u q x + contract4 T v q u x := by
      intro T q x u v
      rw [← dot_grad]
      simp only [dot, Matrix.mulVec, dotProduct, Matrix.of_apply, Fin.sum_univ_three]
      ring
    have hlast : ∀ (T : T4) (a b c d : V3), contract4 T a b c (s • d) = s * contract4 T a b c d := by
      intro T a b c d
      simp only [contract4, Pi.smul_apply, smul_eq_mul, Finset.mul_sum]
      refine Finset.sum_congr rfl fun i _ => Finset.sum_congr rfl fun j _ => Finset.sum_congr rfl fun l _ =>
        Finset.sum_congr rfl fun m _ => by ring
    rw [← conj_smul]
    refine eq_conj hR fun u v => ?_
    rw [key, he, hlast, hlast, h, h, Matrix.smul_mulVec, dot_smul, key]
    ring
  have hA : ∀ j, Eigen (w i • (1 : M3) - christoffel T q) (w i - w j) (e j) := by
    intro j k
    have := hev j k
    have h1 : ∑ x, (w i • (1 : M3) - christoffel T q) k x * e j x = w i * e j k - ∑ x, christoffel T q k x * e j x := by
      simp only [Matrix.sub_apply, Matrix.smul_apply, smul_eq_mul, sub_mul, Finset.sum_sub_distrib,
        Matrix.one_apply, mul_ite, mul_one, mul_zero, ite_mul, zero_mul, Finset.sum_ite_eq,
        Finset.mem_univ, if_true]
    rw [h1, this]
    ring
  have hone : conj R (1 : M3) = 1 := by
    rw [conj, Matrix.mul_one, orthogonal_mul' hR]
  have hP : num.pinv (w i • (1 : M3) - christoffel T' (turn R q)) =
      conj R (num.pinv (w i • (1 : M3) - christoffel T q)) := by
    rw [← pinv_turn hR hp hf hA, christoffel_turn hR h, sub_eq_add_neg, sub_eq_add_neg, conj_add, conj_smul, hone,
      ← neg_one_smul ℝ (christoffel T q), conj_smul, neg_one_smul]
  simp only [hessianEigenval]
  rw [hfirst, hdvec, hP, conj_add, conj_smul]
  congr 2
  rw [Matrix.transpose_smul, conj_transpose]
  simp only [Matrix.smul_mul, Matrix.mul_smul, smul_smul, hs, one_smul]
  rw [conj_mul hR, conj_mul hR]

end waves

theorem enhancement_turn (hR : Orthogonal R) (q : V3) {H H' : T3} {pv pv' : V3} {gv gv' : M3} {ga ga' : V3} {i : Fin 3}
    (hH : H' i = conj R (H i)) (hpv : pv' i = pv i) (hgv : gv' i = turn R (gv i)) (hga : ga' i = ga i) :
    enhancementOf (turn R q) H' pv' gv' ga' i = enhancementOf q H pv gv ga i := by
  have hgrad : (Matrix.of fun a b =>
      (H' i a b / ga' i - gv' i a * (H' i).mulVec (gv' i) b / ga' i ^ 3) / (2 * pv' i) : M3) =
      conj R (Matrix.of fun a b =>
        (H i a b / ga i - gv i a * (H i).mulVec (gv i) b / ga i ^ 3) / (2 * pv i)) := by
    ext a b
    rw [conj_apply, Matrix.of_apply, hga, hpv, hH, hgv, conj_mulVec hR, conj_apply]
    simp only [turn, Matrix.of_apply, Fin.sum_univ_three]
    ring
  simp only [enhancementOf]
  rw [hgrad, cofactor_turn hR, conj_mulVec hR, norm_turn hR]

/-! ### C117 -/

theorem isotropicVelocity_turn (hR : Orthogonal R) {C C' : M6} (hsym : ∀ i j, C i j = C j i) (h : Turned R C C')
    {rho : ℝ} {o o' : Seismic} (ho : seismic C rho = .ok o) (ho' : seismic C' rho = .ok o') :
    o'.isotropicVelocity = o.isotropicVelocity := by
  obtain ⟨c1, -⟩ := traces_turn hR (cmat_turn hR h ho ho')
  have hC := (seismic_ok ho).1
  have hC' := (seismic_ok ho').1
  have hs : ∃ s, soec C rho = .ok s := ⟨_, by rw [soec, if_neg hC]⟩
  have hs' : ∃ s, soec C' rho = .ok s := ⟨_, by rw [soec, if_neg hC']⟩
  obtain ⟨s, hs⟩ := hs
  obtain ⟨s', hs'⟩ := hs'
  have hav := (C116_averages hR hsym h hs hs').1
  obtain ⟨-, rfl⟩ := soec_ok hs
  obtain ⟨-, rfl⟩ := soec_ok hs'
  obtain ⟨-, rfl⟩ := seismic_ok ho
  obtain ⟨-, rfl⟩ := seismic_ok ho'
  have e1 := congrArg (fun a => a.voigt.G) hav
  have e2 := congrArg (fun a => a.reuss.G) hav
  have e3 := congrArg (fun a => a.reuss.K) hav
  simp only [Soec.averages, averageRow] at e1 e2 e3
  have e4 : ∀ (T T' : T4) (k : ℝ), ∑ i, ∑ j, T' i i j j = ∑ i, ∑ j, T i i j j →
      einsum_iijj (fun i j l m => T' i j l m * k / 1000) = einsum_iijj (fun i j l m => T i j l m * k / 1000) := by
    intro T T' k hT
    have : ∀ T : T4, einsum_iijj (fun i j l m => T i j l m * k / 1000) = (∑ i, ∑ j, T i i j j) * k / 1000 := by
      intro T
      simp only [einsum_iijj, Fin.sum_univ_three]
      ring
    rw [this, this, hT]
  simp only [Seismic.isotropicVelocity, Seismic.bulkModulus, Seismic.shearModulus, e1, e2, e3]
  rw [e4 _ _ _ c1]

/-- C117: a wave of the turned crystal along the turned direction has the velocities of the wave of the crystal along the
direction itself.  If its velocity is not that of another wave, its polarisation and its group velocity are the turned ones,
and its group speed, power flow angle and enhancement factor are the same.  (When two waves have the same velocity, their
polarisations are not determined by the crystal.) -/
theorem C117_waves (num : Numerics) (hn : EighCorrect num) (hp : PinvCorrect num) (hR : Orthogonal R) {C C' : M6}
    (hsym : ∀ i j, C i j = C j i) (h : Turned R C C') {density : ℝ} {o o' : Seismic}
    (ho : seismic C density = .ok o) (ho' : seismic C' density = .ok o') {setting setting' : Op}
    (hset : (∃ theta phi, setting = .spherical theta phi) ∨ ∃ v, v ≠ 0 ∧ setting = .cartesian v)
    (hset' : (∃ theta phi, setting' = .spherical theta phi) ∨ ∃ v, v ≠ 0 ∧ setting' = .cartesian v)
    {st st' : State} {q : V3} (hq : (step num o (.read .q) (step num o setting st).2).1 = .ok (.vec q))
    (hq' : (step num o' (.read .q) (step num o' setting' st').2).1 = .ok (.vec (turn R q))) :
    (∀ p, p = .phaseVelocity ∨ p = .relPhaseVelocity →
      (step num o' (.read p) (step num o' setting' st').2).1 = (step num o (.read p) (step num o setting st).2).1) ∧
    ∃ (pv ga ga' rg rg' pf pf' en en' : V3) (e e' gv gv' : M3),
      (step num o (.read .phaseVelocity) (step num o setting st).2).1 = .ok (.vec pv) ∧
      (step num o (.read .eigenvec) (step num o setting st).2).1 = .ok (.mat e) ∧
      (step num o' (.read .eigenvec) (step num o' setting' st').2).1 = .ok (.mat e') ∧
      (step num o (.read .groupVelocity) (step num o setting st).2).1 = .ok (.mat gv) ∧
      (step num o' (.read .groupVelocity) (step num o' setting' st').2).1 = .ok (.mat gv') ∧
      (step num o (.read .groupAbs) (step num o setting st).2).1 = .ok (.vec ga) ∧
      (step num o' (.read .groupAbs) (step num o' setting' st').2).1 = .ok (.vec ga') ∧
      (step num o (.read .relGroupVelocity) (step num o setting st).2).1 = .ok (.vec rg) ∧
      (step num o' (.read .relGroupVelocity) (step num o' setting' st').2).1 = .ok (.vec rg') ∧
      (step num o (.read .powerflow) (step num o setting st).2).1 = .ok (.vec pf) ∧
      (step num o' (.read .powerflow) (step num o' setting' st').2).1 = .ok (.vec pf') ∧
      (step num o (.read .enhancement) (step num o setting st).2).1 = .ok (.vec en) ∧
      (step num o' (.read .enhancement) (step num o' setting' st').2).1 = .ok (.vec en') ∧
      ∀ i, (∀ j, j ≠ i → pv j ≠ pv i) →
        (e' i = turn R (e i) ∨ e' i = -turn R (e i)) ∧ gv' i = turn R (gv i) ∧ ga' i = ga i ∧ rg' i = rg i ∧
        pf' i = pf i ∧ en' i = en i := by
  obtain ⟨d, hd, -⟩ := dir_of_setting hset
  obtain ⟨d', hd', -⟩ := dir_of_setting hset'
  have g := set_good (num := num) (o := o) hd st
  have g' := set_good (num := num) (o := o') hd' st'
  rw [step_read g] at hq
  rw [step_read g'] at hq'
  have hdq : d.q = q := by
    have := Except.ok.inj hq
    simpa [Dir.value] using this
  have hdq' : d'.q = turn R q := by
    have := Except.ok.inj hq'
    simpa [Dir.value] using this
  subst hdq
  have key := cmat_turn hR h ho ho'
  have hM : d'.M o' = conj R (d.M o) := by
    unfold Dir.M
    rw [hdq', christoffel_turn hR key]
  have hMs : ∀ i j, d.M o i j = d.M o j i := fun i j => christoffel_symm hsym ho d.q i j
  have hMs' : ∀ i j, d'.M o' i j = d'.M o' j i := fun i j => by rw [hM]; exact conj_symm hMs i j
  obtain ⟨-, -, hf, he⟩ := sortedEigh_spec hn hMs
  obtain ⟨-, -, hf', he'⟩ := sortedEigh_spec hn hMs'
  have hw : d'.eigenval num o' = d.eigenval num o := by
    refine spectrum_unique (sortedEigh_spectrum hn hMs') ?_
    rw [hM]
    exact spectrum_turn hR (sortedEigh_spectrum hn hMs)
  have hpv : d'.phase num o' = d.phase num o := by unfold Dir.phase; rw [hw]
  have hiso := isotropicVelocity_turn hR hsym h ho ho'
  refine ⟨?_, _, _, _, _, _, _, _, _, _, _, _, _, _, step_read g _, step_read g _, step_read g' _, step_read g _,
    step_read g' _, step_read g _, step_read g' _, step_read g _, step_read g' _, step_read g _, step_read g' _,
    step_read g _, step_read g' _, ?_⟩
  · rintro p (rfl | rfl) <;> rw [step_read g, step_read g'] <;> simp only [Dir.value, hpv, hiso]
  · intro i hi
    have hwi : ∀ j, j ≠ i → d.eigenval num o j ≠ d.eigenval num o i := by
      intro j hj hc
      refine hi j hj ?_
      simp only [Dir.phase, phaseVelocity, hc]
    have hx : Eigen (conj R (d.M o)) (d.eigenval num o i) (d'.eigenvec num o' i) := by
      have := he' i
      rw [hM] at this
      rw [← hw]
      unfold Dir.eigenval Dir.eigenvec
      rw [hM]
      exact this
    have hu : UnitVector (d'.eigenvec num o' i) := by have := hf' i i; rwa [if_pos rfl] at this
    obtain ⟨s, hs, hse⟩ := eigen_sign (frame_turn hR hf) (fun j => eigen_turn hR (he j)) hx hu hwi
    have hse' : d'.eigenvec num o' i = s • turn R (d.eigenvec num o i) := hse
    have hvel : (d'.group num o').velocity i = turn R ((d.group num o).velocity i) := by
      unfold Dir.group Dir.gradM
      rw [hdq']
      exact velocity_turn hR key d.q hs hse' (by rw [hpv])
    obtain ⟨hab, hpf⟩ := group_turn hR key d.q (pv := d.phase num o) (pv' := d'.phase num o') hs hse' (by rw [hpv])
    have hab' : (d'.group num o').abs i = (d.group num o).abs i := by
      unfold Dir.group Dir.gradM
      rw [hdq']
      exact hab
    have hH : d'.hessian num o' i = conj R (d.hessian num o i) := by
      have e1 : o.hessM = hessianChristoffel o.Cmat := by rw [(seismic_ok ho).2]
      have e2 : o'.hessM = hessianChristoffel o'.Cmat := by rw [(seismic_ok ho').2]
      have := hessian_turn hR key hp d.q (w := d.eigenval num o) (e := d.eigenvec num o) (e' := d'.eigenvec num o') hf he hs hse'
      unfold Dir.hessian Dir.M Dir.gradM
      rw [e1, e2, hdq', hw]
      exact this
    refine ⟨?_, hvel, hab', ?_, ?_, ?_⟩
    · rcases mul_self_eq_one_iff.1 hs with rfl | rfl
      · left; rw [hse', one_smul]
      · right; rw [hse', neg_one_smul]
    · show (d'.group num o').abs i / o'.isotropicVelocity i = (d.group num o).abs i / o.isotropicVelocity i
      rw [hab', hiso]
    · show (d'.group num o').powerflow i = (d.group num o).powerflow i
      unfold Dir.group Dir.gradM
      rw [hdq']
      exact hpf
    · show d'.enhancement num o' i = d.enhancement num o i
      unfold Dir.enhancement
      rw [hdq']
      exact enhancement_turn hR d.q hH (by rw [hpv]) hvel hab'

/-- C117: the same for the velocities of the elastic calculator. -/
theorem C117_elastic (num : Numerics) (hn : EighCorrect num) (hR : Orthogonal R) {C C' : M6}
    (hsym : ∀ i j, C i j = C j i) (h : Turned R C C') {density : ℝ} {s s' : Soec}
    (hs : soec C density = .ok s) (hs' : soec C' density = .ok s') {theta phi theta' phi' : ℝ}
    (hv : vector theta' phi' = turn R (vector theta phi)) :
    Soec.phaseVelocity num s' theta' phi' = Soec.phaseVelocity num s theta phi := by
  obtain ⟨hC, rfl⟩ := soec_ok hs
  obtain ⟨hC', rfl⟩ := soec_ok hs'
  have key : ∀ (C : M6) (l : V3), elasticChristoffel C l = christoffel (fun i j k m => 10 ^ 9 * cTensor C i j k m) l := by
    intro C l
    rw [elastic_eq C l 1 one_ne_zero, one_smul]
    ext i k
    simp only [acoustic, christoffel, Matrix.of_apply, div_one, Finset.mul_sum]
    refine Finset.sum_congr rfl fun j _ => Finset.sum_congr rfl fun m _ => ?_
    rw [cTensor_minor C i j k m]
    ring
  have e : ∀ (T : T4) (a b c d : V3), contract4 (fun i j l m => 10 ^ 9 * T i j l m) a b c d =
      10 ^ 9 * contract4 T a b c d := by
    intro T a b c d
    simp only [contract4, Finset.mul_sum]
    refine Finset.sum_congr rfl fun i _ => Finset.sum_congr rfl fun j _ => Finset.sum_congr rfl fun l _ =>
      Finset.sum_congr rfl fun m _ => by ring
  have hconj : elasticChristoffel C' (vector theta' phi') = conj R (elasticChristoffel C (vector theta phi)) := by
    rw [key, key, hv]
    exact christoffel_turn hR (fun a b c d => by rw [e, e, stiffness_turn hR h]) _
  have hMs : ∀ i j, elasticChristoffel C (vector theta phi) i j = elasticChristoffel C (vector theta phi) j i := by
    intro i j
    rw [elastic_eq C _ 1 one_ne_zero, one_smul]
    exact acoustic_symm hsym 1 _ i j
  have hw : (num.eigh (elasticChristoffel C' (vector theta' phi'))).1 = (num.eigh (elasticChristoffel C (vector theta phi))).1 := by
    refine spectrum_unique (eigh_spectrum hn fun i j => by rw [hconj]; exact conj_symm hMs i j) ?_
    rw [hconj]
    exact spectrum_turn hR (eigh_spectrum hn hMs)
  simp only [Soec.phaseVelocity, hw]

/-- A third of a turn about the diagonal: it takes each axis to the next. -/
def thirdTurn : Fin 3 → Fin 3 → ℝ := ![![0, 0, 1], ![1, 0, 0], ![0, 1, 0]]

theorem thirdTurn_orthogonal : Orthogonal thirdTurn := by
  intro i j
  fin_cases i <;> fin_cases j <;> simp [thirdTurn, Fin.sum_univ_three]

theorem threeSpeeds_symm (i j : Fin 6) : threeSpeeds i j = threeSpeeds j i := by
  have : threeSpeeds.transpose = threeSpeeds := Matrix.diagonal_transpose _
  exact congrFun (congrFun this j) i

theorem threeSpeeds_det : threeSpeeds.det ≠ 0 := by
  rw [threeSpeeds, Matrix.det_diagonal, Fin.prod_univ_six]
  simp

theorem read_unit (num : Numerics) (o : Seismic) (v : V3) (hv : norm v = 1) :
    (step num o (.read .q) (step num o (.cartesian v) {}).2).1 = .ok (.vec v) := by
  obtain ⟨theta, phi, hd⟩ : ∃ theta phi, (Op.cartesian v).dir = some ⟨v, theta, phi⟩ := by
    have hq1 : (fun i => v i / norm v) = v := by
      funext i
      rw [hv, div_one]
    simp only [Op.dir]
    rw [hq1]
    exact ⟨_, _, rfl⟩
  exact step_read (set_good (num := num) (o := o) hd {}) .q

/-- The three waves of `threeSpeeds` along the first axis have different velocities. -/
theorem threeSpeeds_distinct {num : Numerics} (hn : EighCorrect num) (hp : PinvCorrect num) {o : Seismic}
    (ho : seismic threeSpeeds 1000 = .ok o) :
    ∃ pv, (step num o (.read .phaseVelocity) (step num o (.cartesian ![1, 0, 0]) {}).2).1 = .ok (.vec pv) ∧
      ∀ i j, j ≠ i → pv j ≠ pv i := by
  have hsym := threeSpeeds_symm
  have hne : (![1, 0, 0] : V3) ≠ 0 := by
    intro h
    have := congrFun h 0
    simp at this
  obtain ⟨d, hd, -⟩ := dir_of_setting (setting := .cartesian ![1, 0, 0]) (Or.inr ⟨_, hne, rfl⟩)
  have g := set_good (num := num) (o := o) hd {}
  refine ⟨_, step_read g .phaseVelocity, ?_⟩
  obtain ⟨q, w', gr, H, hq1, hw', -, -, hs, -⟩ := C40_eigenvalues num hn hp threeSpeeds hsym 1000
    (by norm_num) o ho (.cartesian ![1, 0, 0]) (Or.inr ⟨_, hne, rfl⟩) {}
  rw [read_unit num o _ (by simp [norm, Fin.sum_univ_three])] at hq1
  cases hq1
  rw [step_read g] at hw'
  have hw : d.eigenval num o = w' := by simpa [Dir.value] using Except.ok.inj hw'
  have hs2 : Spectrum (waveMatrix threeSpeeds 1000 ![1, 0, 0]) ![1, 2, 3] := by
    refine ⟨by simp, by simp; norm_num, ![![0, 0, 1], ![0, 1, 0], ![1, 0, 0]], ?_, ?_⟩
    · intro i j
      fin_cases i <;> fin_cases j <;> simp [dot, Fin.sum_univ_three]
    · intro i j
      fin_cases i <;> fin_cases j <;>
        simp [waveMatrix, acoustic, threeSpeeds, cTensor, vm, Fin.sum_univ_three,
          Matrix.diagonal] <;> norm_num
  have hu := spectrum_unique hs hs2
  rw [hu] at hw
  have hsq : ∀ i, (d.phase num o i) ^ 2 = (![1, 2, 3] : V3) i := by
    intro i
    simp only [Dir.phase, phaseVelocity, hw]
    fin_cases i <;> simp [mul_pow, Real.sign_of_pos]
  intro i j hij hc
  have h1 := hsq i
  have h2 : (d.phase num o i) ^ 2 = (![1, 2, 3] : V3) j := by rw [← hsq j]; exact congrArg (· ^ 2) hc.symm
  rw [h1] at h2
  fin_cases i <;> fin_cases j <;> simp at h2 hij

/-- The hypotheses of `C117_waves` are met by the crystal `threeSpeeds`, a third of a turn about the diagonal, and the first
and second axis as directions; the three waves have different velocities. -/
example : ∃ num o o', EighCorrect num ∧ PinvCorrect num ∧ seismic threeSpeeds 1000 = .ok o ∧
    seismic (turnedStiffness thirdTurn threeSpeeds) 1000 = .ok o' ∧ Orthogonal thirdTurn ∧
    Turned thirdTurn threeSpeeds (turnedStiffness thirdTurn threeSpeeds) ∧ turnedStiffness thirdTurn threeSpeeds ≠ threeSpeeds ∧
    (step num o (.read .q) (step num o (.cartesian ![1, 0, 0]) {}).2).1 = .ok (.vec ![1, 0, 0]) ∧
    (step num o' (.read .q) (step num o' (.cartesian ![0, 1, 0]) {}).2).1 = .ok (.vec (turn thirdTurn ![1, 0, 0])) ∧
    ∃ pv, (step num o (.read .phaseVelocity) (step num o (.cartesian ![1, 0, 0]) {}).2).1 = .ok (.vec pv) ∧
      ∀ i j, j ≠ i → pv j ≠ pv i := by
  obtain ⟨num, hn, hp⟩ := exists_numerics
  have hT := turnedStiffness_turned thirdTurn_orthogonal threeSpeeds
  have hdet' := turned_det thirdTurn_orthogonal threeSpeeds_det hT
  obtain ⟨o, ho⟩ : ∃ o, seismic threeSpeeds 1000 = .ok o := by
    simp only [seismic]
    rw [if_neg threeSpeeds_det]
    exact ⟨_, rfl⟩
  obtain ⟨o', ho'⟩ : ∃ o, seismic (turnedStiffness thirdTurn threeSpeeds) 1000 = .ok o := by
    simp only [seismic]
    rw [if_neg hdet']
    exact ⟨_, rfl⟩
  have hturn : turn thirdTurn ![1, 0, 0] = ![0, 1, 0] := by
    funext i
    fin_cases i <;> simp [turn, thirdTurn, Fin.sum_univ_three]
  refine ⟨num, o, o', hn, hp, ho, ho', thirdTurn_orthogonal, hT, ?_, read_unit num o _ (by simp [norm, Fin.sum_univ_three]),
    by rw [hturn]; exact read_unit num o' _ (by simp [norm, Fin.sum_univ_three]), threeSpeeds_distinct hn hp ho⟩
  · intro h
    have := congrFun (congrFun h 3) 3
    simp [turnedStiffness, contract4, pair, thirdTurn, threeSpeeds, cTensor, vm, Fin.sum_univ_three, Matrix.diagonal] at this

end Verif.Seismic
