/-
Property C40: the Christoffel gradient, its Hessian, and the derivatives of the eigenvalues.
-/
import Mathlib.Analysis.Calculus.Deriv.Add
import Mathlib.Analysis.Calculus.Deriv.Mul
import Verif.Seismic.Group
import Verif.Seismic.Expansion

namespace Verif.Seismic
open Verif.Py Verif.Elastic Verif.Elastic.Spec Spec

/-- The Christoffel matrix in the units of the seismic module (km²/s²), from the stiffness in GPa
and the density in kg/m³. -/
noncomputable def Spec.waveMatrix (C : M6) (rho : ℝ) (q : V3) : M3 :=
  (1 / 10 ^ 6 : ℝ) • acoustic (fun i j k m => 10 ^ 9 * cTensor C i j k m) rho q

/-- What the documentation of `np.linalg.pinv(A, rcond=1e-10)` says for a symmetric matrix: the
eigenvectors are kept; eigenvalues at most `1e-10` times the largest one in modulus are replaced by
zero, the others by their reciprocals. -/
def Spec.PinvCorrect (num : Numerics) : Prop :=
  ∀ (A : M3) (a : V3) (e : Fin 3 → V3), Frame e → (∀ i, Eigen A (a i) (e i)) → ∀ i,
    ((∃ k, |a i| ≤ (1 / 10 ^ 10) * |a k|) → (num.pinv A).mulVec (e i) = 0) ∧
    ((∀ k, (1 / 10 ^ 10) * |a k| < |a i|) → (num.pinv A).mulVec (e i) = (1 / a i) • e i)

/-! ### A correct pseudo-inverse exists -/

theorem eigen_component {A : M3} {a : V3} {e : Fin 3 → V3} (hf : Frame e)
    (h : ∀ i, Eigen A (a i) (e i)) {b : ℝ} {x : V3} (hx : Eigen A b x) (j : Fin 3) :
    (a j - b) * dot (e j) x = 0 := by
  have h1 : dot (e j) (A.mulVec x) = a j * dot (e j) x := by
    rw [dot_mulVec_symm (eigen_symm hf h), eigen_mulVec (h j), dot_comm, dot_smul, dot_comm]
  rw [eigen_mulVec hx, dot_smul] at h1
  linarith

open Classical in
/-- The reciprocal with the cut-off. -/
noncomputable def cutInv (a : V3) (x : ℝ) : ℝ :=
  if ∃ k, |x| ≤ (1 / 10 ^ 10) * |a k| then 0 else 1 / x

/-- The eigenvalues do not depend on the frame. -/
theorem eigen_values_subset {A : M3} {a b : V3} {e f : Fin 3 → V3} (he : Frame e) (hf : Frame f)
    (ha : ∀ i, Eigen A (a i) (e i)) (hb : ∀ i, Eigen A (b i) (f i)) (k : Fin 3) :
    ∃ m, a m = b k := by
  have hk : dot (f k) (f k) = 1 := by have := hf k k; rwa [if_pos rfl] at this
  rw [← frame_parseval he] at hk
  obtain ⟨m, hm⟩ : ∃ m, dot (e m) (f k) ≠ 0 := by
    by_contra hz
    push Not at hz
    simp [hz] at hk
  refine ⟨m, ?_⟩
  have := eigen_component he ha (hb k) m
  rcases mul_eq_zero.1 this with h | h
  · linarith
  · exact absurd h hm

theorem cutInv_congr {A : M3} {a b : V3} {e f : Fin 3 → V3} (he : Frame e) (hf : Frame f)
    (ha : ∀ i, Eigen A (a i) (e i)) (hb : ∀ i, Eigen A (b i) (f i)) (x : ℝ) :
    cutInv a x = cutInv b x := by
  unfold cutInv
  have : (∃ k, |x| ≤ (1 / 10 ^ 10) * |a k|) ↔ ∃ k, |x| ≤ (1 / 10 ^ 10) * |b k| := by
    constructor
    · rintro ⟨k, hk⟩
      obtain ⟨m, hm⟩ := eigen_values_subset hf he hb ha k
      exact ⟨m, by rw [hm]; exact hk⟩
    · rintro ⟨k, hk⟩
      obtain ⟨m, hm⟩ := eigen_values_subset he hf ha hb k
      exact ⟨m, by rw [hm]; exact hk⟩
  simp only [this]

open Classical in
/-- A correct pseudo-inverse. -/
noncomputable def pinvWitness (A : M3) : M3 :=
  if h : ∃ (a : V3) (e : Fin 3 → V3), Frame e ∧ ∀ i, Eigen A (a i) (e i) then
    Matrix.of fun p q => ∑ j, cutInv h.choose (h.choose j) * h.choose_spec.choose j p *
      h.choose_spec.choose j q
  else 0

theorem exists_numerics : ∃ num : Numerics, EighCorrect num ∧ PinvCorrect num := by
  obtain ⟨num, hpinv, hn⟩ := exists_eighCorrect pinvWitness
  refine ⟨num, hn, ?_⟩
  intro A a e he ha i
  have hex : ∃ (a : V3) (e : Fin 3 → V3), Frame e ∧ ∀ i, Eigen A (a i) (e i) := ⟨a, e, he, ha⟩
  have key : (pinvWitness A).mulVec (e i) = cutInv a (a i) • e i := by
    unfold pinvWitness
    rw [dif_pos hex]
    obtain ⟨hf, hbf⟩ := hex.choose_spec.choose_spec
    set b := hex.choose
    set f := hex.choose_spec.choose
    rw [cutInv_congr he hf ha hbf]
    funext p
    have h1 : (Matrix.of fun p q => ∑ j, cutInv b (b j) * f j p * f j q).mulVec (e i) p =
        ∑ j, cutInv b (b j) * dot (f j) (e i) * f j p := by
      simp only [Matrix.mulVec, dotProduct, Matrix.of_apply, dot, Fin.sum_univ_three]
      ring
    rw [h1]
    have h2 : ∀ j, cutInv b (b j) * dot (f j) (e i) * f j p =
        cutInv b (a i) * (dot (f j) (e i) * f j p) := by
      intro j
      rcases mul_eq_zero.1 (eigen_component hf hbf (ha i) j) with h | h
      · rw [show b j = a i by linarith]; ring
      · rw [h]; ring
    simp only [h2, ← Finset.mul_sum, Pi.smul_apply, smul_eq_mul]
    congr 1
    have := congrFun (frame_expand hf (e i)) p
    simp only [Finset.sum_apply, Pi.smul_apply, smul_eq_mul] at this
    exact this.symm
  rw [hpinv]
  constructor
  · intro h
    rw [key, cutInv, if_pos h, zero_smul]
  · intro h
    rw [key, cutInv, if_neg (by push Not; exact h)]

/-! ### Exact Taylor expansion of the matrix -/

/-- The first-order matrix along `h`. -/
noncomputable def firstOrder (c : T4) (q h : V3) : M3 := ∑ b, h b • gradChristoffel c q b

/-- The second-order matrix along `h`. -/
noncomputable def secondOrder (hess : T4) (h : V3) : M3 :=
  Matrix.of fun k l => (1 / 2) * ∑ i, ∑ j, h i * h j * hess i j k l

theorem christoffel_line (c : T4) (q h : V3) (t : ℝ) :
    christoffel c (q + t • h) =
      christoffel c q + t • firstOrder c q h + t ^ 2 • secondOrder (hessianChristoffel c) h := by
  ext k l
  simp only [christoffel, firstOrder, secondOrder, gradChristoffel, hessianChristoffel,
    Matrix.add_apply, Matrix.smul_apply, Matrix.of_apply, Matrix.sum_apply, Pi.add_apply,
    Pi.smul_apply, smul_eq_mul, Fin.sum_univ_three]
  ring

theorem christoffel_wave {C : M6} {rho : ℝ} {o : Seismic} (ho : seismic C rho = .ok o)
    (hr : rho ≠ 0) (q : V3) : christoffel o.Cmat q = waveMatrix C rho q := christoffel_eq ho hr q

theorem update_line (q : V3) (b : Fin 3) (s : ℝ) :
    Function.update q b s = q + (s - q b) • (Pi.single b 1 : V3) := by
  funext i
  by_cases h : i = b
  · subst h; simp
  · simp [h]

theorem grad_hasDeriv (c : T4) (q : V3) (b k l : Fin 3) :
    HasDerivAt (fun s => christoffel c (Function.update q b s) k l)
      (gradChristoffel c q b k l) (q b) := by
  have e : (fun s => christoffel c (Function.update q b s) k l) =
      fun s => christoffel c q k l + (s - q b) * firstOrder c q (Pi.single b 1) k l +
        (s - q b) ^ 2 * secondOrder (hessianChristoffel c) (Pi.single b 1) k l := by
    funext s
    rw [update_line, christoffel_line]
    simp only [Matrix.add_apply, Matrix.smul_apply, smul_eq_mul]
  rw [e]
  have hs : HasDerivAt (fun s : ℝ => s - q b) 1 (q b) := (hasDerivAt_id _).sub_const _
  have h := ((hs.mul_const (firstOrder c q (Pi.single b 1) k l)).const_add
    (christoffel c q k l)).add ((hs.pow 2).mul_const
      (secondOrder (hessianChristoffel c) (Pi.single b 1) k l))
  refine h.congr_deriv ?_
  have : firstOrder c q (Pi.single b 1) k l = gradChristoffel c q b k l := by
    simp only [firstOrder, Matrix.sum_apply, Matrix.smul_apply, smul_eq_mul, Pi.single_apply,
      ite_mul, one_mul, zero_mul, Finset.sum_ite_eq', Finset.mem_univ, if_true]
  rw [this]
  simp

theorem hess_hasDeriv (c : T4) (q : V3) (i j k l : Fin 3) :
    HasDerivAt (fun s => gradChristoffel c (Function.update q j s) i k l)
      (hessianChristoffel c i j k l) (q j) := by
  have e : (fun s => gradChristoffel c (Function.update q j s) i k l) =
      fun s => gradChristoffel c q i k l + (s - q j) * hessianChristoffel c i j k l := by
    funext s
    rw [update_line]
    simp only [gradChristoffel, hessianChristoffel, Matrix.of_apply, Pi.add_apply, Pi.smul_apply,
      smul_eq_mul, Fin.sum_univ_three]
    fin_cases j <;> simp <;> ring
  rw [e]
  have hs : HasDerivAt (fun s : ℝ => s - q j) 1 (q j) := (hasDerivAt_id _).sub_const _
  refine ((hs.mul_const (hessianChristoffel c i j k l)).const_add
    (gradChristoffel c q i k l)).congr_deriv ?_
  ring

/-- C40, matrices: whatever direction is set, the gradient that is read consists of the partial
derivatives of the Christoffel matrix with respect to the components of the direction, and the
Hessian tensor of the object holds the second partial derivatives. -/
theorem C40_matrix (num : Numerics) (C : M6) (density : ℝ) (hr : density ≠ 0) (o : Seismic)
    (ho : seismic C density = .ok o) (setting : Op)
    (hset : (∃ theta phi, setting = .spherical theta phi) ∨ ∃ v, v ≠ 0 ∧ setting = .cartesian v)
    (st : State) :
    ∃ (q : V3) (g : T3),
      (step num o (.read .q) (step num o setting st).2).1 = .ok (.vec q) ∧
      (step num o (.read .christoffel) (step num o setting st).2).1 =
        .ok (.mat (waveMatrix C density q)) ∧
      (step num o (.read .gradM) (step num o setting st).2).1 = .ok (.ten g) ∧
      (∀ b k l, HasDerivAt (fun s => waveMatrix C density (Function.update q b s) k l)
        (g b k l) (q b)) ∧
      ∀ i j k l, HasDerivAt
        (fun t => deriv (fun s => waveMatrix C density
          (Function.update (Function.update q j t) i s) k l) (Function.update q j t i))
        (o.hessM i j k l) (q j) := by
  obtain ⟨d, hd, -⟩ := dir_of_setting hset
  have g := set_good (num := num) (o := o) hd st
  refine ⟨d.q, d.gradM o, step_read g _, ?_, step_read g _, ?_, ?_⟩
  · rw [← christoffel_wave ho hr]
    exact step_read g .christoffel
  · intro b k l
    simp only [← christoffel_wave ho hr]
    exact grad_hasDeriv _ _ _ _ _
  · intro i j k l
    simp only [← christoffel_wave ho hr]
    have e : ∀ t, deriv (fun s => christoffel o.Cmat
        (Function.update (Function.update d.q j t) i s) k l) (Function.update d.q j t i) =
        gradChristoffel o.Cmat (Function.update d.q j t) i k l :=
      fun t => (grad_hasDeriv o.Cmat (Function.update d.q j t) i k l).deriv
    simp only [e]
    have hh : o.hessM = hessianChristoffel o.Cmat := by
      obtain ⟨-, ho'⟩ := seismic_ok ho
      rw [ho']
    rw [hh]
    exact hess_hasDeriv _ _ _ _ _ _

/-! ### Eigenvalues -/

theorem grad_symm {C : M6} (hC : ∀ i j, C i j = C j i) {rho : ℝ} {o : Seismic}
    (ho : seismic C rho = .ok o) (q : V3) (b k l : Fin 3) :
    gradChristoffel o.Cmat q b k l = gradChristoffel o.Cmat q b l k := by
  have e : (fun s => christoffel o.Cmat (Function.update q b s) k l) =
      fun s => christoffel o.Cmat (Function.update q b s) l k :=
    funext fun s => christoffel_symm hC ho _ _ _
  have h1 := grad_hasDeriv o.Cmat q b k l
  rw [e] at h1
  exact h1.unique (grad_hasDeriv o.Cmat q b l k)

theorem mulVec_frame {A : M3} {e : Fin 3 → V3} (hf : Frame e) {s : V3}
    (h : ∀ i, A.mulVec (e i) = s i • e i) (y : V3) :
    A.mulVec y = ∑ j, (s j * dot (e j) y) • e j := by
  conv_lhs => rw [frame_expand hf y]
  rw [Matrix.mulVec_sum]
  refine Finset.sum_congr rfl fun j _ => ?_
  rw [Matrix.mulVec_smul, h j, smul_smul, mul_comm]

/-- The pseudo-inverse of `w_n - M` is the reduced resolvent. -/
theorem pinv_reduced {num : Numerics} (hp : PinvCorrect num) {M : M3} {w : V3} {e : Fin 3 → V3}
    (hf : Frame e) (h : ∀ i, Eigen M (w i) (e i)) {n : Fin 3}
    (hgap : ∀ j k, j ≠ n → |w n - w k| < 10 ^ 10 * |w n - w j|) (y : V3) :
    (num.pinv (w n • (1 : M3) - M)).mulVec y = reduced w e n y := by
  have hA : ∀ j, Eigen (w n • (1 : M3) - M) (w n - w j) (e j) := by
    intro j i
    have := h j i
    have h1 : ∑ x, (w n • (1 : M3) - M) i x * e j x = w n * e j i - ∑ x, M i x * e j x := by
      simp only [Matrix.sub_apply, Matrix.smul_apply, smul_eq_mul, sub_mul, Finset.sum_sub_distrib,
        Matrix.one_apply, mul_ite, mul_one, mul_zero, ite_mul, zero_mul, Finset.sum_ite_eq,
        Finset.mem_univ, if_true]
    rw [h1, this]
    ring
  have hp' := hp _ (fun j => w n - w j) e hf hA
  have hs : ∀ j, (num.pinv (w n • (1 : M3) - M)).mulVec (e j) =
      (if j = n then 0 else 1 / (w n - w j)) • e j := by
    intro j
    by_cases hj : j = n
    · subst hj
      rw [if_pos rfl, zero_smul]
      exact (hp' j).1 ⟨j, by simp⟩
    · rw [if_neg hj]
      refine (hp' j).2 fun k => ?_
      have := hgap j k hj
      linarith
  rw [mulVec_frame hf hs]
  unfold reduced
  refine Finset.sum_congr rfl fun j _ => ?_
  by_cases hj : j = n
  · simp [hj]
  · rw [if_neg hj, if_neg hj]
    congr 1
    ring

theorem quad_transpose (A P : M3) (h : V3) :
    dot (A.transpose.mulVec h) (P.mulVec (A.transpose.mulVec h)) =
      ∑ a, ∑ b, h a * (A * P * A.transpose) a b * h b := by
  simp only [dot, Matrix.mulVec, dotProduct, Matrix.mul_apply, Matrix.transpose_apply,
    Fin.sum_univ_three]
  ring

/-- What the object reports as derivatives of an eigenvalue is the second-order prediction. -/
theorem reported_predicted {num : Numerics} (hp : PinvCorrect num) {C : M6}
    (hC : ∀ i j, C i j = C j i) {rho : ℝ} {o : Seismic} (ho : seismic C rho = .ok o)
    (q h : V3) {w : V3} {e : M3} (hf : Frame e)
    (he : ∀ i, Eigen (christoffel o.Cmat q) (w i) (e i))
    (hgap : ∀ n j k, j ≠ n → |w n - w k| < 10 ^ 10 * |w n - w j|) (pvel : V3) (i : Fin 3) (t : ℝ) :
    predicted (firstOrder o.Cmat q h) (secondOrder o.hessM h) w e i t =
      w i + t * ∑ a, (groupOf q pvel e (gradChristoffel o.Cmat q)).gradEig i a * h a +
        t ^ 2 / 2 * ∑ a, ∑ b, h a * hessianEigenval num o.hessM (christoffel o.Cmat q) w e
          (gradChristoffel o.Cmat q) i a b * h b := by
  have hsym := grad_symm hC ho q
  set g := gradChristoffel o.Cmat q with hg
  have h1 : dot (e i) ((firstOrder o.Cmat q h).mulVec (e i)) =
      ∑ a, (groupOf q pvel e g).gradEig i a * h a := by
    simp only [firstOrder, groupOf, ← hg, dot, Matrix.mulVec, dotProduct, Matrix.of_apply,
      Matrix.sum_apply, Matrix.smul_apply, smul_eq_mul, Fin.sum_univ_three]
    ring
  set y := (firstOrder o.Cmat q h).mulVec (e i) with hy
  have hM1 : ∀ a b, firstOrder o.Cmat q h a b = firstOrder o.Cmat q h b a := by
    intro a b
    simp only [firstOrder, Matrix.sum_apply, Matrix.smul_apply, ← hg, hsym _ a b]
  have h2 : dot (e i) ((firstOrder o.Cmat q h).mulVec (reduced w e i y)) =
      dot y (reduced w e i y) := dot_mulVec_symm hM1 _ _
  have h3 : dot y (reduced w e i y) =
      dot y ((num.pinv (w i • (1 : M3) - christoffel o.Cmat q)).mulVec y) := by
    rw [pinv_reduced hp hf he (hgap i)]
  set P := num.pinv (w i • (1 : M3) - christoffel o.Cmat q) with hP
  set dv : M3 := Matrix.of fun b a => ∑ d, g b a d * e i d with hdv
  have hyd : y = dv.transpose.mulVec h := by
    funext a
    have hF : ∀ c, firstOrder o.Cmat q h a c = h 0 * g 0 a c + h 1 * g 1 a c + h 2 * g 2 a c := by
      intro c
      simp only [firstOrder, Fin.sum_univ_three, Matrix.add_apply, Matrix.smul_apply, smul_eq_mul,
        ← hg]
    simp only [hy, hdv, Matrix.mulVec, dotProduct, Matrix.of_apply, Matrix.transpose_apply, hF,
      Fin.sum_univ_three]
    ring
  have h4 : dot y (P.mulVec y) = ∑ a, ∑ b, h a * (dv * P * dv.transpose) a b * h b := by
    rw [hyd]
    exact quad_transpose dv P h
  have h5 : dot (e i) ((secondOrder o.hessM h).mulVec (e i)) = 1 / 2 *
      ∑ a, ∑ b, h a * (∑ k, (∑ l, o.hessM a b k l * e i l) * e i k) * h b := by
    simp only [secondOrder, dot, Matrix.mulVec, dotProduct, Matrix.of_apply, Fin.sum_univ_three]
    ring
  have h6 : ∑ a, ∑ b, h a * hessianEigenval num o.hessM (christoffel o.Cmat q) w e g i a b * h b =
      ∑ a, ∑ b, h a * (∑ k, (∑ l, o.hessM a b k l * e i l) * e i k) * h b +
        2 * ∑ a, ∑ b, h a * (dv * P * dv.transpose) a b * h b := by
    have : ∀ a b, hessianEigenval num o.hessM (christoffel o.Cmat q) w e g i a b =
        (∑ k, (∑ l, o.hessM a b k l * e i l) * e i k) + 2 * (dv * P * dv.transpose) a b :=
      fun a b => rfl
    simp only [this, mul_add, add_mul, Finset.sum_add_distrib, Finset.mul_sum]
    congr 1
    refine Finset.sum_congr rfl fun a _ => Finset.sum_congr rfl fun b _ => ?_
    ring
  unfold predicted
  rw [← hy, h1, h2, h3, h4, h5, h6]
  ring

/-- C40, eigenvalues: the eigenvalue gradient and the eigenvalue Hessian that are read are the first
and second derivatives of the eigenvalues of the Christoffel matrix with respect to the direction:
along every straight line `q + t·h`, the eigenvalues (in ascending order) agree with the quadratic
built from the reported values up to a term of third order in `t`.  The eigenvalues at `q` must be
distinct, with differences above the relative cut-off `1e-10` used by the code (differences below it
are treated as zero). -/
theorem C40_eigenvalues (num : Numerics) (hn : EighCorrect num) (hp : PinvCorrect num) (C : M6)
    (hC : ∀ i j, C i j = C j i) (density : ℝ) (hr : density ≠ 0) (o : Seismic)
    (ho : seismic C density = .ok o) (setting : Op)
    (hset : (∃ theta phi, setting = .spherical theta phi) ∨ ∃ v, v ≠ 0 ∧ setting = .cartesian v)
    (st : State) :
    ∃ (q w : V3) (g : M3) (H : T3),
      (step num o (.read .q) (step num o setting st).2).1 = .ok (.vec q) ∧
      (step num o (.read .eigenval) (step num o setting st).2).1 = .ok (.vec w) ∧
      (step num o (.read .gradEigenval) (step num o setting st).2).1 = .ok (.mat g) ∧
      (step num o (.read .hessianEigenval) (step num o setting st).2).1 = .ok (.ten H) ∧
      Spectrum (waveMatrix C density q) w ∧
      ((∀ n j k, j ≠ n → |w n - w k| < 10 ^ 10 * |w n - w j|) →
        ∀ h : V3, ∃ K δ : ℝ, 0 < δ ∧ ∀ t, |t| ≤ δ → ∀ w' : V3,
          Spectrum (waveMatrix C density (q + t • h)) w' → ∀ i,
            |w' i - (w i + t * ∑ a, g i a * h a + t ^ 2 / 2 * ∑ a, ∑ b, h a * H i a b * h b)|
              ≤ K * |t| ^ 3) := by
  obtain ⟨d, hd, -⟩ := dir_of_setting hset
  have g := set_good (num := num) (o := o) hd st
  obtain ⟨w01, w12, hf, he⟩ := sortedEigh_spec hn (fun a b => christoffel_symm hC ho d.q a b)
  refine ⟨d.q, d.eigenval num o, (d.group num o).gradEig, d.hessian num o, step_read g _,
    step_read g _, step_read g _, step_read g _, ?_, ?_⟩
  · rw [← christoffel_wave ho hr]
    exact ⟨w01, w12, _, hf, he⟩
  · intro hgap h
    have hne : ∀ n j, j ≠ n → d.eigenval num o n ≠ d.eigenval num o j := by
      intro n j hj h'
      have := hgap n j j hj
      rw [h'] at this
      simp at this
    obtain ⟨K, δ, hδ, hK⟩ := eigen_expansion (M1 := firstOrder o.Cmat d.q h)
      (M2 := secondOrder o.hessM h) hf he (lt_of_le_of_ne w01 (hne 0 1 (by decide)))
      (lt_of_le_of_ne w12 (hne 1 2 (by decide)))
    refine ⟨K, δ, hδ, fun t ht w' hw' i => ?_⟩
    have hh : o.hessM = hessianChristoffel o.Cmat := by
      obtain ⟨-, ho'⟩ := seismic_ok ho
      rw [ho']
    rw [← christoffel_wave ho hr, christoffel_line, ← hh] at hw'
    have := hK t ht w' hw' i
    rw [reported_predicted hp hC ho d.q h hf he hgap (d.phase num o)] at this
    exact this

/-- A medium with three distinct velocities along `x`: `c11 = 3`, `c66 = 2`, `c55 = 1`. -/
def threeSpeeds : M6 := Matrix.diagonal ![3, 3, 3, 1, 1, 2]

example : ∃ num o, EighCorrect num ∧ PinvCorrect num ∧ seismic threeSpeeds 1000 = .ok o ∧
    (∀ i j, threeSpeeds i j = threeSpeeds j i) ∧
    ∀ w, (step num o (.read .eigenval) (step num o (.cartesian ![1, 0, 0]) {}).2).1 = .ok (.vec w) →
      ∀ n j k, j ≠ n → |w n - w k| < 10 ^ 10 * |w n - w j| := by
  obtain ⟨num, hn, hp⟩ := exists_numerics
  have hsym : ∀ i j, threeSpeeds i j = threeSpeeds j i := by
    intro i j
    have : threeSpeeds.transpose = threeSpeeds := Matrix.diagonal_transpose _
    exact congrFun (congrFun this j) i
  have hdet : threeSpeeds.det ≠ 0 := by
    rw [threeSpeeds, Matrix.det_diagonal, Fin.prod_univ_six]
    simp
  obtain ⟨o, ho⟩ : ∃ o, seismic threeSpeeds 1000 = .ok o := by
    simp only [seismic]
    rw [if_neg hdet]
    exact ⟨_, rfl⟩
  refine ⟨num, o, hn, hp, ho, hsym, fun w hw => ?_⟩
  obtain ⟨q, w', g, H, hq, hw', -, -, hs, -⟩ := C40_eigenvalues num hn hp threeSpeeds hsym 1000
    (by norm_num) o ho (.cartesian ![1, 0, 0]) (Or.inr ⟨_, by
      intro h
      have := congrFun h 0
      simp at this, rfl⟩) {}
  rw [hw] at hw'
  cases hw'
  obtain ⟨theta, phi, hd⟩ : ∃ theta phi, (Op.cartesian ![1, 0, 0]).dir =
      some ⟨![1, 0, 0], theta, phi⟩ := by
    have hnorm : norm ![1, 0, 0] = 1 := by
      simp [norm, Fin.sum_univ_three]
    have hq1 : (fun i => (![1, 0, 0] : V3) i / norm ![1, 0, 0]) = ![1, 0, 0] := by
      funext i
      rw [hnorm, div_one]
    simp only [Op.dir]
    rw [hq1]
    exact ⟨_, _, rfl⟩
  have hq' : (step num o (.read .q) (step num o (.cartesian ![1, 0, 0]) {}).2).1 =
      .ok (.vec ![1, 0, 0]) := step_read (set_good (num := num) (o := o) hd {}) .q
  rw [hq'] at hq
  cases hq
  have hs2 : Spectrum (waveMatrix threeSpeeds 1000 ![1, 0, 0]) ![1, 2, 3] := by
    refine ⟨by simp, by simp; norm_num, ![![0, 0, 1], ![0, 1, 0], ![1, 0, 0]], ?_, ?_⟩
    · intro i j
      fin_cases i <;> fin_cases j <;> simp [dot, Fin.sum_univ_three]
    · intro i j
      fin_cases i <;> fin_cases j <;>
        simp [waveMatrix, acoustic, threeSpeeds, cTensor, vm, Fin.sum_univ_three,
          Matrix.diagonal] <;> norm_num
  have hu := spectrum_unique hs hs2
  subst hu
  intro n j k
  fin_cases n <;> fin_cases j <;> fin_cases k <;> simp <;> norm_num

end Verif.Seismic
