/-
Properties C72 (inversion symmetry), C73 (ratios of velocities) and C74 (rays in isotropic media).
-/
import Verif.Seismic.Derivative

namespace Verif.Seismic
open Verif.Py Verif.Elastic Verif.Elastic.Spec Spec

/-! ### Inversion symmetry -/

theorem christoffel_neg (c : T4) (q : V3) : christoffel c (-q) = christoffel c q := by
  ext a d
  simp only [christoffel, Matrix.of_apply, Pi.neg_apply, Fin.sum_univ_three]
  ring

theorem grad_neg (c : T4) (q : V3) (b : Fin 3) :
    gradChristoffel c (-q) b = -gradChristoffel c q b := by
  ext a d
  simp only [gradChristoffel, Matrix.of_apply, Matrix.neg_apply, Pi.neg_apply, Fin.sum_univ_three]
  ring

theorem norm_neg (v : V3) : norm (-v) = norm v := by
  simp only [norm, Pi.neg_apply, neg_sq]

theorem group_neg (num : Numerics) (o : Seismic) (q : V3) (t p t' p' : ℝ) :
    ((⟨-q, t', p'⟩ : Dir).group num o).velocity = -((⟨q, t, p⟩ : Dir).group num o).velocity ∧
    ((⟨-q, t', p'⟩ : Dir).group num o).abs = ((⟨q, t, p⟩ : Dir).group num o).abs ∧
    ((⟨-q, t', p'⟩ : Dir).group num o).powerflow = ((⟨q, t, p⟩ : Dir).group num o).powerflow := by
  have hv : ((⟨-q, t', p'⟩ : Dir).group num o).velocity =
      -((⟨q, t, p⟩ : Dir).group num o).velocity := by
    ext i j
    simp only [Dir.group, groupOf, Dir.phase, Dir.eigenval, Dir.eigenvec, Dir.M, Dir.gradM,
      christoffel_neg, grad_neg, Matrix.of_apply, Matrix.neg_apply, Matrix.neg_mulVec,
      dotProduct_neg, neg_div]
  have ha : ((⟨-q, t', p'⟩ : Dir).group num o).abs = ((⟨q, t, p⟩ : Dir).group num o).abs := by
    funext i
    show norm (((⟨-q, t', p'⟩ : Dir).group num o).velocity i) =
      norm (((⟨q, t, p⟩ : Dir).group num o).velocity i)
    rw [hv]
    exact norm_neg _
  refine ⟨hv, ha, ?_⟩
  funext i
  have hd : ∀ j, ((⟨-q, t', p'⟩ : Dir).group num o).dir i j =
      -((⟨q, t, p⟩ : Dir).group num o).dir i j := by
    intro j
    show ((⟨-q, t', p'⟩ : Dir).group num o).velocity i j /
      ((⟨-q, t', p'⟩ : Dir).group num o).abs i = -(((⟨q, t, p⟩ : Dir).group num o).velocity i j /
      ((⟨q, t, p⟩ : Dir).group num o).abs i)
    rw [hv, ha, Matrix.neg_apply, neg_div]
  show Real.arccos (around10 (dotProduct (((⟨-q, t', p'⟩ : Dir).group num o).dir i) (-q))) =
    Real.arccos (around10 (dotProduct (((⟨q, t, p⟩ : Dir).group num o).dir i) q))
  congr 2
  simp only [dotProduct, hd, Pi.neg_apply, neg_mul_neg]

theorem hessian_neg (num : Numerics) (o : Seismic) (q : V3) (t p t' p' : ℝ) :
    (⟨-q, t', p'⟩ : Dir).hessian num o = (⟨q, t, p⟩ : Dir).hessian num o := by
  funext n
  ext a b
  simp only [Dir.hessian, hessianEigenval, Dir.M, Dir.gradM, Dir.eigenval, Dir.eigenvec,
    christoffel_neg, grad_neg]
  have e : ∀ (g : T3) (v : V3), (Matrix.of fun b a => ∑ d, (-g b) a d * v d : M3) =
      -(Matrix.of fun b a => ∑ d, g b a d * v d) := by
    intro g v
    ext b a
    simp only [Matrix.of_apply, Matrix.neg_apply, neg_mul, Finset.sum_neg_distrib]
  rw [e, Matrix.transpose_neg, Matrix.neg_mul, Matrix.neg_mul, Matrix.mul_neg, neg_neg]

theorem enhancement_neg (num : Numerics) (o : Seismic) (q : V3) (t p t' p' : ℝ) :
    (⟨-q, t', p'⟩ : Dir).enhancement num o = (⟨q, t, p⟩ : Dir).enhancement num o := by
  obtain ⟨hv, ha, -⟩ := group_neg num o q t p t' p'
  have hh := hessian_neg num o q t p t' p'
  have hp : (⟨-q, t', p'⟩ : Dir).phase num o = (⟨q, t, p⟩ : Dir).phase num o := by
    simp only [Dir.phase, Dir.eigenval, Dir.M, christoffel_neg]
  funext i
  simp only [Dir.enhancement, hv, ha, hh, hp, enhancementOf]
  rw [Matrix.mulVec_neg, norm_neg]
  congr 4
  ext a b
  have e : (-((⟨q, t, p⟩ : Dir).group num o).velocity) i =
      -(((⟨q, t, p⟩ : Dir).group num o).velocity i) := rfl
  simp only [Matrix.of_apply, e, Matrix.mulVec_neg, Pi.neg_apply, neg_mul_neg]

/-- C72: opposite directions have the same velocities, polarisations, power-flow angles and
enhancement factors, and opposite group velocities.  (This is why a figure may show the value of a
node at both ends of its axis, as `make_3D_plot` does.)  Nothing is assumed about the stiffness
matrix or the numerical routines. -/
theorem C72_inversion (num : Numerics) (o : Seismic) (v : V3) (st st' : State) :
    (∀ p, p = .eigenval ∨ p = .eigenvec ∨ p = .phaseVelocity ∨ p = .relPhaseVelocity ∨
        p = .hessianEigenval ∨ p = .groupAbs ∨ p = .relGroupVelocity ∨ p = .powerflow ∨
        p = .enhancement →
      (step num o (.read p) (step num o (.cartesian (-v)) st).2).1 =
        (step num o (.read p) (step num o (.cartesian v) st').2).1) ∧
    ∃ gv : M3,
      (step num o (.read .groupVelocity) (step num o (.cartesian v) st').2).1 = .ok (.mat gv) ∧
      (step num o (.read .groupVelocity) (step num o (.cartesian (-v)) st).2).1 =
        .ok (.mat (-gv)) := by
  obtain ⟨q, t, p, t', p', h, h'⟩ : ∃ q t p t' p', (Op.cartesian v).dir = some ⟨q, t, p⟩ ∧
      (Op.cartesian (-v)).dir = some ⟨-q, t', p'⟩ := by
    have : (fun i => (-v) i / norm (-v)) = -fun i => v i / norm v := by
      funext i
      rw [norm_neg]
      simp only [Pi.neg_apply, neg_div]
    simp only [Op.dir, this]
    exact ⟨_, _, _, _, _, rfl, rfl⟩
  have g := set_good (num := num) (o := o) h st'
  have g' := set_good (num := num) (o := o) h' st
  obtain ⟨hv, ha, hpf⟩ := group_neg num o q t p t' p'
  have hw : (⟨-q, t', p'⟩ : Dir).eigenval num o = (⟨q, t, p⟩ : Dir).eigenval num o := by
    simp only [Dir.eigenval, Dir.M, christoffel_neg]
  constructor
  · rintro x (rfl | rfl | rfl | rfl | rfl | rfl | rfl | rfl | rfl) <;>
      rw [step_read g, step_read g'] <;> simp only [Dir.value]
    · rw [hw]
    · simp only [Dir.eigenvec, Dir.M, christoffel_neg]
    · simp only [Dir.phase, hw]
    · simp only [Dir.phase, hw]
    · rw [hessian_neg num o q t p t' p']
    · rw [ha]
    · rw [ha]
    · rw [hpf]
    · rw [enhancement_neg num o q t p t' p']
  · refine ⟨_, step_read g .groupVelocity, ?_⟩
    rw [step_read g' .groupVelocity]
    simp only [Dir.value, hv]

example (num : Numerics) (o : Seismic) :
    (step num o (.read .phaseVelocity) (step num o (.cartesian (-![1, 2, 2])) {}).2).1 =
      (step num o (.read .phaseVelocity) (step num o (.cartesian ![1, 2, 2]) {}).2).1 :=
  (C72_inversion num o ![1, 2, 2] {} {}).1 _ (by simp)

/-- C72 for the three-dimensional figures: the value of the node with angles `u`, `v` is drawn at the
end of the direction with these angles and at the opposite point, and both points have the same
velocities, power-flow angles and enhancement factors. -/
theorem C72_sphere (num : Numerics) (o : Seismic) (u v : ℝ) (st st' : State) :
    (spherePoints u v).1 = seismicVector u v ∧
    (∀ i, (spherePoints u v).2 i = -(spherePoints u v).1 i) ∧
    ∀ p, p = .phaseVelocity ∨ p = .relPhaseVelocity ∨ p = .groupAbs ∨ p = .relGroupVelocity ∨
        p = .powerflow ∨ p = .enhancement →
      (step num o (.read p) (step num o (.cartesian (spherePoints u v).2) st).2).1 =
        (step num o (.read p) (step num o (.cartesian (spherePoints u v).1) st').2).1 := by
  refine ⟨?_, fun i => rfl, fun p hp => ?_⟩
  · rfl
  · have e : (spherePoints u v).2 = -(spherePoints u v).1 := rfl
    rw [e]
    exact (C72_inversion num o _ st st').1 p (by tauto)

/-! ### Ratios -/

/-- C73: for a stable medium the S-wave anisotropy drawn by the plotter lies between 0 (included)
and 200 %, and both velocity ratios are at least 1. -/
theorem C73_ratios (num : Numerics) (hn : EighCorrect num) (C : M6) (hC : C.PosDef) (density : ℝ)
    (hr : 0 < density) (o : Seismic) (ho : seismic C density = .ok o) (theta phi : ℝ) (st : State) :
    ∃ pv : V3,
      (step num o (.read .phaseVelocity) (step num o (.spherical theta phi) st).2).1 =
        .ok (.vec pv) ∧
      (∀ i, 0 < pv i) ∧
      0 ≤ (ratios (pv 2) (pv 1) (pv 0)).1 ∧ (ratios (pv 2) (pv 1) (pv 0)).1 < 200 ∧
      1 ≤ (ratios (pv 2) (pv 1) (pv 0)).2.1 ∧
      (ratios (pv 2) (pv 1) (pv 0)).2.1 ≤ (ratios (pv 2) (pv 1) (pv 0)).2.2 := by
  have hd := posDef_det hC
  obtain ⟨s, hs⟩ : ∃ s, soec C density = .ok s := ⟨_, if_neg hd⟩
  obtain ⟨hpv, hpos, hread⟩ := C37_velocities num hn C hC density hr s hs o ho theta phi
  set V := Soec.phaseVelocity num s theta phi with hV
  obtain ⟨hnn, h01, h12, -⟩ := hpv
  have o1 : V 0 ≤ V 1 := by
    have := sq_le_sq.1 h01
    rw [abs_of_nonneg (mul_nonneg (by norm_num) (hnn 0)),
      abs_of_nonneg (mul_nonneg (by norm_num) (hnn 1))] at this
    linarith
  have o2 : V 1 ≤ V 2 := by
    have := sq_le_sq.1 h12
    rw [abs_of_nonneg (mul_nonneg (by norm_num) (hnn 1)),
      abs_of_nonneg (mul_nonneg (by norm_num) (hnn 2))] at this
    linarith
  refine ⟨V, hread st, hpos, ?_, ?_, ?_, ?_⟩
  · simp only [ratios, anisotropyPercent]
    have := hpos 0
    have := hpos 1
    exact div_nonneg (by linarith) (by linarith)
  · simp only [ratios, anisotropyPercent]
    have := hpos 0
    have := hpos 1
    rw [div_lt_iff₀ (by linarith)]
    linarith
  · simp only [ratios]
    exact (one_le_div (hpos 1)).2 o2
  · simp only [ratios]
    exact div_le_div_of_nonneg_left (hpos 2).le (hpos 0) o1

/-! ### Isotropic media -/

theorem matrix_of_frame {A : M3} {e : Fin 3 → V3} (hf : Frame e) {s : V3}
    (h : ∀ i, A.mulVec (e i) = s i • e i) (a b : Fin 3) :
    A a b = ∑ j, s j * e j a * e j b := by
  have h1 := congrFun (mulVec_frame hf h (Pi.single b 1)) a
  simp only [Matrix.mulVec_single_one, Matrix.col_apply, Finset.sum_apply, Pi.smul_apply,
    smul_eq_mul] at h1
  rw [h1]
  refine Finset.sum_congr rfl fun j _ => ?_
  have : dot (e j) (Pi.single b 1) = e j b := by
    simp [dot, Pi.single_apply]
  rw [this]
  ring

theorem iso_grad (K G c : ℝ) (q : V3) (b k l : Fin 3) :
    gradChristoffel (fun i j k m => cTensor (isotropic K G) i j k m * c) q b k l =
      2 * (G * c) * q b * (if k = l then 1 else 0) +
        (K + G / 3) * c * ((if b = k then 1 else 0) * q l + q k * (if b = l then 1 else 0)) := by
  fin_cases b <;> fin_cases k <;> fin_cases l <;>
  · simp [gradChristoffel, cTensor, vm, isotropic, Fin.sum_univ_three]
    try ring

theorem iso_hess (K G c : ℝ) (i j k l : Fin 3) :
    hessianChristoffel (fun i j k m => cTensor (isotropic K G) i j k m * c) i j k l =
      2 * (G * c) * (if i = j then 1 else 0) * (if k = l then 1 else 0) +
        (K + G / 3) * c * ((if i = k then 1 else 0) * (if j = l then 1 else 0) +
          (if j = k then 1 else 0) * (if i = l then 1 else 0)) := by
  fin_cases i <;> fin_cases j <;> fin_cases k <;> fin_cases l <;>
  · simp [hessianChristoffel, cTensor, vm, isotropic]
    try ring

theorem iso_christoffel (K G c : ℝ) (q : V3) (i k : Fin 3) :
    christoffel (fun i j k m => cTensor (isotropic K G) i j k m * c) q i k =
      G * c * dot q q * (if i = k then 1 else 0) + (K + G / 3) * c * (q i * q k) := by
  fin_cases i <;> fin_cases k <;>
  · simp [christoffel, cTensor, vm, isotropic, dot, Fin.sum_univ_three]
    ring

theorem around10_one : around10 1 = 1 := by
  have : rint (1 * 10 ^ 10) = 10 ^ 10 := by
    rw [show (1 * 10 ^ 10 : ℝ) = ((10 ^ 10 : ℤ) : ℝ) by norm_num]
    unfold rint
    rw [Int.floor_intCast, if_pos (by norm_num)]
  rw [around10, this]
  norm_num

/-- The cofactor matrix of the projector on the plane normal to a unit vector. -/
theorem cofactor_projector {q : V3} (hq : UnitVector q) :
    (cofactor (Matrix.of fun a b => (if a = b then 1 else 0) - q a * q b)).mulVec q = q := by
  have hq' : q 0 * q 0 + q 1 * q 1 + q 2 * q 2 = 1 := by
    simpa [UnitVector, dot, Fin.sum_univ_three] using hq
  have hdet : Matrix.det (Matrix.of fun a b => (if a = b then (1 : ℝ) else 0) - q a * q b) = 0 := by
    rw [Matrix.det_fin_three]
    simp
    linear_combination -hq'
  unfold cofactor
  rw [if_neg (by rw [hdet]; simp)]
  funext a
  fin_cases a <;> simp [Matrix.mulVec, dotProduct, Fin.sum_univ_three] <;> ring

/-- Algebra behind `iso_rays`. -/
theorem iso_algebra {S D : ℝ} (hDpos : 0 < D) {q : V3} (hqq : dot q q = 1)
    {e : Fin 3 → V3} (hf : Frame e) {w : V3} (hw0 : w 0 = S) (hw1 : w 1 = S) (hw2 : w 2 = S + D)
    (he' : ∀ j a, (w j - S) * e j a = D * dot q (e j) * q a) {g : T3} {h4 : T4}
    (hgr : ∀ b k l, g b k l = 2 * S * q b * (if k = l then 1 else 0) +
      D * ((if b = k then 1 else 0) * q l + q k * (if b = l then 1 else 0)))
    (hhe : ∀ i j k l, h4 i j k l = 2 * S * (if i = j then 1 else 0) *
      (if k = l then 1 else 0) + D * ((if i = k then 1 else 0) * (if j = l then 1 else 0) +
        (if j = k then 1 else 0) * (if i = l then 1 else 0)))
    (i : Fin 3) {P : M3}
    (hpi : ∀ j, ((∃ k, |w i - w j| ≤ (1 / 10 ^ 10) * |w i - w k|) → P.mulVec (e j) = 0) ∧
      ((∀ k, (1 / 10 ^ 10) * |w i - w k| < |w i - w j|) →
        P.mulVec (e j) = (1 / (w i - w j)) • e j)) :
    (∀ b, ∑ k, e i k * ∑ l, g b k l * e i l = 2 * w i * q b) ∧
    ∀ a b, (∑ k, (∑ l, h4 a b k l * e i l) * e i k) +
      2 * ∑ x, (∑ y, (∑ z, g a y z * e i z) * P y x) * ∑ z, g b x z * e i z =
        2 * w i * (if a = b then 1 else 0) := by
  have hee : ∀ j, dot (e j) (e j) = 1 := fun j => by
    have := hf j j
    rwa [if_pos rfl] at this
  have hlow : ∀ j, w j = S → dot q (e j) = 0 := by
    intro j hj
    have h1 : ∀ a, dot q (e j) * q a = 0 := by
      intro a
      have := he' j a
      rw [hj, sub_self, zero_mul] at this
      rcases mul_eq_zero.1 this.symm with h | h
      · rcases mul_eq_zero.1 h with h | h
        · exact absurd h hDpos.ne'
        · rw [h, zero_mul]
      · rw [h, mul_zero]
    by_contra hne
    have : ∀ a, q a = 0 := fun a => (mul_eq_zero.1 (h1 a)).resolve_left hne
    simp [dot, this] at hqq
  have he2 : ∀ a, e 2 a = dot q (e 2) * q a := by
    intro a
    have := he' 2 a
    rw [hw2, add_sub_cancel_left, mul_assoc] at this
    exact mul_left_cancel₀ hDpos.ne' this
  have hsig : dot q (e 2) * dot q (e 2) = 1 := by
    have h1 : dot (e 2) (e 2) = dot q (e 2) * dot q (e 2) := by
      have h2 : dot (e 2) (e 2) = ∑ x, dot q (e 2) * q x * (dot q (e 2) * q x) := by
        conv_lhs => rw [dot]
        exact Finset.sum_congr rfl fun x _ => by rw [← he2 x]
      rw [h2, show (∑ x, dot q (e 2) * q x * (dot q (e 2) * q x)) =
        dot q (e 2) * dot q (e 2) * dot q q by
          generalize dot q (e 2) = s
          simp only [dot, Fin.sum_univ_three]; ring, hqq, mul_one]
    rw [← h1, hee]
  have hq2 : ∀ a b, e 2 a * e 2 b = q a * q b := by
    intro a b
    rw [he2 a, he2 b]
    linear_combination q a * q b * hsig
  have hge : ∀ b, ∑ k, e i k * ∑ l, g b k l * e i l =
      2 * S * q b + 2 * D * dot q (e i) * e i b := by
    intro b
    have h2 := hee i
    simp only [hgr]
    simp only [dot, Fin.sum_univ_three] at h2 ⊢
    fin_cases b <;> simp
    · linear_combination 2 * S * q 0 * h2
    · linear_combination 2 * S * q 1 * h2
    · linear_combination 2 * S * q 2 * h2
  have hfirst : ∀ a b, (∑ k, (∑ l, h4 a b k l * e i l) * e i k) =
      2 * S * (if a = b then 1 else 0) + 2 * D * (e i a * e i b) := by
    intro a b
    have h2 := hee i
    simp only [hhe]
    simp only [dot, Fin.sum_univ_three] at h2 ⊢
    fin_cases a <;> fin_cases b <;> simp <;> first | ring1 | linear_combination 2 * S * h2
  have hdv : ∀ b a, (∑ z, g b a z * e i z) =
      2 * S * q b * e i a + D * ((if b = a then 1 else 0) * dot q (e i) + q a * e i b) := by
    intro b a
    simp only [hgr, dot, Fin.sum_univ_three]
    fin_cases a <;> fin_cases b <;> simp <;> ring
  have hcases : (w i = S ∧ ∀ a b, P a b = -(1 / D) * (q a * q b)) ∨
      (w i = S + D ∧ (∀ a b, e i a * e i b = q a * q b) ∧
        (∀ a, dot q (e i) * e i a = q a) ∧ dot q (e i) * dot q (e i) = 1 ∧
        (∀ a, e i a = dot q (e i) * q a) ∧
        ∀ a b, P a b = 1 / D * ((if a = b then 1 else 0) - q a * q b)) := by
    have low : w i = S → ∀ a b, P a b = -(1 / D) * (q a * q b) := by
      intro hi a b
      have hs : ∀ j, P.mulVec (e j) = (![0, 0, -(1 / D)] : V3) j • e j := by
        intro j
        have h0 : ∀ j, w j = S → P.mulVec (e j) = 0 := fun j hj =>
          (hpi j).1 ⟨j, by simp [hi, hj]⟩
        have h2 : P.mulVec (e 2) = (1 / (w i - w 2)) • e 2 := by
          refine (hpi 2).2 fun k => ?_
          have : |w i - w 2| = D := by
            rw [hi, hw2, sub_add_cancel_left, abs_neg, abs_of_pos hDpos]
          rw [this]
          fin_cases k
          · simp [hi, hw0, hDpos]
          · simp [hi, hw1, hDpos]
          · show 1 / 10 ^ 10 * |w i - w 2| < D
            rw [this]
            linarith
        fin_cases j
        · simpa using h0 0 hw0
        · simpa using h0 1 hw1
        · show P.mulVec (e 2) = -(1 / D) • e 2
          rw [h2, hi, hw2, sub_add_cancel_left, one_div_neg_eq_neg_one_div]
      rw [matrix_of_frame hf hs a b, Fin.sum_univ_three]
      simp only [Matrix.cons_val]
      linear_combination -(1 / D) * hq2 a b
    fin_cases i
    · exact Or.inl ⟨hw0, low hw0⟩
    · exact Or.inl ⟨hw1, low hw1⟩
    · refine Or.inr ⟨hw2, hq2, ?_, hsig, he2, ?_⟩
      · intro a
        show dot q (e 2) * e 2 a = q a
        rw [he2 a]
        linear_combination q a * hsig
      · intro a b
        have hs : ∀ j, P.mulVec (e j) = (![1 / D, 1 / D, 0] : V3) j • e j := by
          have h0 : ∀ j, w j = S → P.mulVec (e j) = (1 / D) • e j := by
            intro j hj
            have h1 : w 2 - w j = D := by rw [hw2, hj, add_sub_cancel_left]
            have := (hpi j).2 (fun k => by
              show 1 / 10 ^ 10 * |w 2 - w k| < |w 2 - w j|
              rw [h1, abs_of_pos hDpos]
              fin_cases k
              · show 1 / 10 ^ 10 * |w 2 - w 0| < D
                rw [hw2, hw0, add_sub_cancel_left, abs_of_pos hDpos]
                linarith
              · show 1 / 10 ^ 10 * |w 2 - w 1| < D
                rw [hw2, hw1, add_sub_cancel_left, abs_of_pos hDpos]
                linarith
              · simpa using hDpos)
            rw [this]
            show (1 / (w 2 - w j)) • e j = _
            rw [h1]
          intro j
          fin_cases j
          · exact h0 0 hw0
          · exact h0 1 hw1
          · show P.mulVec (e 2) = (0 : ℝ) • e 2
            rw [zero_smul]
            exact (hpi 2).1 ⟨2, by simp⟩
        rw [matrix_of_frame hf hs a b, Fin.sum_univ_three]
        simp only [Matrix.cons_val]
        have h1 := frame_complete hf a b
        rw [Fin.sum_univ_three] at h1
        have h2 := hq2 a b
        rw [← h1]
        linear_combination -(1 / D) * h2
  have hq3 : q 0 * q 0 + q 1 * q 1 + q 2 * q 2 = 1 := by
    simpa [dot, Fin.sum_univ_three] using hqq
  refine ⟨?_, ?_⟩
  · intro b
    rw [hge]
    rcases hcases with ⟨h, -⟩ | ⟨h, -, h1, -⟩
    · rw [h, hlow i h]; ring
    · rw [h, mul_assoc (2 * D), h1 b]; ring
  · intro a b
    rw [hfirst]
    simp only [hdv]
    rcases hcases with ⟨h, h1⟩ | ⟨h, h1, h2, h3, h5, h4⟩
    · have h0 := hlow i h
      rw [h]
      simp only [h1, h0]
      simp only [dot, Fin.sum_univ_three] at h0
      -- the contraction of `dvec` with `q`
      have k : ∀ a, ∑ y, (2 * S * q a * e i y + D * ((if a = y then 1 else 0) * 0 + q y * e i a)) *
          q y = D * e i a := by
        intro a
        simp only [Fin.sum_univ_three, mul_zero, zero_add]
        linear_combination 2 * S * q a * h0 + D * e i a * hq3
      have k2 : (∑ x, (∑ y, (2 * S * q a * e i y + D * ((if a = y then 1 else 0) * 0 + q y * e i a)) *
            (-(1 / D) * (q y * q x))) *
            (2 * S * q b * e i x + D * ((if b = x then 1 else 0) * 0 + q x * e i b))) =
          -(1 / D) * (D * e i a) * (D * e i b) := by
        rw [← k a, ← k b]
        simp only [Fin.sum_univ_three]
        ring
      rw [k2]
      field_simp
      ring
    · rw [h]
      set s := dot q (e i) with hs
      simp only [h4, h5]
      clear_value s
      have k0 : ∀ (α β E : ℝ) (a x : Fin 3), ∑ y, (α * q y + β * (if a = y then 1 else 0)) *
          (E * ((if y = x then 1 else 0) - q y * q x)) =
            E * β * ((if a = x then 1 else 0) - q a * q x) := by
        intro α β E a x
        simp only [Fin.sum_univ_three]
        fin_cases a <;> fin_cases x <;> simp <;>
          first
          | linear_combination -(E * α * q 0) * hq3
          | linear_combination -(E * α * q 1) * hq3
          | linear_combination -(E * α * q 2) * hq3
      have k : ∀ a x, ∑ y, (2 * S * q a * (s * q y) +
            D * ((if a = y then 1 else 0) * s + q y * (s * q a))) *
            (1 / D * ((if y = x then 1 else 0) - q y * q x)) =
          s * ((if a = x then 1 else 0) - q a * q x) := by
        intro a x
        have hD : 1 / D * (D * s) = s := by field_simp
        have := k0 (2 * S * q a * s + D * (s * q a)) (D * s) (1 / D) a x
        rw [hD] at this
        rw [← this]
        refine Finset.sum_congr rfl fun y _ => ?_
        ring
      simp only [k]
      have k1 : ∑ x, s * ((if a = x then 1 else 0) - q a * q x) *
          (2 * S * q b * (s * q x) + D * ((if b = x then 1 else 0) * s + q x * (s * q b))) =
          s * s * D * ((if a = b then 1 else 0) - q a * q b) := by
        have := k0 (2 * S * q b + D * q b) D (s * s) b a
        rw [show (if a = b then (1 : ℝ) else 0) = if b = a then 1 else 0 by simp only [eq_comm],
          mul_comm (q a) (q b), ← this]
        refine Finset.sum_congr rfl fun y _ => ?_
        rw [show (if a = y then (1 : ℝ) else 0) = if y = a then 1 else 0 by simp only [eq_comm]]
        ring
      rw [k1]
      linear_combination 2 * D * (if a = b then 1 else 0) * h3

theorem iso_rays {K G rho : ℝ} {num : Numerics} (hn : EighCorrect num) (hp : PinvCorrect num)
    (hK : 0 < K) (hG : 0 < G) (hr : 0 < rho) {o : Seismic}
    (ho : seismic (isotropic K G) rho = .ok o) (d : Dir) (hq : UnitVector d.q) (i : Fin 3) :
    0 < d.eigenval num o i ∧
    (∀ b, (d.group num o).gradEig i b = 2 * d.eigenval num o i * d.q b) ∧
    ∀ a b, d.hessian num o i a b = 2 * d.eigenval num o i * (if a = b then 1 else 0) := by
  obtain ⟨-, ho'⟩ := seismic_ok ho
  have hcpos : 0 < 1000 / rho := by positivity
  have hSpos : 0 < G * (1000 / rho) := by positivity
  have hDpos : 0 < (K + G / 3) * (1000 / rho) := by positivity
  have hCm : o.Cmat = fun i j k m => cTensor (isotropic K G) i j k m * (1000 / rho) := by rw [ho']
  have hHm : o.hessM = hessianChristoffel o.Cmat := by rw [ho']
  have hsym : ∀ i j, isotropic K G i j = isotropic K G j i :=
    fun i j => (isotropic_symm K G).apply j i
  obtain ⟨-, -, hf, he⟩ := sortedEigh_spec hn (fun a b => christoffel_symm hsym ho d.q a b)
  have hqq : dot d.q d.q = 1 := hq
  have hM : ∀ a b, christoffel o.Cmat d.q a b = G * (1000 / rho) * (if a = b then 1 else 0) +
      (K + G / 3) * (1000 / rho) * (d.q a * d.q b) := by
    intro a b
    rw [hCm, iso_christoffel, hqq, mul_one]
  have hwv : (sortedEigh num (christoffel o.Cmat d.q)).1 =
      ![G * (1000 / rho), G * (1000 / rho), G * (1000 / rho) + (K + G / 3) * (1000 / rho)] := by
    refine spectrum_unique (sortedEigh_spectrum hn
      (fun a b => christoffel_symm hsym ho d.q a b)) ?_
    obtain ⟨theta, phi, -, -, hv⟩ := exists_vector hq
    have h1 := spectrum_smul (c := 1 / 10 ^ 6) (by norm_num)
      (iso_spectrum (K := K) (G := G) (by positivity) hr theta phi)
    rw [← hv, ← christoffel_eq ho hr.ne'] at h1
    have h2 : (fun i => 1 / 10 ^ 6 * (![10 ^ 9 * G / rho, 10 ^ 9 * G / rho,
        10 ^ 9 * (K + 4 * G / 3) / rho] : V3) i) =
        ![G * (1000 / rho), G * (1000 / rho), G * (1000 / rho) + (K + G / 3) * (1000 / rho)] := by
      funext i
      fin_cases i <;> simp <;> ring
    rw [← h2]
    exact h1
  have hA : ∀ j, Eigen (d.eigenval num o i • (1 : M3) - christoffel o.Cmat d.q)
      (d.eigenval num o i - d.eigenval num o j) (d.eigenvec num o j) := by
    intro j a
    have h1 : ∑ x, (d.eigenval num o i • (1 : M3) - christoffel o.Cmat d.q) a x *
        d.eigenvec num o j x = d.eigenval num o i * d.eigenvec num o j a -
          ∑ x, christoffel o.Cmat d.q a x * d.eigenvec num o j x := by
      simp only [Matrix.sub_apply, Matrix.smul_apply, smul_eq_mul, sub_mul, Finset.sum_sub_distrib,
        Matrix.one_apply, mul_ite, mul_one, mul_zero, ite_mul, zero_mul, Finset.sum_ite_eq,
        Finset.mem_univ, if_true]
    rw [h1, show (∑ x, christoffel o.Cmat d.q a x * d.eigenvec num o j x) =
      d.eigenval num o j * d.eigenvec num o j a from he j a]
    ring
  have hw0 : d.eigenval num o 0 = G * (1000 / rho) := congrFun hwv 0
  have hw1 : d.eigenval num o 1 = G * (1000 / rho) := congrFun hwv 1
  have hw2 : d.eigenval num o 2 = G * (1000 / rho) + (K + G / 3) * (1000 / rho) := congrFun hwv 2
  have he' : ∀ j a, (d.eigenval num o j - G * (1000 / rho)) * d.eigenvec num o j a =
      (K + G / 3) * (1000 / rho) * dot d.q (d.eigenvec num o j) * d.q a := by
    intro j a
    have h : ∑ x, christoffel o.Cmat d.q a x * d.eigenvec num o j x =
      d.eigenval num o j * d.eigenvec num o j a := he j a
    rw [sub_mul, ← h]
    simp only [hM, dot]
    generalize d.eigenvec num o j = v
    generalize G * (1000 / rho) = S
    generalize (K + G / 3) * (1000 / rho) = D
    simp only [Fin.sum_univ_three]
    fin_cases a <;> simp <;> ring
  obtain ⟨k1, k2⟩ := iso_algebra hDpos hqq hf hw0 hw1 hw2 he' (g := d.gradM o) (h4 := o.hessM)
    (fun b k l => by
      show gradChristoffel o.Cmat d.q b k l = _
      rw [hCm, iso_grad])
    (fun i j k l => by rw [hHm, hCm, iso_hess]) i
    (hp _ (fun j => d.eigenval num o i - d.eigenval num o j) _ hf hA)
  refine ⟨?_, k1, k2⟩
  fin_cases i
  · exact hSpos.trans_eq hw0.symm
  · exact hSpos.trans_eq hw1.symm
  · exact (add_pos hSpos hDpos).trans_eq hw2.symm

/-- C74: in an isotropic medium energy travels with the wave: the group velocity of each wave is its
phase velocity times the direction, the power-flow angles are zero and the enhancement factors are
one. -/
theorem C74_isotropic_rays (num : Numerics) (hn : EighCorrect num) (hp : PinvCorrect num)
    (K G density : ℝ) (hK : 0 < K) (hG : 0 < G) (hr : 0 < density) (o : Seismic)
    (ho : seismic (isotropic K G) density = .ok o) (theta phi : ℝ) (st : State) :
    ∃ (pv : V3) (gv : M3),
      (step num o (.read .phaseVelocity) (step num o (.spherical theta phi) st).2).1 =
        .ok (.vec pv) ∧
      (step num o (.read .groupVelocity) (step num o (.spherical theta phi) st).2).1 =
        .ok (.mat gv) ∧
      (step num o (.read .groupAbs) (step num o (.spherical theta phi) st).2).1 = .ok (.vec pv) ∧
      (step num o (.read .powerflow) (step num o (.spherical theta phi) st).2).1 =
        .ok (.vec fun _ => 0) ∧
      (step num o (.read .enhancement) (step num o (.spherical theta phi) st).2).1 =
        .ok (.vec fun _ => 1) ∧
      ∀ i, 0 < pv i ∧ ∀ j, gv i j = pv i * vector theta phi j := by
  set d : Dir := ⟨seismicVector theta phi, theta, phi⟩ with hd
  have hq : UnitVector d.q := vector_unit theta phi
  have g := set_good (num := num) (o := o) (op := .spherical theta phi) (d := d) rfl st
  have key := iso_rays hn hp hK hG hr ho d hq
  have hpv : ∀ i, 0 < d.phase num o i ∧ d.phase num o i * d.phase num o i = d.eigenval num o i := by
    intro i
    have hw := (key i).1
    have : d.phase num o i = Real.sqrt (d.eigenval num o i) := by
      show Real.sign (d.eigenval num o i) * Real.sqrt |d.eigenval num o i| = _
      rw [Real.sign_of_pos hw, one_mul, abs_of_pos hw]
    rw [this]
    exact ⟨Real.sqrt_pos.2 hw, Real.mul_self_sqrt hw.le⟩
  have hgv : ∀ i j, (d.group num o).velocity i j = d.phase num o i * d.q j := by
    intro i j
    show (d.group num o).gradEig i j / (2 * d.phase num o i) = _
    rw [(key i).2.1 j, ← (hpv i).2]
    have := (hpv i).1.ne'
    field_simp
  have hqn : norm d.q = 1 := by
    have := norm_sq d.q
    rw [show dot d.q d.q = 1 from hq] at this
    exact (pow_eq_one_iff_of_nonneg (norm_nonneg _) two_ne_zero).1 this
  have hga : ∀ i, (d.group num o).abs i = d.phase num o i := by
    intro i
    show norm ((d.group num o).velocity i) = _
    have h1 : (d.group num o).velocity i = fun j => d.phase num o i * d.q j := funext (hgv i)
    have h2 : norm (fun j => d.phase num o i * d.q j) = d.phase num o i * norm d.q := by
      unfold norm
      simp only [mul_pow, ← Finset.mul_sum]
      rw [Real.sqrt_mul (sq_nonneg _), Real.sqrt_sq (hpv i).1.le]
    rw [h1, h2, hqn, mul_one]
  have hdir : ∀ i j, (d.group num o).dir i j = d.q j := by
    intro i j
    show (d.group num o).velocity i j / (d.group num o).abs i = _
    rw [hgv, hga, mul_div_cancel_left₀ _ (hpv i).1.ne']
  have hpf : (d.group num o).powerflow = fun _ => 0 := by
    funext i
    show Real.arccos (around10 (dotProduct ((d.group num o).dir i) d.q)) = 0
    have : dotProduct ((d.group num o).dir i) d.q = 1 := by
      simp only [dotProduct, hdir]
      exact hq
    rw [this, around10_one, Real.arccos_one]
  have hen : d.enhancement num o = fun _ => 1 := by
    funext i
    have hp0 := (hpv i).1.ne'
    have hmat : (Matrix.of fun a b => (d.hessian num o i a b / (d.group num o).abs i -
        (d.group num o).velocity i a *
          (d.hessian num o i).mulVec ((d.group num o).velocity i) b /
            (d.group num o).abs i ^ 3) / (2 * d.phase num o i) : M3) =
        Matrix.of fun a b => (if a = b then 1 else 0) - d.q a * d.q b := by
      ext a b
      have h1 : (d.hessian num o i).mulVec ((d.group num o).velocity i) b =
          2 * d.eigenval num o i * (d.group num o).velocity i b := by
        simp only [Matrix.mulVec, dotProduct, (key i).2.2, mul_ite, mul_one, mul_zero, ite_mul,
          zero_mul, Finset.sum_ite_eq, Finset.mem_univ, if_true]
      simp only [Matrix.of_apply]
      rw [h1, (key i).2.2, hga, hgv, hgv, ← (hpv i).2]
      by_cases hab : a = b
      · simp only [hab, if_true]; field_simp
      · simp only [hab, if_false]; field_simp
    show 1 / norm ((cofactor (Matrix.of fun a b => (d.hessian num o i a b / (d.group num o).abs i -
        (d.group num o).velocity i a *
          (d.hessian num o i).mulVec ((d.group num o).velocity i) b /
            (d.group num o).abs i ^ 3) / (2 * d.phase num o i))).mulVec d.q) = 1
    rw [hmat, cofactor_projector hq, hqn, one_div_one]
  refine ⟨d.phase num o, (d.group num o).velocity, step_read g _, step_read g _, ?_, ?_, ?_,
    fun i => ⟨(hpv i).1, fun j => hgv i j⟩⟩
  · rw [step_read g .groupAbs]
    simp only [Dir.value]
    rw [show (d.group num o).abs = d.phase num o from funext hga]
  · rw [step_read g .powerflow]
    simp only [Dir.value, hpf]
  · rw [step_read g .enhancement]
    simp only [Dir.value, hen]

example : ∃ num o, EighCorrect num ∧ PinvCorrect num ∧ seismic (isotropic 160 80) 3200 = .ok o := by
  obtain ⟨num, hn, hp⟩ := exists_numerics
  exact ⟨num, _, hn, hp, if_neg (iso_det (by norm_num) (by norm_num))⟩

end Verif.Seismic
