/-
C122: scaling the stiffness and the density (waves).
-/
import Verif.Elastic.Scaling
import Verif.Seismic.Rotation

namespace Verif.Seismic
open Verif.Py Verif.Elastic Verif.Elastic.Spec Spec

/-! ### Scaled matrices -/

theorem eigen_scaled {A : M3} {w : ℝ} {e : V3} (h : Eigen A w e) (κ : ℝ) : Eigen (κ • A) (κ * w) e := by
  intro i
  simp only [Matrix.smul_apply, smul_eq_mul, mul_assoc, ← Finset.mul_sum]
  rw [h i]

theorem spectrum_scaled {A : M3} {w : V3} (h : Spectrum A w) {κ : ℝ} (hκ : 0 ≤ κ) : Spectrum (κ • A) fun i => κ * w i := by
  obtain ⟨h1, h2, e, hf, he⟩ := h
  exact ⟨mul_le_mul_of_nonneg_left h1 hκ, mul_le_mul_of_nonneg_left h2 hκ, e, hf, fun i => eigen_scaled (he i) κ⟩

theorem pinv_scaled {num : Numerics} (hp : PinvCorrect num) {A : M3} {a : V3} {e : Fin 3 → V3} (hf : Frame e)
    (he : ∀ i, Eigen A (a i) (e i)) {κ : ℝ} (hκ : 0 < κ) : num.pinv (κ • A) = κ⁻¹ • num.pinv A := by
  have h1 := hp A a e hf he
  have h2 := hp (κ • A) _ e hf fun i => eigen_scaled (he i) κ
  have h3 : ∀ i, (num.pinv (κ • A)).mulVec (e i) = (κ⁻¹ • num.pinv A).mulVec (e i) := by
    intro i
    rw [Matrix.smul_mulVec]
    by_cases hc : ∃ k, |a i| ≤ (1 / 10 ^ 10) * |a k|
    · obtain ⟨k, hk⟩ := hc
      rw [(h1 i).1 ⟨k, hk⟩, (h2 i).1 ⟨k, ?_⟩, smul_zero]
      rw [abs_mul, abs_mul]
      have := mul_le_mul_of_nonneg_left hk (abs_nonneg κ)
      linarith
    · push Not at hc
      rw [(h1 i).2 hc, (h2 i).2 ?_, smul_smul]
      · congr 1
        field_simp
      · intro k
        rw [abs_mul, abs_mul]
        have := mul_lt_mul_of_pos_left (hc k) (abs_pos.2 hκ.ne')
        linarith
  have h4 : ∀ v, (num.pinv (κ • A)).mulVec v = (κ⁻¹ • num.pinv A).mulVec v := by
    intro v
    rw [frame_expand hf v]
    simp only [Matrix.mulVec_sum, Matrix.mulVec_smul, h3]
  ext i j
  have := congrFun (h4 (axis j)) i
  simpa [Matrix.mulVec, dotProduct, axis] using this

theorem norm_scaled {κ : ℝ} (hκ : 0 ≤ κ) (v : V3) : norm (fun i => κ * v i) = κ * norm v := by
  unfold norm
  rw [show (∑ i, (κ * v i) ^ 2) = κ ^ 2 * ∑ i, v i ^ 2 by rw [Finset.mul_sum]; exact Finset.sum_congr rfl fun i _ => by ring,
    Real.sqrt_mul (by positivity), Real.sqrt_sq hκ]

/-! ### The waves of the scaled crystal -/

section waves
variable {T T' : T4} {κ : ℝ} (h : ∀ i j k m, T' i j k m = κ * T i j k m)
include h

theorem christoffel_scaled (q : V3) : christoffel T' q = κ • christoffel T q := by
  ext a d
  simp only [christoffel, Matrix.of_apply, Matrix.smul_apply, smul_eq_mul, h, Finset.mul_sum]
  exact Finset.sum_congr rfl fun i _ => Finset.sum_congr rfl fun j _ => by ring

theorem gradChristoffel_scaled (q : V3) (b : Fin 3) : gradChristoffel T' q b = κ • gradChristoffel T q b := by
  ext a d
  simp only [gradChristoffel, Matrix.of_apply, Matrix.smul_apply, smul_eq_mul, h, Finset.mul_sum]
  exact Finset.sum_congr rfl fun i _ => by ring

theorem hessianChristoffel_scaled (a b c d : Fin 3) : hessianChristoffel T' a b c d = κ * hessianChristoffel T a b c d := by
  simp only [hessianChristoffel, h]
  ring

theorem gradEig_scaled (q : V3) {pv pv' : V3} {e e' : M3} {i : Fin 3} {s : ℝ} (hs : s * s = 1) (he : e' i = s • e i)
    (j : Fin 3) : (groupOf q pv' e' (gradChristoffel T' q)).gradEig i j =
      κ * (groupOf q pv e (gradChristoffel T q)).gradEig i j := by
  show dotProduct (e' i) ((gradChristoffel T' q j).mulVec (e' i)) =
    κ * dotProduct (e i) ((gradChristoffel T q j).mulVec (e i))
  rw [he, gradChristoffel_scaled h, Matrix.smul_mulVec, Matrix.mulVec_smul, smul_dotProduct, dotProduct_smul,
    dotProduct_smul]
  simp only [smul_eq_mul]
  linear_combination κ * dotProduct (e i) ((gradChristoffel T q j).mulVec (e i)) * hs

theorem velocity_scaled (hκ : 0 < κ) (q : V3) {pv pv' : V3} {e e' : M3} {i : Fin 3} {s : ℝ} (hs : s * s = 1)
    (he : e' i = s • e i) (hpv : pv' i = Real.sqrt κ * pv i) (j : Fin 3) :
    (groupOf q pv' e' (gradChristoffel T' q)).velocity i j =
      Real.sqrt κ * (groupOf q pv e (gradChristoffel T q)).velocity i j := by
  show (groupOf q pv' e' (gradChristoffel T' q)).gradEig i j / (2 * pv' i) =
    Real.sqrt κ * ((groupOf q pv e (gradChristoffel T q)).gradEig i j / (2 * pv i))
  rw [gradEig_scaled h q (pv := pv) hs he, hpv]
  have h0 : Real.sqrt κ ≠ 0 := (Real.sqrt_pos.2 hκ).ne'
  have h1 : κ = Real.sqrt κ * Real.sqrt κ := (Real.mul_self_sqrt hκ.le).symm
  rw [show 2 * (Real.sqrt κ * pv i) = Real.sqrt κ * (2 * pv i) by ring]
  nth_rw 1 [h1]
  rw [mul_assoc, mul_div_mul_left _ _ h0, mul_div_assoc]

theorem hessian_scaled {num : Numerics} (hp : PinvCorrect num) (hκ : 0 < κ) (q : V3) {w w' : V3} {e e' : M3} (hf : Frame e)
    (hev : ∀ i, Eigen (christoffel T q) (w i) (e i)) {i : Fin 3} (hw : w' i = κ * w i) {s : ℝ} (hs : s * s = 1)
    (he : e' i = s • e i) :
    hessianEigenval num (hessianChristoffel T') (christoffel T' q) w' e' (gradChristoffel T' q) i =
      κ • hessianEigenval num (hessianChristoffel T) (christoffel T q) w e (gradChristoffel T q) i := by
  have hfirst : (Matrix.of fun a b => ∑ k, (∑ l, hessianChristoffel T' a b k l * e' i l) * e' i k : M3) =
      κ • (Matrix.of fun a b => ∑ k, (∑ l, hessianChristoffel T a b k l * e i l) * e i k) := by
    ext a b
    simp only [Matrix.of_apply, Matrix.smul_apply, smul_eq_mul, hessianChristoffel_scaled h, he, Pi.smul_apply,
      Finset.mul_sum, Finset.sum_mul]
    refine Finset.sum_congr rfl fun k _ => Finset.sum_congr rfl fun l _ => ?_
    linear_combination κ * hessianChristoffel T a b k l * e i l * e i k * hs
  have hdvec : (Matrix.of fun b a => ∑ d, gradChristoffel T' q b a d * e' i d : M3) =
      (κ * s) • (Matrix.of fun b a => ∑ d, gradChristoffel T q b a d * e i d) := by
    ext a b
    simp only [Matrix.of_apply, Matrix.smul_apply, smul_eq_mul, gradChristoffel_scaled h, he, Pi.smul_apply,
      Finset.mul_sum]
    exact Finset.sum_congr rfl fun k _ => by ring
  have hA : ∀ j, Eigen (w i • (1 : M3) - christoffel T q) (w i - w j) (e j) := by
    intro j k
    have := hev j k
    have h1 : ∑ x, (w i • (1 : M3) - christoffel T q) k x * e j x = w i * e j k - ∑ x, christoffel T q k x * e j x := by
      simp only [Matrix.sub_apply, Matrix.smul_apply, smul_eq_mul, sub_mul, Finset.sum_sub_distrib,
        Matrix.one_apply, mul_ite, mul_one, mul_zero, ite_mul, zero_mul, Finset.sum_ite_eq,
        Finset.mem_univ, if_true]
    rw [h1, this]
    ring
  have hP : num.pinv (w' i • (1 : M3) - christoffel T' q) = κ⁻¹ • num.pinv (w i • (1 : M3) - christoffel T q) := by
    rw [← pinv_scaled hp hf hA hκ, christoffel_scaled h, hw, smul_sub, smul_smul]
  simp only [hessianEigenval]
  rw [hfirst, hdvec, hP, smul_add]
  congr 1
  rw [Matrix.transpose_smul]
  simp only [Matrix.smul_mul, Matrix.mul_smul, smul_smul]
  congr 1
  field_simp
  linear_combination hs

end waves

theorem enhancement_scaled {κ : ℝ} (hκ : 0 < κ) (q : V3) {H H' : T3} {pv pv' : V3} {gv gv' : M3} {ga ga' : V3} {i : Fin 3}
    (hH : H' i = κ • H i) (hpv : pv' i = Real.sqrt κ * pv i) (hgv : ∀ j, gv' i j = Real.sqrt κ * gv i j)
    (hga : ga' i = Real.sqrt κ * ga i) : enhancementOf q H' pv' gv' ga' i = enhancementOf q H pv gv ga i := by
  have h0 : Real.sqrt κ ≠ 0 := (Real.sqrt_pos.2 hκ).ne'
  have h1 : κ = Real.sqrt κ * Real.sqrt κ := (Real.mul_self_sqrt hκ.le).symm
  have hgrad : (Matrix.of fun a b =>
      (H' i a b / ga' i - gv' i a * (H' i).mulVec (gv' i) b / ga' i ^ 3) / (2 * pv' i) : M3) =
      (Matrix.of fun a b =>
        (H i a b / ga i - gv i a * (H i).mulVec (gv i) b / ga i ^ 3) / (2 * pv i)) := by
    ext a b
    have e : (H' i).mulVec (gv' i) b = κ * Real.sqrt κ * (H i).mulVec (gv i) b := by
      rw [hH]
      simp only [Matrix.mulVec, dotProduct, Matrix.smul_apply, smul_eq_mul, hgv, Finset.mul_sum]
      exact Finset.sum_congr rfl fun k _ => by ring
    rw [Matrix.of_apply, Matrix.of_apply, e, hH, hga, hpv, hgv, Matrix.smul_apply, smul_eq_mul]
    set r := Real.sqrt κ
    rw [h1]
    have e1 : r * r * H i a b / (r * ga i) = r * (H i a b / ga i) := by
      rw [mul_assoc, mul_div_mul_left _ _ h0, mul_div_assoc]
    have e2 : r * gv i a * (r * r * r * (H i).mulVec (gv i) b) / (r * ga i) ^ 3 =
        r * (gv i a * (H i).mulVec (gv i) b / ga i ^ 3) := by
      rw [mul_pow, show r * gv i a * (r * r * r * (H i).mulVec (gv i) b) = r ^ 3 * (r * (gv i a * (H i).mulVec (gv i) b)) by
        ring, mul_div_mul_left _ _ (pow_ne_zero 3 h0), mul_div_assoc]
    rw [e1, e2, ← mul_sub, show 2 * (r * pv i) = r * (2 * pv i) by ring, mul_div_mul_left _ _ h0]
  simp only [enhancementOf]
  rw [hgrad]

theorem phaseVelocity_scaled {κ : ℝ} (hκ : 0 < κ) {w w' : V3} {i : Fin 3} (hw : w' i = κ * w i) :
    phaseVelocity w' i = Real.sqrt κ * phaseVelocity w i := by
  simp only [phaseVelocity, hw, abs_mul, abs_of_pos hκ]
  rw [Real.sqrt_mul hκ.le]
  have : Real.sign (κ * w i) = Real.sign (w i) := by
    rcases lt_trichotomy (w i) 0 with h | h | h
    · rw [Real.sign_of_neg h, Real.sign_of_neg (mul_neg_of_pos_of_neg hκ h)]
    · rw [h, mul_zero]
    · rw [Real.sign_of_pos h, Real.sign_of_pos (mul_pos hκ h)]
  rw [this]
  ring

theorem isotropicVelocity_scaled {l m : ℝ} (hl : 0 < l) (hm : 0 < m) {C : M6} {density : ℝ} (hd : density ≠ 0)
    {o o' : Seismic} (ho : seismic C density = .ok o) (ho' : seismic (l • C) (m * density) = .ok o') (i : Fin 3) :
    o'.isotropicVelocity i = Real.sqrt (l / m) * o.isotropicVelocity i := by
  have hC := (seismic_ok ho).1
  have hC' := (seismic_ok ho').1
  obtain ⟨s, hs⟩ : ∃ s, soec C density = .ok s := ⟨_, by rw [soec, if_neg hC]⟩
  obtain ⟨s', hs'⟩ : ∃ s, soec (l • C) (m * density) = .ok s := ⟨_, by rw [soec, if_neg hC']⟩
  have := (C122_averages hl hm hs hs').2 i
  have e : ∀ {C : M6} {d : ℝ} (_ : d ≠ 0) {s : Soec} {o : Seismic}, soec C d = .ok s → seismic C d = .ok o →
      o.isotropicVelocity = s.isotropicVelocities := by
    intro C d hd s o hs ho
    obtain ⟨-, rfl⟩ := soec_ok hs
    obtain ⟨-, rfl⟩ := seismic_ok ho
    have e4 : einsum_iijj (fun i j k n => cTensor C i j k n * (1000 / d) * d / 1000) = einsum_iijj (cTensor C) := by
      congr 1
      funext i j k n
      field_simp
    simp only [Seismic.isotropicVelocity, Soec.isotropicVelocities, Seismic.bulkModulus, Seismic.shearModulus,
      Soec.averages, averageRow, e4]
    have e5 : ∀ x : ℝ, x / 2 = 0.5 * x := fun x => by ring
    rw [e5]
  rw [e hd hs ho, e (mul_ne_zero hm.ne' hd) hs' ho', this]

/-! ### C122 -/

/-- C122: the waves of a crystal with a stiffness `l` times as large and a density `m` times as large: along every
direction the phase velocities are the square root of `l / m` times as large, and those relative to the isotropic ones are
the same.  If the velocity of a wave is not that of another wave, its polarisation and group direction are the same, its group
velocity is the square root of `l / m` times as large, and its power flow angle and enhancement factor are the same. -/
theorem C122_waves (num : Numerics) (hn : EighCorrect num) (hp : PinvCorrect num) {l m : ℝ} (hl : 0 < l) (hm : 0 < m)
    {C : M6} (hsym : ∀ i j, C i j = C j i) {density : ℝ} (hden : density ≠ 0) {o o' : Seismic}
    (ho : seismic C density = .ok o) (ho' : seismic (l • C) (m * density) = .ok o') {setting : Op}
    (hset : (∃ theta phi, setting = .spherical theta phi) ∨ ∃ v, v ≠ 0 ∧ setting = .cartesian v) {st st' : State} :
    (step num o' (.read .relPhaseVelocity) (step num o' setting st').2).1 =
      (step num o (.read .relPhaseVelocity) (step num o setting st).2).1 ∧
    ∃ (pv pv' ga ga' rg rg' pf pf' en en' : V3) (e e' gv gv' gd gd' : M3),
      (step num o (.read .phaseVelocity) (step num o setting st).2).1 = .ok (.vec pv) ∧
      (step num o' (.read .phaseVelocity) (step num o' setting st').2).1 = .ok (.vec pv') ∧
      (step num o (.read .eigenvec) (step num o setting st).2).1 = .ok (.mat e) ∧
      (step num o' (.read .eigenvec) (step num o' setting st').2).1 = .ok (.mat e') ∧
      (step num o (.read .groupVelocity) (step num o setting st).2).1 = .ok (.mat gv) ∧
      (step num o' (.read .groupVelocity) (step num o' setting st').2).1 = .ok (.mat gv') ∧
      (step num o (.read .groupDir) (step num o setting st).2).1 = .ok (.mat gd) ∧
      (step num o' (.read .groupDir) (step num o' setting st').2).1 = .ok (.mat gd') ∧
      (step num o (.read .groupAbs) (step num o setting st).2).1 = .ok (.vec ga) ∧
      (step num o' (.read .groupAbs) (step num o' setting st').2).1 = .ok (.vec ga') ∧
      (step num o (.read .relGroupVelocity) (step num o setting st).2).1 = .ok (.vec rg) ∧
      (step num o' (.read .relGroupVelocity) (step num o' setting st').2).1 = .ok (.vec rg') ∧
      (step num o (.read .powerflow) (step num o setting st).2).1 = .ok (.vec pf) ∧
      (step num o' (.read .powerflow) (step num o' setting st').2).1 = .ok (.vec pf') ∧
      (step num o (.read .enhancement) (step num o setting st).2).1 = .ok (.vec en) ∧
      (step num o' (.read .enhancement) (step num o' setting st').2).1 = .ok (.vec en') ∧
      (∀ i, pv' i = Real.sqrt (l / m) * pv i) ∧
      ∀ i, (∀ j, j ≠ i → pv j ≠ pv i) →
        (e' i = e i ∨ e' i = -e i) ∧ (∀ j, gv' i j = Real.sqrt (l / m) * gv i j) ∧ gd' i = gd i ∧
        ga' i = Real.sqrt (l / m) * ga i ∧ rg' i = rg i ∧ pf' i = pf i ∧ en' i = en i := by
  obtain ⟨d, hd, -⟩ := dir_of_setting hset
  have g := set_good (num := num) (o := o) hd st
  have g' := set_good (num := num) (o := o') hd st'
  set κ : ℝ := l / m with hκd
  have hκ : 0 < κ := by positivity
  have h0 : Real.sqrt κ ≠ 0 := (Real.sqrt_pos.2 hκ).ne'
  have key : ∀ i j k n, o'.Cmat i j k n = κ * o.Cmat i j k n := by
    intro i j k n
    rw [(seismic_ok ho).2, (seismic_ok ho').2]
    show l * cTensor C i j k n * (1000 / (m * density)) = κ * (cTensor C i j k n * (1000 / density))
    rw [hκd]
    field_simp
  have hM : d.M o' = κ • d.M o := christoffel_scaled key d.q
  have hMs : ∀ i j, d.M o i j = d.M o j i := fun i j => christoffel_symm hsym ho d.q i j
  have hMs' : ∀ i j, d.M o' i j = d.M o' j i := fun i j => by
    rw [hM, Matrix.smul_apply, Matrix.smul_apply, hMs]
  obtain ⟨-, -, hf, he⟩ := sortedEigh_spec hn hMs
  obtain ⟨-, -, hf', he'⟩ := sortedEigh_spec hn hMs'
  have hw : d.eigenval num o' = fun i => κ * d.eigenval num o i := by
    refine spectrum_unique (sortedEigh_spectrum hn hMs') ?_
    rw [hM]
    exact spectrum_scaled (sortedEigh_spectrum hn hMs) hκ.le
  have hpv : ∀ i, d.phase num o' i = Real.sqrt κ * d.phase num o i := fun i =>
    phaseVelocity_scaled hκ (by rw [hw])
  have hiso := isotropicVelocity_scaled hl hm hden ho ho'
  refine ⟨?_, _, _, _, _, _, _, _, _, _, _, _, _, _, _, _, _, step_read g _, step_read g' _, step_read g _, step_read g' _,
    step_read g _, step_read g' _, step_read g _, step_read g' _, step_read g _, step_read g' _, step_read g _,
    step_read g' _, step_read g _, step_read g' _, step_read g _, step_read g' _, hpv, ?_⟩
  · rw [step_read g, step_read g']
    simp only [Dir.value, hpv, hiso, ← hκd, mul_div_mul_left _ _ h0]
  · intro i hi
    have hwi : ∀ j, j ≠ i → d.eigenval num o j ≠ d.eigenval num o i := by
      intro j hj hc
      refine hi j hj ?_
      simp only [Dir.phase, phaseVelocity, hc]
    have hx : Eigen (d.M o) (d.eigenval num o i) (d.eigenvec num o' i) := by
      have h1 : Eigen (d.M o') (d.eigenval num o' i) (d.eigenvec num o' i) := he' i
      have h2 := eigen_scaled h1 κ⁻¹
      rw [hM, smul_smul, inv_mul_cancel₀ hκ.ne', one_smul, hw, inv_mul_cancel_left₀ hκ.ne'] at h2
      exact h2
    have hu : UnitVector (d.eigenvec num o' i) := by have := hf' i i; rwa [if_pos rfl] at this
    obtain ⟨s, hs, hse⟩ := eigen_sign hf he hx hu hwi
    have hse' : d.eigenvec num o' i = s • d.eigenvec num o i := hse
    have hvel : ∀ j, (d.group num o').velocity i j = Real.sqrt κ * (d.group num o).velocity i j :=
      velocity_scaled key hκ d.q hs hse' (hpv i)
    have hab : (d.group num o').abs i = Real.sqrt κ * (d.group num o).abs i := by
      show norm ((d.group num o').velocity i) = Real.sqrt κ * norm ((d.group num o).velocity i)
      rw [← norm_scaled (Real.sqrt_nonneg κ)]
      congr 1
      funext j
      exact hvel j
    have hdir : (d.group num o').dir i = (d.group num o).dir i := by
      funext j
      show (d.group num o').velocity i j / (d.group num o').abs i = (d.group num o).velocity i j / (d.group num o).abs i
      rw [hvel, hab, mul_div_mul_left _ _ h0]
    have hH : d.hessian num o' i = κ • d.hessian num o i := by
      have e1 : o.hessM = hessianChristoffel o.Cmat := by rw [(seismic_ok ho).2]
      have e2 : o'.hessM = hessianChristoffel o'.Cmat := by rw [(seismic_ok ho').2]
      have := hessian_scaled key hp hκ d.q (w := d.eigenval num o) (w' := d.eigenval num o') (e := d.eigenvec num o)
        (e' := d.eigenvec num o') hf he (i := i) (by rw [hw]) hs hse'
      unfold Dir.hessian
      rw [e1, e2]
      exact this
    refine ⟨?_, hvel, hdir, hab, ?_, ?_, ?_⟩
    · rcases mul_self_eq_one_iff.1 hs with rfl | rfl
      · left; rw [hse', one_smul]
      · right; rw [hse', neg_one_smul]
    · show (d.group num o').abs i / o'.isotropicVelocity i = (d.group num o).abs i / o.isotropicVelocity i
      rw [hab, hiso, ← hκd, mul_div_mul_left _ _ h0]
    · show Real.arccos (around10 (dotProduct ((d.group num o').dir i) d.q)) =
        Real.arccos (around10 (dotProduct ((d.group num o).dir i) d.q))
      rw [hdir]
    · exact enhancement_scaled hκ d.q hH (hpv i) hvel hab

/-- C122: the same for the velocities of the elastic calculator. -/
theorem C122_elastic (num : Numerics) (hn : EighCorrect num) {l m : ℝ} (hl : 0 < l) (hm : 0 < m) {C : M6}
    (hsym : ∀ i j, C i j = C j i) {density : ℝ} {s s' : Soec} (hs : soec C density = .ok s)
    (hs' : soec (l • C) (m * density) = .ok s') (theta phi : ℝ) (i : Fin 3) :
    Soec.phaseVelocity num s' theta phi i = Real.sqrt (l / m) * Soec.phaseVelocity num s theta phi i := by
  obtain ⟨-, rfl⟩ := soec_ok hs
  obtain ⟨-, rfl⟩ := soec_ok hs'
  have hA : elasticChristoffel (l • C) (vector theta phi) = l • elasticChristoffel C (vector theta phi) := by
    rw [elastic_eq (l • C) _ 1 one_ne_zero, elastic_eq C _ 1 one_ne_zero, one_smul, one_smul]
    ext i j
    simp only [acoustic, Matrix.of_apply, cTensor_smul, div_one, Matrix.smul_apply, smul_eq_mul, Finset.mul_sum]
    exact Finset.sum_congr rfl fun _ _ => Finset.sum_congr rfl fun _ _ => by ring
  have hMs : ∀ i j, elasticChristoffel C (vector theta phi) i j = elasticChristoffel C (vector theta phi) j i := by
    intro i j
    rw [elastic_eq C _ 1 one_ne_zero, one_smul]
    exact acoustic_symm hsym 1 _ i j
  have hw : (num.eigh (elasticChristoffel (l • C) (vector theta phi))).1 =
      fun i => l * (num.eigh (elasticChristoffel C (vector theta phi))).1 i := by
    refine spectrum_unique (eigh_spectrum hn fun i j => by rw [hA, Matrix.smul_apply, Matrix.smul_apply, hMs]) ?_
    rw [hA]
    exact spectrum_scaled (eigh_spectrum hn hMs) hl.le
  simp only [Soec.phaseVelocity, hw]
  rw [← mul_div_assoc, ← Real.sqrt_mul (by positivity), div_mul_div_comm]

/-- The hypotheses of the theorems of C122 are met by a crystal whose three waves along the first axis have different
velocities, with twice its stiffness and three times its density. -/
example : ∃ num s s' o o', EighCorrect num ∧ PinvCorrect num ∧ (∀ i j, threeSpeeds i j = threeSpeeds j i) ∧
    soec threeSpeeds 1000 = .ok s ∧ soec ((2 : ℝ) • threeSpeeds) (3 * 1000) = .ok s' ∧
    seismic threeSpeeds 1000 = .ok o ∧ seismic ((2 : ℝ) • threeSpeeds) (3 * 1000) = .ok o' ∧
    ∃ pv, (step num o (.read .phaseVelocity) (step num o (.cartesian ![1, 0, 0]) {}).2).1 = .ok (.vec pv) ∧
      ∀ i j, j ≠ i → pv j ≠ pv i := by
  obtain ⟨num, hn, hp⟩ := exists_numerics
  have h2 : ((2 : ℝ) • threeSpeeds).det ≠ 0 := fun h => threeSpeeds_det ((det_scaled two_ne_zero).1 h)
  obtain ⟨s, hs⟩ : ∃ s, soec threeSpeeds 1000 = .ok s := ⟨_, by rw [soec, if_neg threeSpeeds_det]⟩
  obtain ⟨s', hs'⟩ : ∃ s, soec ((2 : ℝ) • threeSpeeds) (3 * 1000) = .ok s := ⟨_, by rw [soec, if_neg h2]⟩
  obtain ⟨o, ho⟩ : ∃ o, seismic threeSpeeds 1000 = .ok o := by
    simp only [seismic]
    rw [if_neg threeSpeeds_det]
    exact ⟨_, rfl⟩
  obtain ⟨o', ho'⟩ : ∃ o, seismic ((2 : ℝ) • threeSpeeds) (3 * 1000) = .ok o := by
    simp only [seismic]
    rw [if_neg h2]
    exact ⟨_, rfl⟩
  exact ⟨num, s, s', o, o', hn, hp, threeSpeeds_symm, hs, hs', ho, ho', threeSpeeds_distinct hn hp ho⟩

end Verif.Seismic
