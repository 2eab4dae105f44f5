/-
Property C118: the enhancement factor is the concentration of rays.
-/
import Verif.Seismic.Ray
import Verif.Seismic.Rotation

namespace Verif.Seismic
open Verif.Py Verif.Elastic Verif.Elastic.Spec Spec Filter Topology

/-- The area of the parallelogram spanned by two vectors. -/
noncomputable def Spec.area (u v : V3) : ℝ := Real.sqrt (dot u u * dot v v - dot u v ^ 2)

/-! ### Areas -/

/-- The cross product. -/
def cr (u v : V3) : V3 := ![u 1 * v 2 - u 2 * v 1, u 2 * v 0 - u 0 * v 2, u 0 * v 1 - u 1 * v 0]

theorem area_cr (u v : V3) : area u v = norm (cr u v) := by
  unfold area norm
  congr 1
  simp only [dot, cr, Fin.sum_univ_three, Matrix.cons_val]
  ring

theorem cr_mulVec (A : M3) (u v : V3) : cr (A.mulVec u) (A.mulVec v) = (cofactor A).mulVec (cr u v) := by
  rw [(C62_cofactor_partial A).1]
  funext k
  fin_cases k <;>
    simp only [cr, Matrix.mulVec, dotProduct, Fin.sum_univ_three, Matrix.cons_val, Matrix.of_apply, Fin.zero_eta,
      Fin.mk_one, Fin.reduceFinMk] <;> ring

theorem cr_perp {q u v : V3} (hq : UnitVector q) (hu : dot q u = 0) (hv : dot q v = 0) :
    cr u v = dot q (cr u v) • q := by
  have h1 : dot q q = 1 := hq
  simp only [dot, Fin.sum_univ_three] at h1 hu hv
  have x0 : q 1 * cr u v 2 - q 2 * cr u v 1 = 0 := by
    simp only [cr, Matrix.cons_val]
    linear_combination u 0 * hv - v 0 * hu
  have x1 : q 2 * cr u v 0 - q 0 * cr u v 2 = 0 := by
    simp only [cr, Matrix.cons_val]
    linear_combination u 1 * hv - v 1 * hu
  have x2 : q 0 * cr u v 1 - q 1 * cr u v 0 = 0 := by
    simp only [cr, Matrix.cons_val]
    linear_combination u 2 * hv - v 2 * hu
  generalize cr u v = a at *
  funext k
  simp only [dot, Pi.smul_apply, smul_eq_mul, Fin.sum_univ_three]
  fin_cases k
  · simp only [Fin.zero_eta]
    linear_combination -(a 0) * h1 - q 1 * x2 + q 2 * x1
  · simp only [Fin.mk_one]
    linear_combination -(a 1) * h1 + q 0 * x2 - q 2 * x0
  · simp only [Fin.reduceFinMk]
    linear_combination -(a 2) * h1 - q 0 * x1 + q 1 * x0

theorem norm_smul' (s : ℝ) (v : V3) : norm (s • v) = |s| * norm v := by
  rw [norm_dot, norm_dot, dot_smul, dot_comm, dot_smul, ← mul_assoc, ← sq, Real.sqrt_mul (sq_nonneg s), Real.sqrt_sq_eq_abs]

/-- A linear map multiplies all areas perpendicular to `q` by the same factor. -/
theorem area_mulVec (A : M3) {q u v : V3} (hq : UnitVector q) (hu : dot q u = 0) (hv : dot q v = 0) :
    area (A.mulVec u) (A.mulVec v) = norm ((cofactor A).mulVec q) * area u v := by
  have hn : norm q = 1 := by rw [norm_dot, show dot q q = 1 from hq, Real.sqrt_one]
  rw [area_cr, area_cr, cr_mulVec, cr_perp hq hu hv, Matrix.mulVec_smul, norm_smul', norm_smul', hn]
  ring

/-! ### The Hessian of the object -/

theorem pinv_symm {num : Numerics} (hp : PinvCorrect num) {A : M3} {a : V3} {e : Fin 3 → V3} (hf : Frame e)
    (h : ∀ i, Eigen A (a i) (e i)) (k m : Fin 3) : num.pinv A k m = num.pinv A m k := by
  have : ∀ i, ∃ s, Eigen (num.pinv A) s (e i) := by
    intro i
    by_cases hc : ∃ k, |a i| ≤ (1 / 10 ^ 10) * |a k|
    · refine ⟨0, fun x => ?_⟩
      have := congrFun ((hp A a e hf h i).1 hc) x
      rw [zero_mul]
      exact this
    · push Not at hc
      exact ⟨1 / a i, fun x => congrFun ((hp A a e hf h i).2 hc) x⟩
  choose s hs using this
  exact eigen_symm hf hs k m

theorem shifted_eigen {M : M3} {w : V3} {e : Fin 3 → V3} (h : ∀ i, Eigen M (w i) (e i)) (n j : Fin 3) :
    Eigen (w n • (1 : M3) - M) (w n - w j) (e j) := by
  intro i
  have := h j i
  have h1 : ∑ x, (w n • (1 : M3) - M) i x * e j x = w n * e j i - ∑ x, M i x * e j x := by
    simp only [Matrix.sub_apply, Matrix.smul_apply, smul_eq_mul, sub_mul, Finset.sum_sub_distrib,
      Matrix.one_apply, mul_ite, mul_one, mul_zero, ite_mul, zero_mul, Finset.sum_ite_eq,
      Finset.mem_univ, if_true]
  rw [h1, this]
  ring

section

variable {num : Numerics} {c : T4} {q : V3} {w : V3} {e : M3}

theorem hessian_symm (hp : PinvCorrect num) (hf : Frame e) (he : ∀ i, Eigen (christoffel c q) (w i) (e i)) (n a b : Fin 3) :
    hessianEigenval num (hessianChristoffel c) (christoffel c q) w e (gradChristoffel c q) n a b =
      hessianEigenval num (hessianChristoffel c) (christoffel c q) w e (gradChristoffel c q) n b a := by
  have hP := pinv_symm hp hf (shifted_eigen he n)
  simp only [hessianEigenval, Matrix.add_apply, Matrix.smul_apply, smul_eq_mul, Matrix.of_apply]
  generalize num.pinv (w n • (1 : M3) - christoffel c q) = P at hP
  generalize (Matrix.of fun b a => ∑ d, gradChristoffel c q b a d * e n d : M3) = B
  congr 1
  · refine Finset.sum_congr rfl fun k _ => ?_
    congr 1
    refine Finset.sum_congr rfl fun l _ => ?_
    simp only [hessianChristoffel]
    ring
  · congr 1
    have hPt : P.transpose = P := by ext i j; exact hP j i
    have : (B * P * B.transpose).transpose = B * P * B.transpose := by
      rw [Matrix.transpose_mul, Matrix.transpose_mul, Matrix.transpose_transpose, hPt, Matrix.mul_assoc]
    exact congrFun (congrFun this b) a

theorem hessian_mulVec (hp : PinvCorrect num) (hf : Frame e) (he : ∀ i, Eigen (christoffel c q) (w i) (e i))
    (hc : ∀ b k m, gradChristoffel c q b k m = gradChristoffel c q b m k) {n : Fin 3}
    (hgap : ∀ j k, j ≠ n → |w n - w k| < 10 ^ 10 * |w n - w j|) (h : V3) (b : Fin 3) :
    (hessianEigenval num (hessianChristoffel c) (christoffel c q) w e (gradChristoffel c q) n).mulVec h b =
      (∑ k, ∑ m, e n k * e n m * gradChristoffel c h b k m) +
        2 * ∑ k, ∑ m, e n k * change c q w e n h m * gradChristoffel c q b k m := by
  have hred := pinv_reduced hp hf he hgap ((firstOrder c q h).mulVec (e n))
  set P := num.pinv (w n • (1 : M3) - christoffel c q) with hP
  set B : M3 := Matrix.of fun b a => ∑ d, gradChristoffel c q b a d * e n d with hB
  have hy : B.transpose.mulVec h = (firstOrder c q h).mulVec (e n) := by
    funext a
    simp only [hB, firstOrder, Matrix.mulVec, dotProduct, Matrix.transpose_apply, Matrix.of_apply, Matrix.sum_apply,
      Matrix.smul_apply, smul_eq_mul, Fin.sum_univ_three]
    ring
  have hsplit : (hessianEigenval num (hessianChristoffel c) (christoffel c q) w e (gradChristoffel c q) n) =
      (Matrix.of fun i j => ∑ k, (∑ l, hessianChristoffel c i j k l * e n l) * e n k) +
        (2 : ℝ) • (B * P * B.transpose) := rfl
  rw [hsplit, Matrix.add_mulVec, Matrix.smul_mulVec, ← Matrix.mulVec_mulVec, ← Matrix.mulVec_mulVec, hy, hred]
  rw [Pi.add_apply, Pi.smul_apply, smul_eq_mul]
  congr 1
  · simp only [Matrix.mulVec, dotProduct, Matrix.of_apply, hessianChristoffel, gradChristoffel, Fin.sum_univ_three]
    ring
  · congr 1
    show (B.mulVec (change c q w e n h)) b = _
    simp only [hB, Matrix.mulVec, dotProduct, Matrix.of_apply, Fin.sum_univ_three]
    rw [hc b 1 0, hc b 2 0, hc b 2 1]
    ring

end

/-! ### C118 -/

/-- The direction that `cartesian p` sets. -/
noncomputable def towards (p : V3) : Dir :=
  let q : V3 := fun i => p i / norm p
  ⟨q, arctan2 (Real.sqrt (q 1 ^ 2 + q 0 ^ 2)) (q 2), arctan2 (q 0) (q 1)⟩

theorem norm_eq_zero {p : V3} (h : norm p = 0) : p = 0 := by
  have h1 := norm_sq p
  rw [h] at h1
  funext i
  have h2 : p i * p i ≤ dot p p :=
    Finset.single_le_sum (f := fun k => p k * p k) (fun j _ => mul_self_nonneg _) (Finset.mem_univ i)
  have h3 : p i * p i = 0 := le_antisymm (by linarith) (mul_self_nonneg _)
  simpa using h3

theorem towards_scale (p : V3) : p = norm p • (towards p).q := by
  by_cases h : norm p = 0
  · rw [h, zero_smul]
    exact norm_eq_zero h
  · funext i
    simp only [towards, Pi.smul_apply, smul_eq_mul]
    field_simp

theorem towards_unit {q : V3} (h : UnitVector q) : (towards q).q = q := by
  have hn : norm q = 1 := by rw [norm_dot, show dot q q = 1 from h, Real.sqrt_one]
  funext i
  simp only [towards, hn, div_one]

/-- C118: the enhancement factor is the concentration of rays around the ray of a wave.  Take a direction `q` and a wave
whose velocity there is positive and differs from those of the others (by more than the cut-off of the code).  The ray, the
direction in which the wave carries its energy, is a differentiable function of the direction of the wave at `q`, and turns
every small patch of directions around `q` into a patch of rays whose area is `a` times as large; the enhancement factor is
`1 / a`.  (At a caustic `a` is zero, the code divides by zero, and the model gives 0.) -/
theorem C118_rays (num : Numerics) (hn : EighCorrect num) (hp : PinvCorrect num) {C : M6} (hC : ∀ i j, C i j = C j i)
    {density : ℝ} {o : Seismic} (ho : seismic C density = .ok o) {setting : Op}
    (hset : (∃ theta phi, setting = .spherical theta phi) ∨ ∃ v, v ≠ 0 ∧ setting = .cartesian v) (st : State) :
    ∃ (q w en : V3) (dirs : M3),
      (step num o (.read .q) (step num o setting st).2).1 = .ok (.vec q) ∧
      (step num o (.read .eigenval) (step num o setting st).2).1 = .ok (.vec w) ∧
      (step num o (.read .groupDir) (step num o setting st).2).1 = .ok (.mat dirs) ∧
      (step num o (.read .enhancement) (step num o setting st).2).1 = .ok (.vec en) ∧
      ∀ i, 0 < w i → (∀ j k, j ≠ i → |w i - w k| < 10 ^ 10 * |w i - w j|) →
        ∃ (ray : V3 → V3) (D : M3) (a : ℝ),
          (∀ p, p ≠ 0 → ∀ st, ∃ m, (step num o (.read .groupDir) (step num o (.cartesian p) st).2).1 = .ok (.mat m) ∧
            m i = ray p) ∧
          ray q = dirs i ∧
          HasFDerivAt ray (LinearMap.toContinuousLinearMap D.mulVecLin) q ∧
          (∀ u v, dot q u = 0 → dot q v = 0 → area (D.mulVec u) (D.mulVec v) = a * area u v) ∧
          en i = 1 / a := by
  obtain ⟨d, hd, hq⟩ := dir_of_setting hset
  have g := set_good (num := num) (o := o) hd st
  refine ⟨d.q, d.eigenval num o, d.enhancement num o, (d.group num o).dir, step_read g _, step_read g _, step_read g _,
    step_read g _, fun i hw hgap => ?_⟩
  set c := o.Cmat with hcdef
  have hhess : o.hessM = hessianChristoffel c := by rw [hcdef, (seismic_ok ho).2]
  -- the eigenvectors along all directions
  set f : V3 → Fin 3 → V3 := fun p => (towards p).eigenvec num o with hf
  set ω : V3 → V3 := fun p j => norm p ^ 2 * (towards p).eigenval num o j with hω
  have spec := fun p => sortedEigh_spec hn (fun a b => christoffel_symm hC ho (towards p).q a b)
  have hsω : ∀ p, ω p 0 ≤ ω p 1 ∧ ω p 1 ≤ ω p 2 := fun p =>
    ⟨mul_le_mul_of_nonneg_left (spec p).1 (sq_nonneg _), mul_le_mul_of_nonneg_left (spec p).2.1 (sq_nonneg _)⟩
  have hff : ∀ p, Frame (f p) := fun p => (spec p).2.2.1
  have hfe : ∀ p j, Eigen (christoffel c p) (ω p j) (f p j) := by
    intro p j k
    have h1 := (spec p).2.2.2 j k
    have h2 : christoffel c p = norm p ^ 2 • christoffel c (towards p).q := by
      conv_lhs => rw [towards_scale p]
      rw [christoffel_smul]
    rw [h2]
    simp only [Matrix.smul_apply, smul_eq_mul, mul_assoc, ← Finset.mul_sum, hω]
    exact congrArg (norm p ^ 2 * ·) h1
  -- at the direction itself
  have hnq : norm d.q = 1 := by rw [norm_dot, show dot d.q d.q = 1 from hq, Real.sqrt_one]
  have hMq : (towards d.q).M o = d.M o := by unfold Dir.M; rw [towards_unit hq]
  have hfq : f d.q = d.eigenvec num o := by
    simp only [hf, Dir.eigenvec, hMq]
    rfl
  have hωq : ω d.q = d.eigenval num o := by
    funext j
    simp only [hω, hnq, one_pow, one_mul, Dir.eigenval, hMq]
  have hsimple : ∀ j, j ≠ i → ω d.q j ≠ ω d.q i := by
    intro j hj h'
    have := hgap j j hj
    rw [hωq] at h'
    rw [h'] at this
    simp at this
  have hgs := fun p => grad_symm hC ho p
  have hslope := slope_hasFDeriv c hgs hsω hff hfe hsimple
    (H := d.hessian num o i) (fun h b => by
      rw [hfq, hωq]
      have hfd := hff d.q
      have hed := hfe d.q
      rw [hfq] at hfd hed
      rw [hωq] at hed
      have := hessian_mulVec hp hfd hed (hgs d.q) hgap h b
      unfold Dir.hessian
      rw [hhess]
      exact this)
  -- the ray as the direction of the gradient
  have hgeig : ∀ p b, ((towards p).group num o).gradEig i b * norm p = slope c (f p i) p b := by
    intro p b
    rw [slope_eq]
    conv_rhs => rw [towards_scale p]
    have : gradChristoffel c (norm p • (towards p).q) b = norm p • gradChristoffel c (towards p).q b := by
      ext k m
      rw [gradChristoffel_smul]
      rfl
    rw [← towards_scale p, show ((gradChristoffel c p b)) = norm p • gradChristoffel c (towards p).q b from by
      rw [← this, ← towards_scale p], Matrix.smul_mulVec, dotProduct_smul, smul_eq_mul, mul_comm]
    rfl
  -- a positive multiple of the gradient
  have hvel : ∀ p, 0 < ω p i → ∃ s : ℝ, 0 < s ∧ ((towards p).group num o).velocity i = s • slope c (f p i) p := by
    intro p hpos
    have hnp : 0 < norm p := by
      rcases (norm_nonneg p).eq_or_lt with h | h
      · simp only [hω, ← h] at hpos
        norm_num at hpos
      · exact h
    have he : 0 < (towards p).eigenval num o i := by
      by_contra hne
      have := mul_nonpos_of_nonneg_of_nonpos (sq_nonneg (norm p)) (not_lt.1 hne)
      exact absurd hpos (not_lt.2 this)
    have hph : 0 < (towards p).phase num o i := by
      show 0 < Real.sign ((towards p).eigenval num o i) * Real.sqrt |(towards p).eigenval num o i|
      rw [Real.sign_of_pos he, one_mul]
      exact Real.sqrt_pos.2 (abs_pos.2 he.ne')
    refine ⟨1 / (norm p * (2 * (towards p).phase num o i)), by positivity, ?_⟩
    funext b
    rw [Pi.smul_apply, smul_eq_mul, ← hgeig]
    show ((towards p).group num o).gradEig i b / (2 * (towards p).phase num o i) = _
    field_simp
  have hdir : ∀ p, 0 < ω p i → ((towards p).group num o).dir i =
      fun a => slope c (f p i) p a / norm (slope c (f p i) p) := by
    intro p hpos
    obtain ⟨s, hs, hv⟩ := hvel p hpos
    funext a
    show ((towards p).group num o).velocity i a / norm (((towards p).group num o).velocity i) = _
    rw [hv, norm_smul', abs_of_pos hs, Pi.smul_apply, smul_eq_mul, mul_div_mul_left _ _ hs.ne']
  have hgroup : (towards d.q).group num o = d.group num o := by
    have hphase : (towards d.q).phase num o = d.phase num o := by
      simp only [Dir.phase, Dir.eigenval, hMq]
    have hvec : (towards d.q).eigenvec num o = d.eigenvec num o := by simp only [Dir.eigenvec, hMq]
    unfold Dir.group
    rw [hphase, hvec]
    unfold Dir.gradM
    rw [towards_unit hq]
  have hph : 0 < d.phase num o i := by
    show 0 < Real.sign (d.eigenval num o i) * Real.sqrt |d.eigenval num o i|
    rw [Real.sign_of_pos hw, one_mul]
    exact Real.sqrt_pos.2 (abs_pos.2 hw.ne')
  have hgq : slope c (f d.q i) d.q = (2 * d.phase num o i) • (d.group num o).velocity i := by
    funext b
    rw [← hgeig, hnq, mul_one, hgroup, Pi.smul_apply, smul_eq_mul]
    show _ = 2 * d.phase num o i * ((d.group num o).gradEig i b / (2 * d.phase num o i))
    field_simp
  have hpos : 0 < dot (slope c (f d.q i) d.q) (slope c (f d.q i) d.q) := by
    have hpr : dot d.q (slope c (f d.q i) d.q) = 2 * d.eigenval num o i := by
      have hu : UnitVector (d.eigenvec num o i) := by
        have := hff d.q i i
        rw [if_pos rfl, hfq] at this
        exact this
      have he := hfe d.q i
      rw [hfq, hωq] at he
      rw [← group_projection i hu he]
      congr 1
      funext b
      rw [← hgeig, hnq, mul_one, hgroup]
    have hcs := cauchy d.q (slope c (f d.q i) d.q)
    rw [hpr, show dot d.q d.q = 1 from hq, one_mul] at hcs
    have : 0 < (2 * d.eigenval num o i) ^ 2 := by positivity
    linarith
  set H := d.hessian num o i with hH
  set D : M3 := Matrix.of fun a b => (H a b / (d.group num o).abs i - (d.group num o).velocity i a *
    H.mulVec ((d.group num o).velocity i) b / (d.group num o).abs i ^ 3) / (2 * d.phase num o i) with hD
  have hng : norm (slope c (f d.q i) d.q) = 2 * d.phase num o i * (d.group num o).abs i := by
    rw [hgq, norm_smul', abs_of_pos (by positivity)]
    rfl
  have hgabs : (d.group num o).abs i ≠ 0 := by
    intro h
    rw [h, mul_zero] at hng
    have := norm_sq (slope c (f d.q i) d.q)
    rw [hng] at this
    norm_num at this
    exact hpos.ne this
  have hHs : ∀ a b, H a b = H b a := by
    intro a b
    have hfd := hff d.q
    have hed := hfe d.q
    rw [hfq] at hfd hed
    rw [hωq] at hed
    have := hessian_symm hp hfd hed i a b
    rw [hH]
    unfold Dir.hessian
    rw [hhess]
    exact this
  have hder := direction_hasFDeriv hslope hpos (D := D) (fun u a => by
    rw [hng, hgq]
    have h1 : dot ((2 * d.phase num o i) • (d.group num o).velocity i) (H.mulVec u) =
        2 * d.phase num o i * dot (H.mulVec ((d.group num o).velocity i)) u := by
      rw [dot_comm, dot_smul, dot_comm, dot_mulVec_symm hHs]
    rw [h1]
    have h2 : D.mulVec u a = (H.mulVec u a / (d.group num o).abs i - (d.group num o).velocity i a *
        dot (H.mulVec ((d.group num o).velocity i)) u / (d.group num o).abs i ^ 3) / (2 * d.phase num o i) := by
      generalize H.mulVec ((d.group num o).velocity i) = y at hD
      rw [hD]
      simp only [Matrix.mulVec, dotProduct, Matrix.of_apply, dot, Fin.sum_univ_three]
      ring
    rw [h2, Pi.smul_apply, smul_eq_mul]
    have hph' := hph.ne'
    field_simp)
  refine ⟨fun p => ((towards p).group num o).dir i, D, norm ((cofactor D).mulVec d.q), fun p _ st => ?_, ?_, ?_,
    fun u v hu hv => area_mulVec D hq hu hv, rfl⟩
  · exact ⟨_, step_read (set_good (num := num) (o := o) (d := towards p) rfl st) .groupDir, rfl⟩
  · show ((towards d.q).group num o).dir i = _
    rw [hgroup]
  · refine hder.congr_of_eventuallyEq ?_
    have hcont : Tendsto (fun p => ω p i) (𝓝 d.q) (𝓝 (ω d.q i)) := by
      refine eigenvalue_tendsto (M := christoffel c) (hsω d.q) (hff d.q) (hfe d.q) hsω hff hfe (fun k m => ?_) i
      have : Continuous fun p : V3 => christoffel c p k m := by
        simp only [christoffel, Matrix.of_apply]
        fun_prop
      exact this.tendsto d.q
    have h0 : 0 < ω d.q i := by rw [hωq]; exact hw
    filter_upwards [hcont.eventually_const_lt h0] with p hp'
    exact hdir p hp'

/-- The hypotheses of `C118_rays` are met by the crystal `threeSpeeds` along its first axis. -/
example : ∃ num o, EighCorrect num ∧ PinvCorrect num ∧ seismic threeSpeeds 1000 = .ok o ∧
    (∀ i j, threeSpeeds i j = threeSpeeds j i) ∧
    ∀ w, (step num o (.read .eigenval) (step num o (.cartesian ![1, 0, 0]) {}).2).1 = .ok (.vec w) →
      ∀ n, 0 < w n ∧ ∀ j k, j ≠ n → |w n - w k| < 10 ^ 10 * |w n - w j| := by
  obtain ⟨num, hn, hp⟩ := exists_numerics
  have hsym : ∀ i j, threeSpeeds i j = threeSpeeds j i := by
    intro i j
    have : threeSpeeds.transpose = threeSpeeds := Matrix.diagonal_transpose _
    exact congrFun (congrFun this j) i
  have hdet : threeSpeeds.det ≠ 0 := by
    rw [threeSpeeds, Matrix.det_diagonal, Fin.prod_univ_six]
    simp
  obtain ⟨o, ho⟩ : ∃ o, seismic threeSpeeds 1000 = .ok o := by
    simp only [seismic]
    rw [if_neg hdet]
    exact ⟨_, rfl⟩
  refine ⟨num, o, hn, hp, ho, hsym, fun w hw => ?_⟩
  obtain ⟨q, w', g, H, hq, hw', -, -, hs, -⟩ := C40_eigenvalues num hn hp threeSpeeds hsym 1000
    (by norm_num) o ho (.cartesian ![1, 0, 0]) (Or.inr ⟨_, by
      intro h
      have := congrFun h 0
      simp at this, rfl⟩) {}
  rw [hw] at hw'
  cases hw'
  obtain ⟨theta, phi, hd⟩ : ∃ theta phi, (Op.cartesian ![1, 0, 0]).dir =
      some ⟨![1, 0, 0], theta, phi⟩ := by
    have hnorm : norm ![1, 0, 0] = 1 := by
      simp [norm, Fin.sum_univ_three]
    have hq1 : (fun i => (![1, 0, 0] : V3) i / norm ![1, 0, 0]) = ![1, 0, 0] := by
      funext i
      rw [hnorm, div_one]
    simp only [Op.dir]
    rw [hq1]
    exact ⟨_, _, rfl⟩
  have hq' : (step num o (.read .q) (step num o (.cartesian ![1, 0, 0]) {}).2).1 =
      .ok (.vec ![1, 0, 0]) := step_read (set_good (num := num) (o := o) hd {}) .q
  rw [hq'] at hq
  cases hq
  have hs2 : Spectrum (waveMatrix threeSpeeds 1000 ![1, 0, 0]) ![1, 2, 3] := by
    refine ⟨by simp, by simp; norm_num, ![![0, 0, 1], ![0, 1, 0], ![1, 0, 0]], ?_, ?_⟩
    · intro i j
      fin_cases i <;> fin_cases j <;> simp [dot, Fin.sum_univ_three]
    · intro i j
      fin_cases i <;> fin_cases j <;>
        simp [waveMatrix, acoustic, threeSpeeds, cTensor, vm, Fin.sum_univ_three,
          Matrix.diagonal] <;> norm_num
  have hu := spectrum_unique hs hs2
  subst hu
  intro n
  refine ⟨by fin_cases n <;> simp, fun j k => ?_⟩
  fin_cases n <;> fin_cases j <;> fin_cases k <;> simp <;> norm_num

end Verif.Seismic
