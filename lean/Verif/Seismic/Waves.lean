/-
Properties C37 (the two Christoffel implementations), C38 (isotropic media), C39 (group velocity).
-/
import Verif.Seismic.Cache
import Verif.Seismic.Eigen
import Verif.Elastic.Props

namespace Verif.Seismic
open Verif.Py Verif.Elastic Verif.Elastic.Spec Spec

/-! ### The two matrices -/

theorem elastic_eq (C : M6) (l : V3) (rho : ℝ) (hr : rho ≠ 0) :
    elasticChristoffel C l =
      rho • acoustic (fun i j k m => 10 ^ 9 * cTensor C i j k m) rho l := by
  ext i k
  fin_cases i <;> fin_cases k <;>
  · simp only [elasticChristoffel, divop, acoustic, cTensor, vm, Matrix.mul_apply,
      Matrix.transpose_apply, Matrix.smul_apply, Matrix.of_apply, Fin.sum_univ_three,
      Fin.sum_univ_six, Matrix.cons_val, smul_eq_mul, Fin.isValue, Fin.zero_eta, Fin.mk_one,
      Fin.reduceFinMk]
    rw [mul_div_cancel₀ _ hr]
    ring

theorem christoffel_eq {C : M6} {rho : ℝ} {o : Seismic} (ho : seismic C rho = .ok o)
    (hr : rho ≠ 0) (q : V3) :
    christoffel o.Cmat q =
      (1 / 10 ^ 6 : ℝ) • acoustic (fun i j k m => 10 ^ 9 * cTensor C i j k m) rho q := by
  obtain ⟨-, ho'⟩ := seismic_ok ho
  rw [ho']
  ext i k
  simp only [christoffel, acoustic, Matrix.smul_apply, Matrix.of_apply, Fin.sum_univ_three,
    smul_eq_mul]
  have e : ∀ a b c d, cTensor C a b c d = cTensor C a b d c := fun a b c d => by
    simp only [cTensor, vm_comm c d]
  field_simp
  simp only [e i _ k _]
  ring

theorem acoustic_symm {C : M6} (hC : ∀ i j, C i j = C j i) (rho : ℝ) (q : V3) (i k : Fin 3) :
    acoustic (fun i j k m => 10 ^ 9 * cTensor C i j k m) rho q i k =
      acoustic (fun i j k m => 10 ^ 9 * cTensor C i j k m) rho q k i := by
  simp only [acoustic, Matrix.of_apply]
  congr 1
  rw [Finset.sum_comm]
  refine Finset.sum_congr rfl fun a _ => Finset.sum_congr rfl fun b _ => ?_
  rw [show cTensor C i b k a = cTensor C k a i b from hC _ _]
  ring

theorem acoustic_quad (C : M6) (rho : ℝ) (q e : V3) :
    ∑ i, e i * ∑ k, acoustic (fun i j k m => 10 ^ 9 * cTensor C i j k m) rho q i k * e k =
      10 ^ 9 / rho *
        dotProduct ((divop q).transpose.mulVec e) (C.mulVec ((divop q).transpose.mulVec e)) := by
  simp only [acoustic, divop, cTensor, vm, Matrix.mulVec, dotProduct, Matrix.transpose_apply,
    Matrix.of_apply, Fin.sum_univ_three, Fin.sum_univ_six, Matrix.cons_val]
  ring

theorem divop_ne {q e : V3} (hq : UnitVector q) (he : UnitVector e) :
    (divop q).transpose.mulVec e ≠ 0 := by
  intro h
  have h0 := congrFun h 0
  have h1 := congrFun h 1
  have h2 := congrFun h 2
  have h3 := congrFun h 3
  have h4 := congrFun h 4
  have h5 := congrFun h 5
  simp only [divop, Matrix.mulVec, dotProduct, Matrix.transpose_apply, Matrix.of_apply,
    Fin.sum_univ_three, Matrix.cons_val, Pi.zero_apply] at h0 h1 h2 h3 h4 h5
  simp only [UnitVector, dot, Fin.sum_univ_three] at hq he
  have key : (q 0 * q 0 + q 1 * q 1 + q 2 * q 2) * (e 0 * e 0 + e 1 * e 1 + e 2 * e 2) +
      (q 0 * e 0 + q 1 * e 1 + q 2 * e 2) ^ 2 =
      2 * ((q 0 * e 0) ^ 2 + (q 1 * e 1) ^ 2 + (q 2 * e 2) ^ 2) + (q 2 * e 1 + q 1 * e 2) ^ 2 +
        (q 2 * e 0 + q 0 * e 2) ^ 2 + (q 1 * e 0 + q 0 * e 1) ^ 2 := by ring
  have z0 : q 0 * e 0 = 0 := by linarith
  have z1 : q 1 * e 1 = 0 := by linarith
  have z2 : q 2 * e 2 = 0 := by linarith
  have z3 : q 2 * e 1 + q 1 * e 2 = 0 := by linarith
  have z4 : q 2 * e 0 + q 0 * e 2 = 0 := by linarith
  have z5 : q 1 * e 0 + q 0 * e 1 = 0 := by linarith
  rw [hq, he, z0, z1, z2, z3, z4, z5] at key
  norm_num at key

theorem eigen_quad {M : M3} {w : ℝ} {e : V3} (h : Eigen M w e) (he : UnitVector e) :
    ∑ i, e i * ∑ k, M i k * e k = w := by
  rw [Finset.sum_congr rfl fun i _ => by rw [h i]]
  simp only [UnitVector, dot] at he
  calc ∑ i, e i * (w * e i) = w * ∑ i, e i * e i := by
        rw [Finset.mul_sum]; exact Finset.sum_congr rfl fun i _ => by ring
    _ = w := by rw [he, mul_one]

theorem acoustic_pos {C : M6} (hC : C.PosDef) {rho : ℝ} (hr : 0 < rho) {q e : V3}
    (hq : UnitVector q) (he : UnitVector e) {w : ℝ}
    (h : Eigen (acoustic (fun i j k m => 10 ^ 9 * cTensor C i j k m) rho q) w e) : 0 < w := by
  rw [← eigen_quad h he, acoustic_quad]
  have h0 : (0 : ℝ) < 10 ^ 9 / rho := by positivity
  refine mul_pos h0 (lt_of_lt_of_eq (quad_pos hC (divop_ne hq he)) ?_)
  simp only [dotProduct, Matrix.mulVec, Finset.mul_sum, mul_assoc]

/-- Multiplying a matrix by a positive number multiplies its spectrum. -/
theorem spectrum_smul {M : M3} {w : V3} {c : ℝ} (hc : 0 < c) (h : Spectrum M w) :
    Spectrum (c • M) fun i => c * w i := by
  obtain ⟨h1, h2, e, hf, he⟩ := h
  refine ⟨mul_le_mul_of_nonneg_left h1 hc.le, mul_le_mul_of_nonneg_left h2 hc.le, e, hf,
    fun i k => ?_⟩
  simp only [Matrix.smul_apply, smul_eq_mul, mul_assoc, ← Finset.mul_sum]
  rw [he i k]

theorem eigh_spectrum {num : Numerics} (hn : EighCorrect num) {M : M3} (hM : ∀ i j, M i j = M j i) :
    Spectrum M (num.eigh M).1 := by
  obtain ⟨h1, h2, hf, he⟩ := hn M hM
  exact ⟨h1, h2, _, hf, he⟩

theorem sortedEigh_spec {num : Numerics} (hn : EighCorrect num) {M : M3}
    (hM : ∀ i j, M i j = M j i) :
    (sortedEigh num M).1 0 ≤ (sortedEigh num M).1 1 ∧ (sortedEigh num M).1 1 ≤ (sortedEigh num M).1 2 ∧
    Frame (sortedEigh num M).2 ∧ ∀ i, Eigen M ((sortedEigh num M).1 i) ((sortedEigh num M).2 i) := by
  obtain ⟨h1, h2, hf, he⟩ := hn M hM
  have hmono : Monotone ((num.eigh M).1 ∘ Tuple.sort (num.eigh M).1) := Tuple.monotone_sort _
  refine ⟨hmono (by decide), hmono (by decide), fun i j => ?_, fun i => ?_⟩
  · have := hf (Tuple.sort (num.eigh M).1 i) (Tuple.sort (num.eigh M).1 j)
    simp only [EmbeddingLike.apply_eq_iff_eq] at this
    exact this
  · exact he (Tuple.sort (num.eigh M).1 i)

theorem sortedEigh_spectrum {num : Numerics} (hn : EighCorrect num) {M : M3}
    (hM : ∀ i j, M i j = M j i) : Spectrum M (sortedEigh num M).1 := by
  obtain ⟨h1, h2, hf, he⟩ := sortedEigh_spec hn hM
  exact ⟨h1, h2, _, hf, he⟩

theorem seismicVector_eq (t p : ℝ) : seismicVector t p = vector t p := rfl

theorem posDef_entries {C : M6} (hC : C.PosDef) (i j : Fin 6) : C i j = C j i :=
  (posDef_symm hC).apply j i

/-- C37, matrices: both modules diagonalise the acoustic matrix of the medium; the elastic module
has it multiplied by the density (SI units), the seismic module in (km/s)². -/
theorem C37_same_matrix (C : M6) (density : ℝ) (hr : density ≠ 0) (o : Seismic)
    (ho : seismic C density = .ok o) (n : V3) :
    (∀ i k, elasticChristoffel C n i k =
      density * acoustic (fun i j k m => 10 ^ 9 * cTensor C i j k m) density n i k) ∧
    (∀ i k, christoffel o.Cmat n i k =
      acoustic (fun i j k m => 10 ^ 9 * cTensor C i j k m) density n i k / 10 ^ 6) ∧
    ((∀ i j, C i j = C j i) → ∀ i k,
      elasticChristoffel C n i k = elasticChristoffel C n k i ∧
      christoffel o.Cmat n i k = christoffel o.Cmat n k i) := by
  have h1 := elastic_eq C n density hr
  have h2 := christoffel_eq ho hr n
  refine ⟨fun i k => by rw [h1]; rfl, fun i k => by rw [h2, Matrix.smul_apply, smul_eq_mul]; ring,
    fun hC i k => ?_⟩
  rw [h1, h2]
  simp only [Matrix.smul_apply]
  rw [acoustic_symm hC]
  exact ⟨rfl, rfl⟩

/-- C37, velocities: for a stable medium of positive density, both modules return the phase
velocities of the direction, in km/s and ascending order; they agree. -/
theorem C37_velocities (num : Numerics) (hn : EighCorrect num) (C : M6) (hC : C.PosDef)
    (density : ℝ) (hr : 0 < density) (s : Soec) (hs : soec C density = .ok s)
    (o : Seismic) (ho : seismic C density = .ok o) (theta phi : ℝ) :
    PhaseVelocities C density (vector theta phi) (Soec.phaseVelocity num s theta phi) ∧
    (∀ i, 0 < Soec.phaseVelocity num s theta phi i) ∧
    ∀ st, (step num o (.read .phaseVelocity) (step num o (.spherical theta phi) st).2).1 =
      .ok (.vec (Soec.phaseVelocity num s theta phi)) := by
  set n := vector theta phi with hnv
  set A := acoustic (fun i j k m => 10 ^ 9 * cTensor C i j k m) density n with hA
  have hs' : ∀ i j, C i j = C j i := posDef_entries hC
  have hAs : ∀ i j, A i j = A j i := acoustic_symm hs' density n
  obtain ⟨a, e, ha1, ha2, hf, he⟩ := exists_spectrum A hAs
  have hSa : Spectrum A a := ⟨ha1, ha2, e, hf, he⟩
  have hpos : ∀ i, 0 < a i := fun i =>
    acoustic_pos hC hr (vector_unit theta phi) (by have := hf i i; rwa [if_pos rfl] at this) (he i)
  -- the elastic module
  have hE : (num.eigh (elasticChristoffel C n)).1 = fun i => density * a i := by
    rw [elastic_eq C n density hr.ne']
    refine spectrum_unique (eigh_spectrum hn ?_) (spectrum_smul hr hSa)
    intro i j
    simp only [Matrix.smul_apply]
    rw [acoustic_symm hs']
  have hsC : s.C = C ∧ s.density = density := by
    obtain ⟨-, h⟩ := soec_ok hs
    rw [h]; exact ⟨rfl, rfl⟩
  have hV : Soec.phaseVelocity num s theta phi = fun i => Real.sqrt (a i) / 1000 := by
    funext i
    simp only [Soec.phaseVelocity]
    rw [hsC.1, hsC.2, ← hnv, hE]
    show Real.sqrt (density * a i / density) / 1000 = _
    rw [mul_div_cancel_left₀ _ hr.ne']
  refine ⟨⟨fun i => ?_, ?_⟩, fun i => ?_, fun st => ?_⟩
  · rw [hV]; exact div_nonneg (Real.sqrt_nonneg _) (by norm_num)
  · rw [hV]
    have : (fun i => (1000 * (Real.sqrt (a i) / 1000)) ^ 2) = a := by
      funext i
      rw [mul_div_cancel₀ _ (by norm_num : (1000 : ℝ) ≠ 0), Real.sq_sqrt (hpos i).le]
    rw [this]
    exact hSa
  · rw [hV]; exact div_pos (Real.sqrt_pos.2 (hpos i)) (by norm_num)
  · rw [step_read (d := ⟨seismicVector theta phi, theta, phi⟩) (set_good rfl st)]
    have hW : (sortedEigh num (christoffel o.Cmat n)).1 = fun i => 1 / 10 ^ 6 * a i := by
      have hM := christoffel_eq ho hr.ne' n
      rw [hM]
      refine spectrum_unique (sortedEigh_spectrum hn ?_) (spectrum_smul (by norm_num) hSa)
      intro i j
      simp only [Matrix.smul_apply]
      rw [acoustic_symm hs']
    have : Dir.phase num o ⟨seismicVector theta phi, theta, phi⟩ =
        Soec.phaseVelocity num s theta phi := by
      rw [hV]
      funext i
      show Real.sign ((sortedEigh num (christoffel o.Cmat n)).1 i) *
        Real.sqrt |(sortedEigh num (christoffel o.Cmat n)).1 i| = _
      rw [hW]
      have hp : 0 < 1 / 10 ^ 6 * a i := by have := hpos i; positivity
      rw [Real.sign_of_pos hp, abs_of_pos hp, one_mul, Real.sqrt_mul (by norm_num),
        show (1 / 10 ^ 6 : ℝ) = (1 / 1000) ^ 2 by norm_num, Real.sqrt_sq (by norm_num)]
      ring
    simp only [Dir.value, this]

/-- The hypotheses of C37 are met by isotropic media, among others. -/
example (K G : ℝ) (hK : 0 < K) (hG : 0 < G) :
    ∃ num s o, EighCorrect num ∧ soec (isotropic K G) 3000 = .ok s ∧
      seismic (isotropic K G) 3000 = .ok o := by
  obtain ⟨num, -, hn⟩ := exists_eighCorrect fun M => M
  have hd := posDef_det (isotropic_posDef hK hG)
  exact ⟨num, _, _, hn, if_neg hd, if_neg hd⟩

/-! ### Isotropic media -/

theorem iso_acoustic (K G rho : ℝ) (q : V3) (i k : Fin 3) :
    acoustic (fun i j k m => 10 ^ 9 * cTensor (isotropic K G) i j k m) rho q i k =
      10 ^ 9 / rho * (G * dot q q * (if i = k then 1 else 0) + (K + G / 3) * (q i * q k)) := by
  fin_cases i <;> fin_cases k <;>
  · simp [acoustic, cTensor, vm, isotropic, dot, Fin.sum_univ_three]
    ring

/-- The frame of a direction: two transverse vectors and the direction itself. -/
noncomputable def frameOf (theta phi : ℝ) : Fin 3 → V3 :=
  ![vectorChi theta phi 0, vectorChi theta phi (Real.pi / 2), vector theta phi]

theorem frameOf_frame (theta phi : ℝ) : Frame (frameOf theta phi) := by
  have h1 := Real.sin_sq_add_cos_sq theta
  have h2 := Real.sin_sq_add_cos_sq phi
  intro i j
  fin_cases i <;> fin_cases j <;>
    simp [frameOf, dot, vector, vectorChi, Fin.sum_univ_three]
  · linear_combination h1 + Real.cos theta ^ 2 * h2
  · ring
  · linear_combination Real.sin theta * Real.cos theta * h2
  · ring
  · linear_combination h2
  · ring
  · linear_combination Real.sin theta * Real.cos theta * h2
  · ring
  · linear_combination h1 + Real.sin theta ^ 2 * h2

theorem iso_spectrum {K G rho : ℝ} (hKG : 0 ≤ K + G / 3) (hr : 0 < rho) (theta phi : ℝ) :
    Spectrum (acoustic (fun i j k m => 10 ^ 9 * cTensor (isotropic K G) i j k m) rho
      (vector theta phi))
      ![10 ^ 9 * G / rho, 10 ^ 9 * G / rho, 10 ^ 9 * (K + 4 * G / 3) / rho] := by
  have hf := frameOf_frame theta phi
  have hu : dot (vector theta phi) (vector theta phi) = 1 := vector_unit theta phi
  refine ⟨le_rfl, ?_, frameOf theta phi, hf, fun i k => ?_⟩
  · show 10 ^ 9 * G / rho ≤ 10 ^ 9 * (K + 4 * G / 3) / rho
    gcongr
    linarith
  · have key : ∑ j, acoustic (fun i j k m => 10 ^ 9 * cTensor (isotropic K G) i j k m) rho
        (vector theta phi) k j * frameOf theta phi i j =
        10 ^ 9 / rho * (G * frameOf theta phi i k +
          (K + G / 3) * (vector theta phi k * dot (vector theta phi) (frameOf theta phi i))) := by
      simp only [iso_acoustic, hu]
      simp only [dot, Fin.sum_univ_three]
      fin_cases k <;> simp <;> ring
    rw [key]
    have h2 := hf 2 i
    rw [show frameOf theta phi 2 = vector theta phi from rfl] at h2
    rw [h2]
    fin_cases i
    · simp; ring
    · simp; ring
    · simp [frameOf]; ring

/-- C38: in an isotropic medium both modules return, for every direction, the shear velocity twice
and the longitudinal velocity; these are the isotropic velocities reported by both modules. -/
theorem C38_isotropic (num : Numerics) (hn : EighCorrect num) (K G density : ℝ) (hK : 0 < K)
    (hG : 0 < G) (hr : 0 < density) (s : Soec) (hs : soec (isotropic K G) density = .ok s)
    (o : Seismic) (ho : seismic (isotropic K G) density = .ok o) (theta phi : ℝ) :
    let vs := Real.sqrt (10 ^ 9 * G / density) / 1000
    let vp := Real.sqrt (10 ^ 9 * (K + 4 * G / 3) / density) / 1000
    Soec.phaseVelocity num s theta phi = ![vs, vs, vp] ∧
    (∀ st, (step num o (.read .phaseVelocity) (step num o (.spherical theta phi) st).2).1 =
      .ok (.vec ![vs, vs, vp])) ∧
    o.isotropicVelocity = ![vs, vs, vp] ∧
    ∀ st, (step num o (.read .relPhaseVelocity) (step num o (.spherical theta phi) st).2).1 =
      .ok (.vec fun _ => 1) := by
  intro vs vp
  obtain ⟨hpv, hpos, hread⟩ := C37_velocities num hn (isotropic K G) (isotropic_posDef hK hG)
    density hr s hs o ho theta phi
  have hsp := spectrum_unique hpv.2 (iso_spectrum (by positivity) hr theta phi)
  have h1 : Soec.phaseVelocity num s theta phi = ![vs, vs, vp] := by
    have key : ∀ i, Soec.phaseVelocity num s theta phi i =
        Real.sqrt (![10 ^ 9 * G / density, 10 ^ 9 * G / density,
          10 ^ 9 * (K + 4 * G / 3) / density] i) / 1000 := by
      intro i
      rw [← congrFun hsp i, Real.sqrt_sq (mul_nonneg (by norm_num) (hpv.1 i))]
      ring
    funext i
    rw [key]
    fin_cases i <;> rfl
  have hiso : o.isotropicVelocity = ![vs, vs, vp] := by
    obtain ⟨hk, hg⟩ := C36_isotropic K G density hK.ne' hG.ne' s hs s.averages.hill
      (Or.inr (Or.inr rfl))
    have hsd : s.density = density := by
      obtain ⟨-, h⟩ := soec_ok hs
      rw [h]
    rw [(C36_modules (isotropic K G) density hr.ne' s o hs ho).2.2]
    have e : ∀ x : ℝ, Real.sqrt (10 ^ 9 * x / density) / 1000 = Real.sqrt (1000 * x / density) := by
      intro x
      rw [show 10 ^ 9 * x / density = 1000 ^ 2 * (1000 * x / density) by ring,
        Real.sqrt_mul (by norm_num), Real.sqrt_sq (by norm_num)]
      ring
    simp only [Soec.isotropicVelocities, hk, hg, hsd, vs, vp, e]
  refine ⟨h1, fun st => by rw [hread, h1], hiso, fun st => ?_⟩
  have hd := hread st
  rw [step_read (d := ⟨seismicVector theta phi, theta, phi⟩) (set_good rfl st)] at hd ⊢
  simp only [Dir.value, Except.ok.injEq, Value.vec.injEq] at hd ⊢
  funext i
  rw [hd, hiso, h1]
  refine div_self ?_
  rw [← h1]
  exact (hpos i).ne'

end Verif.Seismic
