/-
C161: phase velocities in the arithmetic of the computer.
-/
import Verif.Seismic.BinaryLemmas
import Verif.Seismic.Waves

noncomputable section

namespace Verif.Seismic.Rounded
open Verif.Elastic Verif.Elastic.Rounded Verif.Elastic.Rounded.Spec Verif.Seismic.Spec Verif.Seismic.Rounded.Spec

variable {m : Machine}

/-- The places of the divergence operator that are not zero. -/
def places : Matrix (Fin 3) (Fin 6) ℝ := divop fun _ => 1

theorem divop_bnd {n : ℝ} {l l' : V3} (h : ∀ i, Bnd n 1 (l i) (l' i)) (i : Fin 3) (k : Fin 6) :
    Bnd n (places i k) (divop l i k) (divop l' i k) := by
  have z : Bnd n 0 0 0 := ⟨by simp, by simp, (h 0).nonneg⟩
  fin_cases i <;> fin_cases k <;> first | exact h 0 | exact h 1 | exact h 2 | exact z

theorem places_sum (i : Fin 3) : ∑ k, places i k = 3 := by
  fin_cases i <;> simp [places, divop, Fin.sum_univ_six] <;> norm_num

/-- The computed matrix of the elastic calculator. -/
theorem elastic_bnd (hm : Accurate m) {C : M6} {N theta phi : ℝ} (hN : ∀ i j, |C i j| ≤ N) {mult : Matrix (Fin 6) (Fin 3) ℝ} {A : M3}
    (h1 : Matmul m (Matrix.of fun i j => m.rnd (C i j * 1e9)) (divop (Rounded.vector m theta phi)).transpose mult)
    (h2 : Matmul m (divop (Rounded.vector m theta phi)) mult A) (i j : Fin 3) :
    Bnd 23.2 (9 * (10 ^ 9 * N)) (A i j) (elasticChristoffel C (Elastic.vector theta phi) i j) := by
  have hv := divop_bnd (bnd_vector hm theta phi)
  have hC : ∀ i j, Bnd 1.001 (10 ^ 9 * N) (m.rnd (C i j * 1e9)) (((1000000000 : ℝ) • C) i j) := fun i j => by
    have b : Bnd 0 (10 ^ 9 * N) (C i j * 1e9) (((1000000000 : ℝ) • C) i j) := by
      refine ⟨by simp [mul_comm]; norm_num, ?_, le_rfl⟩
      rw [Matrix.smul_apply, smul_eq_mul, abs_mul]
      refine mul_le_mul ?_ (hN i j) (abs_nonneg _) (by positivity)
      norm_num
    simpa using b.rnd hm (by norm_num)
  have c6 : (1 + u) ^ 6 - 1 ≤ ((6 : ℕ) + 0.001) * u := by norm_num [u]
  have hM : ∀ k, Bnd 12.1 (3 * (10 ^ 9 * N)) (mult k j) ((((1000000000 : ℝ) • C) * (divop (Elastic.vector theta phi)).transpose) k j) := by
    intro k
    have := sums_bnd hm (by norm_num) c6 (by norm_num) (by norm_num) (by norm_num) (by norm_num) (hC k) (fun i => hv j i) (h1 k j)
    refine (this.mono (n' := 12.1) (by norm_num) (le_of_eq ?_))
    rw [← Finset.mul_sum, places_sum]
    ring
  have := sums_bnd hm (by norm_num) c6 (by norm_num) (by norm_num) (by norm_num) (by norm_num) (hv i) hM (h2 i j)
  refine (this.mono (n' := 23.2) (by norm_num) (le_of_eq ?_))
  rw [← Finset.sum_mul, places_sum]
  ring

/-- The computed matrix of the seismic calculator. -/
theorem seismic_bnd (hm : Accurate m) {C : M6} {N density theta phi : ℝ} (hd : 0 < density) (hN : ∀ i j, |C i j| ≤ N)
    {T : Fin 3 → Fin 3 → Fin 3 → ℝ} {M : M3}
    (h1 : ∀ a b d, Sums m (Rounded.vector m theta phi) (fun c => cmat m C density a b c d) (T a b d))
    (h2 : ∀ a d, Sums m (Rounded.vector m theta phi) (fun b => T a b d) (M a d)) (i j : Fin 3) :
    Bnd 18.2 (9 * (1000 / density * N)) (M i j)
      (christoffel (fun i j k l => cTensor C i j k l * (1000 / density)) (Elastic.vector theta phi) i j) := by
  have hv := bnd_vector hm theta phi
  have c3 : (1 + u) ^ 3 - 1 ≤ ((3 : ℕ) + 0.001) * u := by norm_num [u]
  have hd' : 0 < 1000 / density := by positivity
  have hC : ∀ a b c d, Bnd 2.01 (1000 / density * N) (cmat m C density a b c d) (cTensor C a b c d * (1000 / density)) := by
    intro a b c d
    have x : Bnd 0 N (cTensor C a b c d) (cTensor C a b c d) := ⟨by simp, hN _ _, le_rfl⟩
    have y := (Bnd.exact (1000 / density)).rnd hm (by norm_num)
    have z := (x.mul y (by norm_num) (by norm_num)).rnd hm (by norm_num)
    refine z.mono (by norm_num) (le_of_eq ?_)
    rw [abs_of_pos hd', mul_comm]
  have hT : ∀ a b d, Bnd 10.1 (3 * (1000 / density * N)) (T a b d)
      (∑ c, Elastic.vector theta phi c * (cTensor C a b c d * (1000 / density))) := fun a b d => by
    have := sums_bnd hm (by norm_num) c3 (by norm_num) (by norm_num) (by norm_num) (by norm_num) hv (fun c => hC a b c d) (h1 a b d)
    refine this.mono (by norm_num) (le_of_eq ?_)
    simp
  have := sums_bnd hm (by norm_num) c3 (by norm_num) (by norm_num) (by norm_num) (by norm_num) hv (fun b => hT i b j) (h2 i j)
  refine this.mono (n' := 18.2) (by norm_num) (le_of_eq ?_)
  simp
  ring

/-- The relative error of an eigenvalue. -/
theorem relative_error {η κ r n B l N : ℝ} (hη : 0 ≤ η) (hκ : 0 ≤ κ) (hn : n ≤ 23.2) (hB : N ≤ κ * l)
    (hr : r = (627 * u + 9.01 * η) * κ) {w : ℝ} (hN : 0 ≤ N) (hb : B = 9 * N) (h : |w - l| ≤ (3 * n * u + 1.001 * η) * B) :
    |w - l| ≤ r * l := by
  have hu := u_pos
  calc |w - l| ≤ (3 * n * u + 1.001 * η) * B := h
    _ ≤ (3 * 23.2 * u + 1.001 * η) * B := by
        refine mul_le_mul_of_nonneg_right ?_ (by rw [hb]; positivity)
        nlinarith
    _ ≤ (627 * u + 9.01 * η) * N := by
        rw [hb]
        nlinarith [mul_nonneg hu.le hN, mul_nonneg hη hN]
    _ ≤ (627 * u + 9.01 * η) * (κ * l) := mul_le_mul_of_nonneg_left hB (by positivity)
    _ = r * l := by rw [hr]; ring

/-- **C161 (elastic calculator).**  Each of the three phase velocities has a relative error of at most `(340 u + 5 η) κ + 3 u`, where
`u` is the precision, `η` the accuracy of the eigenvalues of the library, and `κ` the ratio of the largest modulus to the
modulus that the wave probes. -/
theorem C161_elastic (hm : Accurate m) {η : ℝ} (hη : 0 ≤ η) {eigh : M3 → V3} (he : EighAccurate η eigh) {C : M6}
    (hC : ∀ i j, C i j = C j i) {density : ℝ} (hd : 0 < density) {theta phi : ℝ} {V : V3}
    (hV : PhaseVelocities C density (Elastic.vector theta phi) V) {N : ℝ} (hN : ∀ i j, |C i j| ≤ N) (i : Fin 3) (hpos : 0 < V i)
    {κ : ℝ} (hκ : N ≤ κ * waveModulus density (V i)) (hs : (340 * u + 5 * η) * κ ≤ 1 / 200) {v : V3}
    (hv : ElasticVelocities m eigh C density theta phi v) : |v i - V i| ≤ ((340 * u + 5 * η) * κ + 3 * u) * V i := by
  obtain ⟨mult, A, h1, h2, rfl⟩ := hv
  have hN0 : 0 ≤ N := (abs_nonneg _).trans (hN 0 0)
  set l := density * (1000 * V i) ^ 2 with hl
  have hl0 : 0 < l := by positivity
  have hm0 : waveModulus density (V i) = l / 10 ^ 9 := rfl
  have hκ0 : 0 ≤ κ := by
    by_contra hc
    push Not at hc
    have : κ * waveModulus density (V i) < 0 := mul_neg_of_neg_of_pos hc (by rw [hm0]; positivity)
    linarith
  have hsym : ∀ i j, elasticChristoffel C (Elastic.vector theta phi) i j = elasticChristoffel C (Elastic.vector theta phi) j i := by
    intro i j
    rw [elastic_eq C _ density hd.ne', Matrix.smul_apply, Matrix.smul_apply, acoustic_symm hC]
  have hS : Spectrum (elasticChristoffel C (Elastic.vector theta phi)) fun i => density * (1000 * V i) ^ 2 := by
    rw [elastic_eq C _ density hd.ne']
    exact spectrum_smul hd hV.2
  have e0 := eigh_close he hsym hS (elastic_bnd hm hN h1 h2) hη (by norm_num) i
  have hu := u_pos
  have hu' := u_le
  set r := (627 * u + 9.01 * η) * κ with hr
  have e1 : |eigh (lower A) i - l| ≤ r * l := by
    refine relative_error hη hκ0 le_rfl ?_ hr (N := 10 ^ 9 * N) (by positivity) rfl e0
    rw [hm0] at hκ
    linarith
  have hr0 : 0 ≤ r := by positivity
  have hrs : r ≤ 1.9 * ((340 * u + 5 * η) * κ) := by
    rw [hr, ← mul_assoc]
    exact mul_le_mul_of_nonneg_right (by linarith) hκ0
  have hr1 : r ≤ 0.0095 := by linarith
  have hX : 0 < l / density := by positivity
  have e2 : |eigh (lower A) i / density - l / density| ≤ r * (l / density) := by
    rw [← sub_div, abs_div, abs_of_pos hd, mul_div_assoc']
    exact div_le_div_of_nonneg_right e1 hd.le
  have e3 := rnd_close hm hX (by linarith) e2
  obtain ⟨e4, -⟩ := sqrt_close hX (by linarith) e3
  have hroot : √(l / density) = 1000 * V i := by
    rw [hl, mul_div_cancel_left₀ _ hd.ne']
    exact Real.sqrt_sq (by positivity)
  rw [hroot] at e4
  have e5 := rnd_close hm (by positivity) (by linarith) e4
  have e6 : |m.rnd (√(m.rnd (eigh (lower A) i / density))) / 1000 - V i| ≤ (0.51 * (r + 1.02 * u) + 1.02 * u) * V i := by
    have : m.rnd (√(m.rnd (eigh (lower A) i / density))) / 1000 - V i =
        (m.rnd (√(m.rnd (eigh (lower A) i / density))) - 1000 * V i) / 1000 := by ring
    rw [this, abs_div, abs_of_pos (by norm_num : (0 : ℝ) < 1000), div_le_iff₀ (by norm_num)]
    linarith
  have e7 := rnd_close hm hpos (by linarith) e6
  refine e7.trans (mul_le_mul_of_nonneg_right ?_ hpos.le)
  linarith

/-- **C161 (seismic calculator).**  The same holds for the velocities of the seismic calculator. -/
theorem C161_seismic (hm : Accurate m) {η : ℝ} (hη : 0 ≤ η) {eigh : M3 → V3} (he : EighAccurate η eigh) {C : M6}
    (hC : ∀ i j, C i j = C j i) {density : ℝ} (hd : 0 < density) {theta phi : ℝ} {V : V3}
    (hV : PhaseVelocities C density (Elastic.vector theta phi) V) {N : ℝ} (hN : ∀ i j, |C i j| ≤ N) (i : Fin 3) (hpos : 0 < V i)
    {κ : ℝ} (hκ : N ≤ κ * waveModulus density (V i)) (hs : (340 * u + 5 * η) * κ ≤ 1 / 200) {v : V3}
    (hv : SeismicVelocities m eigh C density theta phi v) : |v i - V i| ≤ ((340 * u + 5 * η) * κ + 3 * u) * V i := by
  obtain ⟨T, M, h1, h2, rfl⟩ := hv
  have hN0 : 0 ≤ N := (abs_nonneg _).trans (hN 0 0)
  have hsort : Tuple.sort (eigh (lower M)) = Equiv.refl _ := Tuple.sort_eq_refl_iff_monotone.2 (he.ascending _)
  simp only [hsort, Equiv.coe_refl, Function.comp_id]
  set l := V i ^ 2 with hl
  have hl0 : 0 < l := by positivity
  have hm0 : waveModulus density (V i) = density * l / 1000 := by
    rw [waveModulus, hl]
    ring
  have hκ0 : 0 ≤ κ := by
    by_contra hc
    push Not at hc
    have : κ * waveModulus density (V i) < 0 := mul_neg_of_neg_of_pos hc (by rw [hm0]; positivity)
    linarith
  set A : M3 := christoffel (fun i j k l => cTensor C i j k l * (1000 / density)) (Elastic.vector theta phi) with hA
  have hAe : A = (1 / 10 ^ 6 : ℝ) • acoustic (fun i j k m => 10 ^ 9 * cTensor C i j k m) density (Elastic.vector theta phi) := by
    ext a d
    simp only [hA, christoffel, acoustic, Matrix.of_apply, Matrix.smul_apply, smul_eq_mul, Finset.sum_div, Finset.mul_sum]
    refine Finset.sum_congr rfl fun b _ => Finset.sum_congr rfl fun c _ => ?_
    rw [show cTensor C a b c d = cTensor C a b d c by unfold cTensor; rw [vm_comm c d]]
    ring
  have hsym : ∀ i j, A i j = A j i := by
    intro i j
    rw [hAe, Matrix.smul_apply, Matrix.smul_apply, acoustic_symm hC]
  have hS : Spectrum A fun i => V i ^ 2 := by
    have := spectrum_smul (c := 1 / 10 ^ 6) (by norm_num) hV.2
    rw [hAe]
    convert this using 2
    ring
  have e0 := eigh_close he hsym hS (seismic_bnd hm hd hN h1 h2) hη (by norm_num) i
  have hu := u_pos
  have hu' := u_le
  set r := (627 * u + 9.01 * η) * κ with hr
  have e1 : |eigh (lower M) i - l| ≤ r * l := by
    refine relative_error hη hκ0 (by norm_num) ?_ hr (N := 1000 / density * N) (by positivity) rfl e0
    rw [hm0] at hκ
    rw [div_mul_eq_mul_div, div_le_iff₀ hd]
    linarith
  have hr0 : 0 ≤ r := by positivity
  have hrs : r ≤ 1.9 * ((340 * u + 5 * η) * κ) := by
    rw [hr, ← mul_assoc]
    exact mul_le_mul_of_nonneg_right (by linarith) hκ0
  have hr1 : r ≤ 0.0095 := by linarith
  obtain ⟨e4, e5⟩ := sqrt_close hl0 (by linarith) e1
  have hroot : √l = V i := Real.sqrt_sq hpos.le
  rw [hroot] at e4
  have e6 := rnd_close hm hpos (by linarith) e4
  rw [Real.sign_of_pos e5, one_mul, abs_of_pos e5]
  have e7 := rnd_close hm hpos (by linarith) e6
  refine e7.trans (mul_le_mul_of_nonneg_right ?_ hpos.le)
  linarith

/-- **C161 (agreement).**  On the computer the two calculators, which order the operations differently, give velocities that agree
to within twice that error. -/
theorem C161_agree (hm : Accurate m) {η : ℝ} (hη : 0 ≤ η) {eigh : M3 → V3} (he : EighAccurate η eigh) {C : M6}
    (hC : C.PosDef) {density : ℝ} (hd : 0 < density) {theta phi : ℝ} {N : ℝ} (hN : ∀ i j, |C i j| ≤ N) {κ : ℝ}
    (hκ : ∀ V, PhaseVelocities C density (Elastic.vector theta phi) V → ∀ i, N ≤ κ * waveModulus density (V i))
    (hs : (340 * u + 5 * η) * κ ≤ 1 / 200) {v v' : V3} (hv : ElasticVelocities m eigh C density theta phi v)
    (hv' : SeismicVelocities m eigh C density theta phi v') (i : Fin 3) :
    |v i - v' i| ≤ 2.1 * ((340 * u + 5 * η) * κ + 3 * u) * v' i := by
  have hsym := posDef_entries hC
  obtain ⟨a, e, h1, h2, hf, h3⟩ := exists_spectrum (acoustic (fun i j k m => 10 ^ 9 * cTensor C i j k m) density
    (Elastic.vector theta phi)) (acoustic_symm hsym density _)
  have ha : ∀ i, 0 < a i := fun i =>
    acoustic_pos hC hd (vector_unit theta phi) (by have := hf i i; rwa [if_pos rfl] at this) (h3 i)
  set V : V3 := fun i => √(a i) / 1000 with hVdef
  have hpos : ∀ i, 0 < V i := fun i => div_pos (Real.sqrt_pos.2 (ha i)) (by norm_num)
  have hV : PhaseVelocities C density (Elastic.vector theta phi) V := by
    refine ⟨fun i => (hpos i).le, ?_⟩
    have e1 : (fun i => (1000 * V i) ^ 2) = a := by
      funext i
      rw [hVdef]
      simp only
      rw [mul_div_cancel₀ _ (by norm_num), Real.sq_sqrt (ha i).le]
    rw [e1]
    exact ⟨h1, h2, e, hf, h3⟩
  have x := C161_elastic hm hη he hsym hd hV hN i (hpos i) (hκ V hV i) hs hv
  have y := C161_seismic hm hη he hsym hd hV hN i (hpos i) (hκ V hV i) hs hv'
  have hκ0 : 0 ≤ κ := by
    by_contra hc
    push Not at hc
    have : κ * waveModulus density (V i) < 0 := mul_neg_of_neg_of_pos hc (by
      have := hpos i
      unfold waveModulus
      positivity)
    linarith [hκ V hV i, (abs_nonneg _).trans (hN 0 0)]
  have hu := u_pos
  have hu' := u_le
  set ε := (340 * u + 5 * η) * κ + 3 * u with hε
  have hε0 : 0 ≤ ε := by positivity
  have hε1 : ε ≤ 0.006 := by linarith
  have y1 := (abs_le.1 y).1
  have y2 : V i ≤ 1.05 * v' i := by
    have := mul_le_mul_of_nonneg_right hε1 (hpos i).le
    have := hpos i
    linarith
  have z := abs_sub_le (v i) (V i) (v' i)
  rw [abs_sub_comm (V i)] at z
  have := mul_le_mul_of_nonneg_left y2 hε0
  linarith

end Verif.Seismic.Rounded
