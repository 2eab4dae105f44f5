/-
Properties C175 (waves) and C176: the velocities in the sections of the elastic calculator and in the scans of the seismic one, in
the arithmetic of the computer.
-/
import Verif.Polar.Binary
import Verif.Seismic.BinaryProps

noncomputable section

namespace Verif.Seismic.Rounded
open Verif.Elastic Verif.Elastic.Rounded Verif.Elastic.Rounded.Spec Verif.Seismic.Spec Verif.Seismic.Rounded.Spec
open Verif.Grid.Binary (sectionAngles scanTheta scanPhi)

variable {m : Machine}

/-! ### Lemmas -/

/-- The computed matrix of the elastic calculator. -/
theorem elastic_bnd_along (hm : Accurate m) {C : M6} {N theta phi : ℝ} {D : V3}
    (hD : ∀ l, Bnd 40 1 (Rounded.vector m theta phi l) (D l)) (hN : ∀ i j, |C i j| ≤ N) {mult : Matrix (Fin 6) (Fin 3) ℝ} {A : M3}
    (h1 : Matmul m (Matrix.of fun i j => m.rnd (C i j * 1e9)) (divop (Rounded.vector m theta phi)).transpose mult)
    (h2 : Matmul m (divop (Rounded.vector m theta phi)) mult A) (i j : Fin 3) :
    Bnd 93.3 (9 * (10 ^ 9 * N)) (A i j) (elasticChristoffel C D i j) := by
  have hv := divop_bnd hD
  have hC : ∀ i j, Bnd 1.001 (10 ^ 9 * N) (m.rnd (C i j * 1e9)) (((1000000000 : ℝ) • C) i j) := fun i j => by
    have b : Bnd 0 (10 ^ 9 * N) (C i j * 1e9) (((1000000000 : ℝ) • C) i j) := by
      refine ⟨by simp [mul_comm]; norm_num, ?_, le_rfl⟩
      rw [Matrix.smul_apply, smul_eq_mul, abs_mul]
      refine mul_le_mul ?_ (hN i j) (abs_nonneg _) (by positivity)
      norm_num
    simpa using b.rnd hm (by norm_num)
  have c6 : (1 + u) ^ 6 - 1 ≤ ((6 : ℕ) + 0.001) * u := by norm_num [u]
  have hM : ∀ k, Bnd 47.1 (3 * (10 ^ 9 * N)) (mult k j) ((((1000000000 : ℝ) • C) * (divop D).transpose) k j) := by
    intro k
    have := sums_bnd hm (by norm_num) c6 (by norm_num) (by norm_num) (by norm_num) (by norm_num) (hC k) (fun i => hv j i) (h1 k j)
    refine (this.mono (n' := 47.1) (by norm_num) (le_of_eq ?_))
    rw [← Finset.mul_sum, places_sum]
    ring
  have := sums_bnd hm (by norm_num) c6 (by norm_num) (by norm_num) (by norm_num) (by norm_num) (hv i) hM (h2 i j)
  refine (this.mono (n' := 93.3) (by norm_num) (le_of_eq ?_))
  rw [← Finset.sum_mul, places_sum]
  ring

/-- The computed matrix of the seismic calculator. -/
theorem seismic_bnd_along (hm : Accurate m) {C : M6} {N density theta phi : ℝ} {D : V3}
    (hD : ∀ l, Bnd 40 1 (Rounded.vector m theta phi l) (D l)) (hd : 0 < density) (hN : ∀ i j, |C i j| ≤ N)
    {T : Fin 3 → Fin 3 → Fin 3 → ℝ} {M : M3}
    (h1 : ∀ a b d, Sums m (Rounded.vector m theta phi) (fun c => cmat m C density a b c d) (T a b d))
    (h2 : ∀ a d, Sums m (Rounded.vector m theta phi) (fun b => T a b d) (M a d)) (i j : Fin 3) :
    Bnd 93.3 (9 * (1000 / density * N)) (M i j)
      (christoffel (fun i j k l => cTensor C i j k l * (1000 / density)) D i j) := by
  have hv := hD
  have c3 : (1 + u) ^ 3 - 1 ≤ ((3 : ℕ) + 0.001) * u := by norm_num [u]
  have hd' : 0 < 1000 / density := by positivity
  have hC : ∀ a b c d, Bnd 2.01 (1000 / density * N) (cmat m C density a b c d) (cTensor C a b c d * (1000 / density)) := by
    intro a b c d
    have x : Bnd 0 N (cTensor C a b c d) (cTensor C a b c d) := ⟨by simp, hN _ _, le_rfl⟩
    have y := (Bnd.exact (1000 / density)).rnd hm (by norm_num)
    have z := (x.mul y (by norm_num) (by norm_num)).rnd hm (by norm_num)
    refine z.mono (by norm_num) (le_of_eq ?_)
    rw [abs_of_pos hd', mul_comm]
  have hT : ∀ a b d, Bnd 45.1 (3 * (1000 / density * N)) (T a b d)
      (∑ c, D c * (cTensor C a b c d * (1000 / density))) := fun a b d => by
    have := sums_bnd hm (by norm_num) c3 (by norm_num) (by norm_num) (by norm_num) (by norm_num) hv (fun c => hC a b c d) (h1 a b d)
    refine this.mono (by norm_num) (le_of_eq ?_)
    simp
  have := sums_bnd hm (by norm_num) c3 (by norm_num) (by norm_num) (by norm_num) (by norm_num) hv (fun b => hT i b j) (h2 i j)
  refine this.mono (n' := 93.3) (by norm_num) (le_of_eq ?_)
  simp
  ring

/-- The relative error of an eigenvalue. -/
theorem relative_error_along {η κ r n B l N : ℝ} (hη : 0 ≤ η) (hκ : 0 ≤ κ) (hn : n ≤ 93.3) (hB : N ≤ κ * l)
    (hr : r = (2530 * u + 9.01 * η) * κ) {w : ℝ} (hN : 0 ≤ N) (hb : B = 9 * N) (h : |w - l| ≤ (3 * n * u + 1.001 * η) * B) :
    |w - l| ≤ r * l := by
  have hu := u_pos
  calc |w - l| ≤ (3 * n * u + 1.001 * η) * B := h
    _ ≤ (3 * 93.3 * u + 1.001 * η) * B := by
        refine mul_le_mul_of_nonneg_right ?_ (by rw [hb]; positivity)
        nlinarith
    _ ≤ (2530 * u + 9.01 * η) * N := by
        rw [hb]
        nlinarith [mul_nonneg hu.le hN, mul_nonneg hη hN]
    _ ≤ (2530 * u + 9.01 * η) * (κ * l) := mul_le_mul_of_nonneg_left hB (by positivity)
    _ = r * l := by rw [hr]; ring

/-- The elastic calculator, when the computed direction is near `D`. -/
theorem elastic_along (hm : Accurate m) {η : ℝ} (hη : 0 ≤ η) {eigh : M3 → V3} (he : EighAccurate η eigh) {C : M6}
    (hC : ∀ i j, C i j = C j i) {density : ℝ} (hd : 0 < density) {theta phi : ℝ} {V D : V3}
    (hD : ∀ l, Bnd 40 1 (Rounded.vector m theta phi l) (D l))
    (hV : PhaseVelocities C density D V) {N : ℝ} (hN : ∀ i j, |C i j| ≤ N) (i : Fin 3) (hpos : 0 < V i)
    {κ : ℝ} (hκ : N ≤ κ * waveModulus density (V i)) (hs : (1400 * u + 5 * η) * κ ≤ 1 / 200) {v : V3}
    (hv : ElasticVelocities m eigh C density theta phi v) : |v i - V i| ≤ ((1400 * u + 5 * η) * κ + 3 * u) * V i := by
  obtain ⟨mult, A, h1, h2, rfl⟩ := hv
  have hN0 : 0 ≤ N := (abs_nonneg _).trans (hN 0 0)
  set l := density * (1000 * V i) ^ 2 with hl
  have hl0 : 0 < l := by positivity
  have hm0 : waveModulus density (V i) = l / 10 ^ 9 := rfl
  have hκ0 : 0 ≤ κ := by
    by_contra hc
    push Not at hc
    have : κ * waveModulus density (V i) < 0 := mul_neg_of_neg_of_pos hc (by rw [hm0]; positivity)
    linarith
  have hsym : ∀ i j, elasticChristoffel C D i j = elasticChristoffel C D j i := by
    intro i j
    rw [elastic_eq C _ density hd.ne', Matrix.smul_apply, Matrix.smul_apply, acoustic_symm hC]
  have hS : Spectrum (elasticChristoffel C D) fun i => density * (1000 * V i) ^ 2 := by
    rw [elastic_eq C _ density hd.ne']
    exact spectrum_smul hd hV.2
  have e0 := eigh_close he hsym hS (elastic_bnd_along hm hD hN h1 h2) hη (by norm_num) i
  have hu := u_pos
  have hu' := u_le
  set r := (2530 * u + 9.01 * η) * κ with hr
  have e1 : |eigh (lower A) i - l| ≤ r * l := by
    refine relative_error_along hη hκ0 le_rfl ?_ hr (N := 10 ^ 9 * N) (by positivity) rfl e0
    rw [hm0] at hκ
    linarith
  have hr0 : 0 ≤ r := by positivity
  have hrs : r ≤ 1.9 * ((1400 * u + 5 * η) * κ) := by
    rw [hr, ← mul_assoc]
    exact mul_le_mul_of_nonneg_right (by linarith) hκ0
  have hr1 : r ≤ 0.0095 := by linarith
  have hX : 0 < l / density := by positivity
  have e2 : |eigh (lower A) i / density - l / density| ≤ r * (l / density) := by
    rw [← sub_div, abs_div, abs_of_pos hd, mul_div_assoc']
    exact div_le_div_of_nonneg_right e1 hd.le
  have e3 := rnd_close hm hX (by linarith) e2
  obtain ⟨e4, -⟩ := sqrt_close hX (by linarith) e3
  have hroot : √(l / density) = 1000 * V i := by
    rw [hl, mul_div_cancel_left₀ _ hd.ne']
    exact Real.sqrt_sq (by positivity)
  rw [hroot] at e4
  have e5 := rnd_close hm (by positivity) (by linarith) e4
  have e6 : |m.rnd (√(m.rnd (eigh (lower A) i / density))) / 1000 - V i| ≤ (0.51 * (r + 1.02 * u) + 1.02 * u) * V i := by
    have : m.rnd (√(m.rnd (eigh (lower A) i / density))) / 1000 - V i =
        (m.rnd (√(m.rnd (eigh (lower A) i / density))) - 1000 * V i) / 1000 := by ring
    rw [this, abs_div, abs_of_pos (by norm_num : (0 : ℝ) < 1000), div_le_iff₀ (by norm_num)]
    linarith
  have e7 := rnd_close hm hpos (by linarith) e6
  refine e7.trans (mul_le_mul_of_nonneg_right ?_ hpos.le)
  linarith

/-- The seismic calculator, when the computed direction is near `D`. -/
theorem seismic_along (hm : Accurate m) {η : ℝ} (hη : 0 ≤ η) {eigh : M3 → V3} (he : EighAccurate η eigh) {C : M6}
    (hC : ∀ i j, C i j = C j i) {density : ℝ} (hd : 0 < density) {theta phi : ℝ} {V D : V3}
    (hD : ∀ l, Bnd 40 1 (Rounded.vector m theta phi l) (D l))
    (hV : PhaseVelocities C density D V) {N : ℝ} (hN : ∀ i j, |C i j| ≤ N) (i : Fin 3) (hpos : 0 < V i)
    {κ : ℝ} (hκ : N ≤ κ * waveModulus density (V i)) (hs : (1400 * u + 5 * η) * κ ≤ 1 / 200) {v : V3}
    (hv : SeismicVelocities m eigh C density theta phi v) : |v i - V i| ≤ ((1400 * u + 5 * η) * κ + 3 * u) * V i := by
  obtain ⟨T, M, h1, h2, rfl⟩ := hv
  have hN0 : 0 ≤ N := (abs_nonneg _).trans (hN 0 0)
  have hsort : Tuple.sort (eigh (lower M)) = Equiv.refl _ := Tuple.sort_eq_refl_iff_monotone.2 (he.ascending _)
  simp only [hsort, Equiv.coe_refl, Function.comp_id]
  set l := V i ^ 2 with hl
  have hl0 : 0 < l := by positivity
  have hm0 : waveModulus density (V i) = density * l / 1000 := by
    rw [waveModulus, hl]
    ring
  have hκ0 : 0 ≤ κ := by
    by_contra hc
    push Not at hc
    have : κ * waveModulus density (V i) < 0 := mul_neg_of_neg_of_pos hc (by rw [hm0]; positivity)
    linarith
  set A : M3 := christoffel (fun i j k l => cTensor C i j k l * (1000 / density)) D with hA
  have hAe : A = (1 / 10 ^ 6 : ℝ) • acoustic (fun i j k m => 10 ^ 9 * cTensor C i j k m) density D := by
    ext a d
    simp only [hA, christoffel, acoustic, Matrix.of_apply, Matrix.smul_apply, smul_eq_mul, Finset.sum_div, Finset.mul_sum]
    refine Finset.sum_congr rfl fun b _ => Finset.sum_congr rfl fun c _ => ?_
    rw [show cTensor C a b c d = cTensor C a b d c by unfold cTensor; rw [vm_comm c d]]
    ring
  have hsym : ∀ i j, A i j = A j i := by
    intro i j
    rw [hAe, Matrix.smul_apply, Matrix.smul_apply, acoustic_symm hC]
  have hS : Spectrum A fun i => V i ^ 2 := by
    have := spectrum_smul (c := 1 / 10 ^ 6) (by norm_num) hV.2
    rw [hAe]
    convert this using 2
    ring
  have e0 := eigh_close he hsym hS (seismic_bnd_along hm hD hd hN h1 h2) hη (by norm_num) i
  have hu := u_pos
  have hu' := u_le
  set r := (2530 * u + 9.01 * η) * κ with hr
  have e1 : |eigh (lower M) i - l| ≤ r * l := by
    refine relative_error_along hη hκ0 (by norm_num) ?_ hr (N := 1000 / density * N) (by positivity) rfl e0
    rw [hm0] at hκ
    rw [div_mul_eq_mul_div, div_le_iff₀ hd]
    linarith
  have hr0 : 0 ≤ r := by positivity
  have hrs : r ≤ 1.9 * ((1400 * u + 5 * η) * κ) := by
    rw [hr, ← mul_assoc]
    exact mul_le_mul_of_nonneg_right (by linarith) hκ0
  have hr1 : r ≤ 0.0095 := by linarith
  obtain ⟨e4, e5⟩ := sqrt_close hl0 (by linarith) e1
  have hroot : √l = V i := Real.sqrt_sq hpos.le
  rw [hroot] at e4
  have e6 := rnd_close hm hpos (by linarith) e4
  rw [Real.sign_of_pos e5, one_mul, abs_of_pos e5]
  have e7 := rnd_close hm hpos (by linarith) e6
  refine e7.trans (mul_le_mul_of_nonneg_right ?_ hpos.le)
  linarith

/-- The computed direction of a node of a scan. -/
theorem scan_bnd (hm : Accurate m) {ntheta nphi : ℕ} (ht : 2 ≤ ntheta) (hp : 2 ≤ nphi) (ht' : ntheta ≤ 2 ^ 49) (hp' : nphi ≤ 2 ^ 49)
    {a b : ℕ} (ha : a < ntheta) (hb : b < nphi) (l : Fin 3) :
    Bnd 40 1 (Rounded.vector m (scanTheta ntheta a) (scanPhi nphi b) l)
      (Elastic.vector (Real.pi * a / (2 * ((ntheta : ℝ) - 1))) (2 * Real.pi * b / ((nphi : ℝ) - 1)) l) := by
  have h := Grid.Binary.C173_directions ntheta nphi ht hp ht' hp' a b ha hb l
  have e := (bnd_vector hm (scanTheta ntheta a) (scanPhi nphi b) l).err
  refine ⟨?_, (bnd_vector hm _ _ l).le, by norm_num⟩
  refine (abs_sub_le _ _ _).trans ((add_le_add e h).trans ?_)
  norm_num [u]

/-! ### Properties -/

/-- C175, waves: the velocities in row `i` of a section of the elastic calculator are those of the three waves along the direction of
the angle `360 i / (n - 1)` on the plane, up to the relative error `(1400 u + 5 η) κ + 3 u` (see C161). -/
theorem C175_waves (hm : Accurate m) (η : ℝ) (hη : 0 ≤ η) (eigh : M3 → V3) (he : EighAccurate η eigh) (C : M6)
    (hC : ∀ i j, C i j = C j i) (density : ℝ) (hd : 0 < density) (n : ℕ) (hn : 2 ≤ n) (hmax : n ≤ 2 ^ 49) (k : Polar.Plane) (i : ℕ)
    (hi : i < n) (V : V3) (hV : PhaseVelocities C density (Polar.Spec.direction k (Polar.radians (Polar.Spec.angle n i))) V)
    (N : ℝ) (hN : ∀ i j, |C i j| ≤ N) (j : Fin 3) (hpos : 0 < V j) (κ : ℝ) (hκ : N ≤ κ * waveModulus density (V j))
    (hs : (1400 * u + 5 * η) * κ ≤ 1 / 200) :
    ∃ t, (sectionAngles n)[i]? = some t ∧
      ∀ v, ElasticVelocities m eigh C density (Polar.angles64 k t).1 (Polar.angles64 k t).2 v →
        |v j - V j| ≤ ((1400 * u + 5 * η) * κ + 3 * u) * V j := by
  obtain ⟨t, e, ht, -⟩ := Polar.node_near hn hmax hi
  refine ⟨t, e, fun v hv => ?_⟩
  exact elastic_along hm hη he hC hd (fun l => (Polar.node_bnd hm k ht l).mono (by norm_num) le_rfl) hV hN j hpos hκ hs hv

/-- C176: the velocities of a node of a scan of the seismic calculator are those of the three waves along the direction with the
polar angle `π a / (2 (ntheta - 1))` and the azimuth `2 π b / (nphi - 1)`, up to the relative error `(1400 u + 5 η) κ + 3 u`. -/
theorem C176_scan (hm : Accurate m) (η : ℝ) (hη : 0 ≤ η) (eigh : M3 → V3) (he : EighAccurate η eigh) (C : M6)
    (hC : ∀ i j, C i j = C j i) (density : ℝ) (hd : 0 < density) (ntheta nphi : ℕ) (ht : 2 ≤ ntheta) (hp : 2 ≤ nphi)
    (ht' : ntheta ≤ 2 ^ 49) (hp' : nphi ≤ 2 ^ 49) (a b : ℕ) (ha : a < ntheta) (hb : b < nphi) (V : V3)
    (hV : PhaseVelocities C density
      (Elastic.vector (Real.pi * a / (2 * ((ntheta : ℝ) - 1))) (2 * Real.pi * b / ((nphi : ℝ) - 1))) V)
    (N : ℝ) (hN : ∀ i j, |C i j| ≤ N) (j : Fin 3) (hpos : 0 < V j) (κ : ℝ) (hκ : N ≤ κ * waveModulus density (V j))
    (hs : (1400 * u + 5 * η) * κ ≤ 1 / 200) (v : V3)
    (hv : SeismicVelocities m eigh C density (scanTheta ntheta a) (scanPhi nphi b) v) :
    |v j - V j| ≤ ((1400 * u + 5 * η) * κ + 3 * u) * V j :=
  seismic_along hm hη he hC hd (scan_bnd hm ht hp ht' hp' ha hb) hV hN j hpos hκ hs hv

end Verif.Seismic.Rounded
