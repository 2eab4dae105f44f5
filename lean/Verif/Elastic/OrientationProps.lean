/-
Property C133: the Reuss and Voigt averages are means over all orientations.
-/
import Verif.Elastic.Orientation
import Verif.Elastic.RunProps
import Verif.Seismic.SumRules

namespace Verif.Elastic
open Verif.Py Spec

/-! ### Means of tensors -/

theorem contract4_cont (T : T4) : Continuous fun x : ℝ × ℝ => contract4 T (vector x.1 x.2) (vector x.1 x.2) (vector x.1 x.2)
    (vector x.1 x.2) := by
  unfold contract4
  have := vector_continuous
  fun_prop

theorem mean_contract2 (A : T2) :
    directionMean (fun t p => ∑ i, ∑ j, A i j * (vector t p i * vector t p j)) = (∑ i, A i i) / 3 := by
  have hv := vector_continuous
  rw [directionMean_sum (fun i => by fun_prop), Finset.sum_div]
  refine Finset.sum_congr rfl fun i _ => ?_
  rw [directionMean_sum (fun j => by fun_prop)]
  simp only [directionMean_mul, mean_two, delta]
  simp only [ite_div, zero_div, mul_ite, mul_zero, Finset.sum_ite_eq, Finset.mem_univ, if_true]
  ring

theorem delta_00 : delta 0 0 = 1 := by simp [delta]
theorem delta_01 : delta 0 1 = 0 := by simp [delta]
theorem delta_02 : delta 0 2 = 0 := by simp [delta]
theorem delta_10 : delta 1 0 = 0 := by simp [delta]
theorem delta_11 : delta 1 1 = 1 := by simp [delta]
theorem delta_12 : delta 1 2 = 0 := by simp [delta]
theorem delta_20 : delta 2 0 = 0 := by simp [delta]
theorem delta_21 : delta 2 1 = 0 := by simp [delta]
theorem delta_22 : delta 2 2 = 1 := by simp [delta]

theorem mean_contract4 (T : T4) :
    directionMean (fun t p => contract4 T (vector t p) (vector t p) (vector t p) (vector t p)) =
      (∑ i, ∑ j, (T i i j j + T i j i j + T i j j i)) / 15 := by
  have hv := vector_continuous
  have e : ∀ t p, contract4 T (vector t p) (vector t p) (vector t p) (vector t p) =
      ∑ i, ∑ j, ∑ k, ∑ l, T i j k l * (vector t p i * vector t p j * vector t p k * vector t p l) := by
    intro t p
    unfold contract4
    simp only [mul_assoc]
  rw [directionMean_congr e, directionMean_sum (fun i => by fun_prop)]
  have : ∀ i j k l, directionMean (fun t p => T i j k l * (vector t p i * vector t p j * vector t p k * vector t p l)) =
      T i j k l * delta i j * delta k l / 15 + T i j k l * delta i k * delta j l / 15 + T i j k l * delta i l * delta j k / 15 := by
    intro i j k l
    rw [directionMean_mul, mean_four]
    ring
  have s : ∀ i, directionMean (fun t p => ∑ j, ∑ k, ∑ l, T i j k l * (vector t p i * vector t p j * vector t p k * vector t p l)) =
      ∑ j, ∑ k, ∑ l, (T i j k l * delta i j * delta k l / 15 + T i j k l * delta i k * delta j l / 15 +
        T i j k l * delta i l * delta j k / 15) := by
    intro i
    rw [directionMean_sum (fun j => by fun_prop)]
    refine Finset.sum_congr rfl fun j _ => ?_
    rw [directionMean_sum (fun k => by fun_prop)]
    refine Finset.sum_congr rfl fun k _ => ?_
    rw [directionMean_sum (fun l => by fun_prop)]
    exact Finset.sum_congr rfl fun l _ => this i j k l
  simp only [s]
  simp only [Fin.sum_univ_three, delta_00, delta_01, delta_02, delta_10, delta_11, delta_12, delta_20, delta_21, delta_22,
    mul_zero, mul_one, zero_div, add_zero, zero_add]
  ring

theorem vectorChi_continuous (t p : ℝ) (i : Fin 3) : Continuous fun c => vectorChi t p c i := by
  fin_cases i <;> simp only [vectorChi, Matrix.cons_val] <;> fun_prop

theorem mean_sum_transverse (A : T2) (t p : ℝ) :
    (∫ c in (0 : ℝ)..(2 * Real.pi), ∑ i, ∑ j, A i j * (vectorChi t p c i * vectorChi t p c j)) / (2 * Real.pi) =
      (∑ i, A i i - ∑ i, ∑ j, A i j * (vector t p i * vector t p j)) / 2 := by
  have hv := vectorChi_continuous t p
  rw [intervalIntegral.integral_finsetSum (fun i _ => by apply Continuous.intervalIntegrable; fun_prop), Finset.sum_div,
    ← Finset.sum_sub_distrib, Finset.sum_div]
  refine Finset.sum_congr rfl fun i _ => ?_
  rw [intervalIntegral.integral_finsetSum (fun i _ => by apply Continuous.intervalIntegrable; fun_prop), Finset.sum_div]
  have : A i i = ∑ j, A i j * delta i j := by
    simp only [delta, mul_ite, mul_one, mul_zero, Finset.sum_ite_eq, Finset.mem_univ, if_true]
  rw [this, ← Finset.sum_sub_distrib, Finset.sum_div]
  refine Finset.sum_congr rfl fun j _ => ?_
  rw [intervalIntegral.integral_const_mul, mul_div_assoc, mean_transverse]
  ring


/-- The two invariants of a compliance. -/
theorem invariants {S : M6} (hs : ∀ i j, S i j = S j i) :
    (∑ i, ∑ j, sTensor S i i j j) = S 0 0 + S 1 1 + S 2 2 + 2 * (S 0 1 + S 0 2 + S 1 2) ∧
    (∑ i, ∑ j, sTensor S i j i j) = S 0 0 + S 1 1 + S 2 2 + (S 3 3 + S 4 4 + S 5 5) / 2 ∧
    (∑ i, ∑ j, sTensor S i j j i) = S 0 0 + S 1 1 + S 2 2 + (S 3 3 + S 4 4 + S 5 5) / 2 := by
  refine ⟨?_, ?_, ?_⟩ <;>
    simp only [sTensor, sc, vm, Fin.sum_univ_three, Matrix.cons_val, hs 1 0, hs 2 0, hs 2 1] <;> norm_num <;> ring

theorem mean_young {S : M6} (hs : ∀ i j, S i j = S j i) :
    directionMean (fun t p => contract4 (sTensor S) (vector t p) (vector t p) (vector t p) (vector t p)) =
      1 / (3 * reussG S) + einsum_iijj (sTensor S) / 9 := by
  obtain ⟨h1, h2, h3⟩ := invariants hs
  rw [mean_contract4]
  simp only [Finset.sum_add_distrib, einsum_iijj, h1, h2, h3, reussG]
  rw [show ∀ x : ℝ, 1 / (3 * (15 / x)) = x / 45 by intro x; rw [mul_div_assoc', one_div_div]; norm_num]
  ring

/-- The mean of the shear compliance over the transverse directions. -/
theorem transverse_shear (S : M6) (t p : ℝ) :
    (∫ c in (0 : ℝ)..(2 * Real.pi), contract4 (sTensor S) (vector t p) (vectorChi t p c) (vector t p) (vectorChi t p c)) /
        (2 * Real.pi) =
      (∑ i, ∑ k, (∑ j, sTensor S i j k j) * (vector t p i * vector t p k) -
        contract4 (sTensor S) (vector t p) (vector t p) (vector t p) (vector t p)) / 2 := by
  have e : ∀ m : V3, contract4 (sTensor S) (vector t p) m (vector t p) m =
      ∑ j, ∑ l, (∑ i, ∑ k, sTensor S i j k l * (vector t p i * vector t p k)) * (m j * m l) := by
    intro m
    unfold contract4
    simp only [Finset.sum_mul]
    rw [Finset.sum_comm]
    refine Finset.sum_congr rfl fun j _ => ?_
    have : ∀ i : Fin 3, (∑ k, ∑ l, sTensor S i j k l * vector t p i * m j * vector t p k * m l) =
        ∑ l, ∑ k, sTensor S i j k l * vector t p i * m j * vector t p k * m l := fun i => Finset.sum_comm
    simp only [this]
    rw [Finset.sum_comm]
    refine Finset.sum_congr rfl fun l _ => Finset.sum_congr rfl fun i _ => Finset.sum_congr rfl fun k _ => ?_
    ring
  simp only [e]
  rw [mean_sum_transverse]
  congr 2
  simp only [Finset.sum_mul]
  rw [Finset.sum_comm]
  exact Finset.sum_congr rfl fun i _ => Finset.sum_comm

theorem transverse_poisson (S : M6) (t p : ℝ) :
    (∫ c in (0 : ℝ)..(2 * Real.pi), contract4 (sTensor S) (vector t p) (vector t p) (vectorChi t p c) (vectorChi t p c)) /
        (2 * Real.pi) =
      (∑ i, ∑ j, (∑ k, sTensor S i j k k) * (vector t p i * vector t p j) -
        contract4 (sTensor S) (vector t p) (vector t p) (vector t p) (vector t p)) / 2 := by
  have e : ∀ m : V3, contract4 (sTensor S) (vector t p) (vector t p) m m =
      ∑ k, ∑ l, (∑ i, ∑ j, sTensor S i j k l * (vector t p i * vector t p j)) * (m k * m l) := by
    intro m
    unfold contract4
    simp only [Finset.sum_mul]
    have a : ∀ i : Fin 3, (∑ j, ∑ k, ∑ l, sTensor S i j k l * vector t p i * vector t p j * m k * m l) =
        ∑ k, ∑ l, ∑ j, sTensor S i j k l * vector t p i * vector t p j * m k * m l := by
      intro i
      rw [Finset.sum_comm]
      exact Finset.sum_congr rfl fun k _ => Finset.sum_comm
    simp only [a]
    rw [Finset.sum_comm]
    refine Finset.sum_congr rfl fun k _ => ?_
    rw [Finset.sum_comm]
    refine Finset.sum_congr rfl fun l _ => Finset.sum_congr rfl fun i _ => Finset.sum_congr rfl fun j _ => ?_
    ring
  simp only [e]
  rw [mean_sum_transverse]
  congr 2
  simp only [Finset.sum_mul]
  rw [Finset.sum_comm]
  exact Finset.sum_congr rfl fun i _ => Finset.sum_comm

theorem quadratic_cont (A : T2) : Continuous fun x : ℝ × ℝ => ∑ i, ∑ j, A i j * (vector x.1 x.2 i * vector x.1 x.2 j) := by
  have := vector_continuous
  fun_prop

theorem mean_difference (A : T2) (T : T4) :
    directionMean (fun t p => (∑ i, ∑ j, A i j * (vector t p i * vector t p j) -
      contract4 T (vector t p) (vector t p) (vector t p) (vector t p)) / 2) =
      ((∑ i, A i i) / 3 - (∑ i, ∑ j, (T i i j j + T i j i j + T i j j i)) / 15) / 2 := by
  have e : ∀ t p, (∑ i, ∑ j, A i j * (vector t p i * vector t p j) -
      contract4 T (vector t p) (vector t p) (vector t p) (vector t p)) / 2 =
      1 / 2 * ((∑ i, ∑ j, A i j * (vector t p i * vector t p j)) +
        (-1) * contract4 T (vector t p) (vector t p) (vector t p) (vector t p)) := fun t p => by ring
  rw [directionMean_congr e, directionMean_mul, directionMean_add (quadratic_cont A) ((contract4_cont T).const_smul (-1 : ℝ)),
    directionMean_mul, mean_contract2, mean_contract4]
  ring

theorem mean_shear {S : M6} (hs : ∀ i j, S i j = S j i) :
    orientationMean (fun t p c => 4 * contract4 (sTensor S) (vector t p) (vectorChi t p c) (vector t p) (vectorChi t p c)) =
      1 / reussG S := by
  obtain ⟨h1, h2, h3⟩ := invariants hs
  unfold orientationMean
  simp only [intervalIntegral.integral_const_mul, mul_div_assoc, transverse_shear, directionMean_mul]
  rw [mean_difference]
  simp only [Finset.sum_add_distrib, h1, h2, h3, reussG, one_div_div]
  ring

theorem mean_poisson {S : M6} (hs : ∀ i j, S i j = S j i) :
    orientationMean (fun t p c => -contract4 (sTensor S) (vector t p) (vector t p) (vectorChi t p c) (vectorChi t p c)) =
      1 / (6 * reussG S) - einsum_iijj (sTensor S) / 9 := by
  obtain ⟨h1, h2, h3⟩ := invariants hs
  unfold orientationMean
  simp only [intervalIntegral.integral_neg, neg_div, transverse_poisson]
  rw [directionMean_congr fun t p => (neg_one_mul _).symm, directionMean_mul, mean_difference]
  simp only [Finset.sum_add_distrib, einsum_iijj, h1, h2, h3, reussG]
  rw [show ∀ x : ℝ, 1 / (6 * (15 / x)) = x / 90 by intro x; rw [mul_div_assoc', one_div_div]; norm_num]
  ring

theorem inverse_symm {C : M6} (hC : C.PosDef) (i j : Fin 6) : C⁻¹ i j = C⁻¹ j i := by
  have := hC.inv.isHermitian
  simpa using (congrFun (congrFun this i) j).symm

/-! ### C133 -/

/-- C133: for a stable crystal, the mean over all directions of the linear compressibility is a third of the compressibility of
the Reuss average; the mean of the inverse of Young's modulus is the inverse of the Reuss modulus; the mean over all pairs of
perpendicular directions of the inverse of the shear modulus is the inverse of the Reuss modulus; and that of Poisson's ratio,
weighted by the inverse of Young's modulus, is the Reuss ratio with the same weight. -/
theorem C133_reuss (C : M6) (hC : C.PosDef) (density : ℝ) (s : Soec) (hs : soec C density = .ok s) :
    directionMean (fun theta phi => s.linearCompressibility (theta, phi)) = 1000 / (3 * s.averages.reuss.K) ∧
    directionMean (fun theta phi => 1 / s.youngModulus (theta, phi)) = 1 / s.averages.reuss.E ∧
    orientationMean (fun theta phi chi => 1 / s.shearModulus (theta, phi, chi)) = 1 / s.averages.reuss.G ∧
    orientationMean (fun theta phi chi => s.poissonRatio (theta, phi, chi) / s.youngModulus (theta, phi)) =
      s.averages.reuss.nu / s.averages.reuss.E := by
  have hsy := inverse_symm hC
  obtain ⟨k1, -, -, g1, -, -⟩ := C36_ordered C hC density s hs
  obtain ⟨rE, rn, -⟩ := C36_relations C hC density s hs _ (Or.inr (Or.inl rfl))
  obtain ⟨-, rfl⟩ := soec_ok hs
  set s : Soec := { C := C, density := density, S := C⁻¹, Smat := sTensor C⁻¹, Cmat := cTensor C } with hsd
  have hK : s.averages.reuss.K = 1 / einsum_iijj (sTensor C⁻¹) := rfl
  have hG : s.averages.reuss.G = reussG C⁻¹ := rfl
  have hKi : einsum_iijj (sTensor C⁻¹) = 1 / s.averages.reuss.K := by rw [hK, one_div_one_div]
  refine ⟨?_, ?_, ?_, ?_⟩
  · have e : ∀ t p, s.linearCompressibility (t, p) =
        1000 * ∑ i, ∑ j, (∑ k, sTensor C⁻¹ i j k k) * (vector t p i * vector t p j) := by
      intro t p
      show 1000 * _ = _
      congr 1
      refine Finset.sum_congr rfl fun i _ => Finset.sum_congr rfl fun j _ => ?_
      rw [Finset.sum_mul]
      exact Finset.sum_congr rfl fun k _ => by ring
    rw [directionMean_congr e, directionMean_mul, mean_contract2]
    have : (∑ i, ∑ k, sTensor C⁻¹ i i k k) = 1 / s.averages.reuss.K := hKi
    rw [this]
    field_simp
  · have e : ∀ t p, 1 / s.youngModulus (t, p) = contract4 (sTensor C⁻¹) (vector t p) (vector t p) (vector t p) (vector t p) :=
      fun t p => one_div_one_div _
    rw [directionMean_congr e, mean_young hsy, hKi, ← hG, rE]
    field_simp
    ring
  · have e : (fun t p c => 1 / s.shearModulus (t, p, c)) = fun t p c =>
        4 * contract4 (sTensor C⁻¹) (vector t p) (vectorChi t p c) (vector t p) (vectorChi t p c) := by
      funext t p c
      show 1 / shearAlong (sTensor C⁻¹) (vector t p) (vectorChi t p c) = _
      rw [shearAlong_eq, one_div_one_div]
    rw [e, mean_shear hsy, ← hG]
  · have e : (fun t p c => s.poissonRatio (t, p, c) / s.youngModulus (t, p)) = fun t p c =>
        -contract4 (sTensor C⁻¹) (vector t p) (vector t p) (vectorChi t p c) (vectorChi t p c) := by
      funext t p c
      show poissonAlong (sTensor C⁻¹) (vector t p) (vectorChi t p c) /
        (1 / contract4 (sTensor C⁻¹) (vector t p) (vector t p) (vector t p) (vector t p)) = _
      have := (young_denominator_pos hC (vector_unit t p)).ne'
      rw [poissonAlong_eq]
      field_simp
    rw [e, mean_poisson hsy, hKi, ← hG, rn, rE]
    field_simp
    ring

/-- C133: the Reuss moduli lie between the extremes reported for the directional properties, and so does a third of the
compressibility for the linear compressibility. -/
theorem C133_between (C : M6) (hC : C.PosDef) (density : ℝ) (s : Soec) (hs : soec C density = .ok s) (E LC G : Variation)
    (hE : ExtremesOf (youngAlong s.Smat) E) (hL : ExtremesOf (compressibilityAlong s.Smat) LC)
    (hG : PairExtremes (shearAlong s.Smat) G) :
    (E.minimum ≤ s.averages.reuss.E ∧ s.averages.reuss.E ≤ E.maximum) ∧
    (G.minimum ≤ s.averages.reuss.G ∧ s.averages.reuss.G ≤ G.maximum) ∧
    (LC.minimum ≤ 1000 / (3 * s.averages.reuss.K) ∧ 1000 / (3 * s.averages.reuss.K) ≤ LC.maximum) := by
  obtain ⟨m1, m2, m3, -⟩ := C133_reuss C hC density s hs
  obtain ⟨k1, -, -, g1, -, -⟩ := C36_ordered C hC density s hs
  obtain ⟨rE, -, -⟩ := C36_relations C hC density s hs _ (Or.inr (Or.inl rfl))
  have e1 : 0 < s.averages.reuss.E := by rw [rE]; positivity
  have hS : s.Smat = sTensor C⁻¹ := by obtain ⟨-, rfl⟩ := soec_ok hs; rfl
  have bound : ∀ {x lo hi : ℝ}, 0 < x → 0 < lo → 0 < hi → 1 / hi ≤ 1 / x → 1 / x ≤ 1 / lo → lo ≤ x ∧ x ≤ hi := by
    intro x lo hi hx hlo hhi h h'
    exact ⟨(one_div_le_one_div hx hlo).1 h', (one_div_le_one_div hhi hx).1 h⟩
  refine ⟨?_, ?_, ?_⟩
  · obtain ⟨hb, ⟨ua, ea⟩, ⟨ub, eb⟩, -⟩ := hE
    rw [hS] at hb ea eb
    have pos : ∀ n, UnitVector n → 0 < youngAlong (sTensor C⁻¹) n := fun n hn => one_div_pos.2 (young_denominator_pos hC hn)
    have plo : 0 < E.minimum := ea ▸ pos _ ua
    have phi : 0 < E.maximum := eb ▸ pos _ ub
    have cont : Continuous fun x : ℝ × ℝ => 1 / s.youngModulus (x.1, x.2) := by
      have : (fun x : ℝ × ℝ => 1 / s.youngModulus (x.1, x.2)) =
          fun x => contract4 s.Smat (vector x.1 x.2) (vector x.1 x.2) (vector x.1 x.2) (vector x.1 x.2) :=
        funext fun x => one_div_one_div _
      rw [this]
      exact contract4_cont _
    have young : ∀ t p, s.youngModulus (t, p) = youngAlong (sTensor C⁻¹) (vector t p) := fun t p => by rw [← hS]; rfl
    refine bound e1 plo phi ?_ ?_
    · rw [← m2, ← directionMean_const (1 / E.maximum)]
      refine directionMean_mono continuous_const cont fun t p => ?_
      rw [young]
      exact one_div_le_one_div_of_le (pos _ (vector_unit t p)) (hb _ (vector_unit t p)).2
    · rw [← m2, ← directionMean_const (1 / E.minimum)]
      refine directionMean_mono cont continuous_const fun t p => ?_
      rw [young]
      exact one_div_le_one_div_of_le plo (hb _ (vector_unit t p)).1
  · obtain ⟨hb, ⟨a, b, ua, ea⟩, ⟨a', b', ub, eb⟩, -⟩ := hG
    rw [hS] at hb ea eb
    have pos : ∀ a b, Orthonormal a b → 0 < shearAlong (sTensor C⁻¹) a b := by
      intro a b hab
      rw [shearAlong_eq]
      have := shear_denominator_pos hC hab
      positivity
    have on : ∀ t p c, Orthonormal (vector t p) (vectorChi t p c) := fun t p c =>
      ⟨vector_unit t p, vectorChi_unit t p c, vector_orthogonal t p c⟩
    have plo : 0 < G.minimum := ea ▸ pos _ _ ua
    have phi : 0 < G.maximum := eb ▸ pos _ _ ub
    have shear : ∀ t p c, s.shearModulus (t, p, c) = shearAlong (sTensor C⁻¹) (vector t p) (vectorChi t p c) :=
      fun t p c => by rw [← hS]; rfl
    have inv : ∀ t p c, 1 / s.shearModulus (t, p, c) =
        4 * contract4 (sTensor C⁻¹) (vector t p) (vectorChi t p c) (vector t p) (vectorChi t p c) := by
      intro t p c
      rw [shear, shearAlong_eq, one_div_one_div]
    have inner : ∀ t p, (∫ c in (0 : ℝ)..(2 * Real.pi), 1 / s.shearModulus (t, p, c)) / (2 * Real.pi) =
        4 * ((∑ i, ∑ k, (∑ j, sTensor C⁻¹ i j k j) * (vector t p i * vector t p k) -
          contract4 (sTensor C⁻¹) (vector t p) (vector t p) (vector t p) (vector t p)) / 2) := by
      intro t p
      simp only [inv, intervalIntegral.integral_const_mul, mul_div_assoc, transverse_shear]
    have cont : Continuous fun x : ℝ × ℝ => (∫ c in (0 : ℝ)..(2 * Real.pi), 1 / s.shearModulus (x.1, x.2, c)) / (2 * Real.pi) := by
      simp only [inner]
      exact continuous_const.mul (((quadratic_cont _).sub (contract4_cont _)).div_const 2)
    have ic : ∀ t p, Continuous fun c => 1 / s.shearModulus (t, p, c) := by
      intro t p
      simp only [inv]
      unfold contract4
      have := vectorChi_continuous t p
      fun_prop
    have hpi := Real.pi_pos
    have const : ∀ x : ℝ, (∫ _ in (0 : ℝ)..(2 * Real.pi), x) / (2 * Real.pi) = x := by
      intro x
      rw [intervalIntegral.integral_const, smul_eq_mul, sub_zero]
      field_simp
    refine bound g1 plo phi ?_ ?_
    · rw [← m3, ← directionMean_const (1 / G.maximum)]
      refine directionMean_mono continuous_const cont fun t p => ?_
      rw [← const (1 / G.maximum)]
      refine div_le_div_of_nonneg_right (intervalIntegral.integral_mono_on (by positivity)
        (continuous_const.intervalIntegrable _ _) ((ic t p).intervalIntegrable _ _) fun c _ => ?_) (by positivity)
      beta_reduce
      rw [shear]
      exact one_div_le_one_div_of_le (pos _ _ (on t p c)) (hb _ _ (on t p c)).2
    · rw [← m3, ← directionMean_const (1 / G.minimum)]
      refine directionMean_mono cont continuous_const fun t p => ?_
      rw [← const (1 / G.minimum)]
      refine div_le_div_of_nonneg_right (intervalIntegral.integral_mono_on (by positivity)
        ((ic t p).intervalIntegrable _ _) (continuous_const.intervalIntegrable _ _) fun c _ => ?_) (by positivity)
      beta_reduce
      rw [shear]
      exact one_div_le_one_div_of_le plo (hb _ _ (on t p c)).1
  · obtain ⟨hb, -⟩ := hL
    have cont : Continuous fun x : ℝ × ℝ => s.linearCompressibility (x.1, x.2) := by
      show Continuous fun x : ℝ × ℝ => compressibilityAlong s.Smat (vector x.1 x.2)
      unfold compressibilityAlong
      have := vector_continuous
      fun_prop
    constructor
    · rw [← m1, ← directionMean_const LC.minimum]
      exact directionMean_mono continuous_const cont fun t p => (hb _ (vector_unit t p)).1
    · rw [← m1, ← directionMean_const LC.maximum]
      exact directionMean_mono cont continuous_const fun t p => (hb _ (vector_unit t p)).2

end Verif.Elastic

namespace Verif.Seismic
open Verif.Py Verif.Elastic Verif.Elastic.Spec Spec

/-- C133: the mean over all directions of the density times the sum of the squares of the three wave speeds is `K + 10 G / 3` of
the Voigt average. -/
theorem C133_waves (num : Numerics) (hn : EighCorrect num) (C : M6) (hC : C.PosDef) (density : ℝ) (hr : 0 < density)
    (s : Soec) (hs : soec C density = .ok s) :
    directionMean (fun theta phi => density * ((1000 * Soec.shearWave1 num s (theta, phi)) ^ 2 +
      (1000 * Soec.shearWave2 num s (theta, phi)) ^ 2 + (1000 * Soec.longitudinalWave num s (theta, phi)) ^ 2)) =
      10 ^ 9 * (s.averages.voigt.K + 10 / 3 * s.averages.voigt.G) := by
  have e : ∀ t p, density * ((1000 * Soec.shearWave1 num s (t, p)) ^ 2 +
      (1000 * Soec.shearWave2 num s (t, p)) ^ 2 + (1000 * Soec.longitudinalWave num s (t, p)) ^ 2) =
      ∑ j, ∑ l, (10 ^ 9 * ∑ i, cTensor C i j i l) * (vector t p j * vector t p l) := by
    intro t p
    have := phase_sum (C130_order num hn C hC density hr s hs (t, p)).1
    simp only [Matrix.cons_val_zero, Matrix.cons_val_one, Matrix.cons_val] at this
    rw [this]
    simp only [Matrix.trace, Matrix.diag, acoustic, Matrix.of_apply, Finset.sum_div, Finset.mul_sum, Finset.sum_mul]
    rw [Finset.sum_comm]
    refine Finset.sum_congr rfl fun j _ => ?_
    rw [Finset.sum_comm]
    refine Finset.sum_congr rfl fun l _ => Finset.sum_congr rfl fun i _ => ?_
    field_simp
  rw [directionMean_congr e, mean_contract2]
  have hsy := posDef_entries hC
  obtain ⟨-, rfl⟩ := soec_ok hs
  show _ = (10 : ℝ) ^ 9 * (einsum_iijj (cTensor C) / 9 + 10 / 3 * voigtG C)
  simp only [einsum_iijj, cTensor, vm, voigtG, Fin.sum_univ_three, Matrix.cons_val, hsy 1 0, hsy 2 0, hsy 2 1]
  ring

/-- C133: so the velocities printed for the isotropic aggregate do not exceed the directional ones in mean square, and in each
triple of perpendicular directions there is one where the three waves are together at least as fast. -/
theorem C133_aggregate (num : Numerics) (hn : EighCorrect num) (C : M6) (hC : C.PosDef) (density : ℝ) (hr : 0 < density)
    (s : Soec) (hs : soec C density = .ok s) :
    let squares := fun d => Soec.shearWave1 num s d ^ 2 + Soec.shearWave2 num s d ^ 2 + Soec.longitudinalWave num s d ^ 2
    let aggregate := s.isotropicVelocities 0 ^ 2 + s.isotropicVelocities 1 ^ 2 + s.isotropicVelocities 2 ^ 2
    aggregate ≤ directionMean (fun theta phi => squares (theta, phi)) ∧
    ∀ x y z : ℝ × ℝ, Triad (vector x.1 x.2) (vector y.1 y.2) (vector z.1 z.2) →
      aggregate ≤ squares x ∨ aggregate ≤ squares y ∨ aggregate ≤ squares z := by
  intro squares aggregate
  obtain ⟨k1, k2, k3, g1, g2, g3⟩ := C36_ordered C hC density s hs
  have hd : s.density = density := by obtain ⟨-, rfl⟩ := soec_ok hs; rfl
  have ha : density * aggregate = 1000 * (s.averages.hill.K + 10 / 3 * s.averages.hill.G) := by
    have a1 : 0 ≤ 1000 * (s.averages.hill.K + 4 * s.averages.hill.G / 3) / density := by
      have : 0 < s.averages.hill.K := k1.trans_le k2
      have : 0 < s.averages.hill.G := g1.trans_le g2
      positivity
    have a2 : 0 ≤ 1000 * s.averages.hill.G / density := by
      have : 0 < s.averages.hill.G := g1.trans_le g2
      positivity
    simp only [aggregate, Soec.isotropicVelocities, hd, Matrix.cons_val_zero, Matrix.cons_val_one, Matrix.cons_val,
      Real.sq_sqrt a1, Real.sq_sqrt a2]
    field_simp
    ring
  have hle : density * aggregate ≤ 1000 * (s.averages.voigt.K + 10 / 3 * s.averages.voigt.G) := by
    rw [ha]
    linarith
  refine ⟨?_, fun x y z ht => ?_⟩
  · have h := C133_waves num hn C hC density hr s hs
    rw [directionMean_congr (g := fun t p => density * 10 ^ 6 * squares (t, p)) fun t p => by simp only [squares]; ring,
      directionMean_mul] at h
    refine le_of_mul_le_mul_left ?_ hr
    linarith
  · have h := C130_sum num hn C hC density hr s hs x y z ht
    have e : density * (squares x + squares y + squares z) = 3 * (1000 * (s.averages.voigt.K + 10 / 3 * s.averages.voigt.G)) := by
      simp only at h
      simp only [squares]
      linarith
    by_contra hc
    push Not at hc
    obtain ⟨h1, h2, h3⟩ := hc
    have := mul_lt_mul_of_pos_left (add_lt_add (add_lt_add h1 h2) h3) hr
    rw [e] at this
    linarith

/-- The hypotheses are met: a stable crystal and searches that find minima give the extremes. -/
example : ∃ s E LC G, soec (ofInt olivine) 3300 = .ok s ∧ (ofInt olivine).PosDef ∧ ExtremesOf (youngAlong s.Smat) E ∧
    ExtremesOf (compressibilityAlong s.Smat) LC ∧ PairExtremes (shearAlong s.Smat) G := by
  obtain ⟨s, hs⟩ := soec_of_det (posDef_det olivine_posDef) 3300
  obtain ⟨min2, h2⟩ := exists_finds (X := ℝ × ℝ)
  obtain ⟨min3, h3⟩ := exists_finds (X := ℝ × ℝ × ℝ)
  obtain ⟨a1, a2⟩ := C46_extremes _ olivine_posDef 3300 s hs min2 h2
  obtain ⟨a3, -⟩ := C46_pair_extremes_partial _ olivine_posDef 3300 s hs min3 h3
  exact ⟨s, _, _, _, hs, olivine_posDef, a1, a2, a3⟩

end Verif.Seismic
