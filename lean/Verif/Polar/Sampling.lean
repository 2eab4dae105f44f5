/-
Property C183: the nodes of a section determine the directions between them.
-/
import Mathlib.Algebra.Polynomial.Roots
import Mathlib.Algebra.Polynomial.BigOperators
import Mathlib.Tactic.LinearCombination
import Verif.Polar.Props

noncomputable section

namespace Verif.Polar
open Verif.Py Verif.Elastic Verif.Elastic.Spec Verif.Seismic Verif.Seismic.Spec Spec

/-! ### Lemmas -/

/-- A form of degree four. -/
def quartic (c : Fin 5 → ℝ) (x y : ℝ) : ℝ := c 0 * x ^ 4 + c 1 * x ^ 3 * y + c 2 * x ^ 2 * y ^ 2 + c 3 * x * y ^ 3 + c 4 * y ^ 4

theorem quartic_turn (c : Fin 5 → ℝ) (p q : ℝ) : ∃ d, d 0 = quartic c p q ∧
    ∀ x y, quartic c (p * x - q * y) (q * x + p * y) = quartic d x y := by
  refine ⟨![quartic c p q,
    c 0 * (-4 * p ^ 3 * q) + c 1 * (p ^ 4 - 3 * p ^ 2 * q ^ 2) + c 2 * (2 * p ^ 3 * q - 2 * p * q ^ 3) +
      c 3 * (3 * p ^ 2 * q ^ 2 - q ^ 4) + c 4 * (4 * q ^ 3 * p),
    c 0 * (6 * p ^ 2 * q ^ 2) + c 1 * (-3 * p ^ 3 * q + 3 * p * q ^ 3) + c 2 * (p ^ 4 - 4 * p ^ 2 * q ^ 2 + q ^ 4) +
      c 3 * (3 * p ^ 3 * q - 3 * p * q ^ 3) + c 4 * (6 * q ^ 2 * p ^ 2),
    c 0 * (-4 * p * q ^ 3) + c 1 * (3 * p ^ 2 * q ^ 2 - q ^ 4) + c 2 * (-2 * p ^ 3 * q + 2 * p * q ^ 3) +
      c 3 * (p ^ 4 - 3 * p ^ 2 * q ^ 2) + c 4 * (4 * q * p ^ 3),
    c 0 * q ^ 4 + c 1 * (-p * q ^ 3) + c 2 * (p ^ 2 * q ^ 2) + c 3 * (-p ^ 3 * q) + c 4 * p ^ 4], rfl, fun x y => ?_⟩
  simp only [quartic, Matrix.cons_val_zero, Matrix.cons_val_one, Matrix.cons_val]
  ring

/-- A form of degree four that vanishes at five directions vanishes at all directions. -/
theorem quartic_zero (c : Fin 5 → ℝ) (t : ℕ → ℝ) (ht : ∀ i j, i < 5 → j < i → Real.sin (t i - t j) ≠ 0)
    (h : ∀ i < 5, quartic c (Real.cos (t i)) (Real.sin (t i)) = 0) (s : ℝ) : quartic c (Real.cos s) (Real.sin s) = 0 := by
  obtain ⟨d, d0, hd⟩ := quartic_turn c (Real.cos (t 0)) (Real.sin (t 0))
  rw [h 0 (by norm_num)] at d0
  have turn : ∀ s, quartic c (Real.cos s) (Real.sin s) = quartic d (Real.cos (s - t 0)) (Real.sin (s - t 0)) := by
    intro s
    rw [← hd]
    have e : s = t 0 + (s - t 0) := by ring
    conv_lhs => rw [e, Real.cos_add, Real.sin_add]
  open Polynomial in
  set P : ℝ[X] := C (d 1) * X ^ 3 + C (d 2) * X ^ 2 + C (d 3) * X + C (d 4) with hP
  have cot : ∀ s, Real.sin (s - t 0) ≠ 0 → quartic c (Real.cos s) (Real.sin s) =
      Real.sin (s - t 0) ^ 4 * P.eval (Real.cos (s - t 0) / Real.sin (s - t 0)) := by
    intro s hs
    rw [turn, hP]
    simp only [quartic, d0, Polynomial.eval_add, Polynomial.eval_mul, Polynomial.eval_C, Polynomial.eval_pow, Polynomial.eval_X]
    field_simp
    ring
  have hz : P = 0 := by
    refine Polynomial.eq_zero_of_natDegree_lt_card_of_eval_eq_zero P (ι := Fin 4)
      (f := fun i => Real.cos (t (i + 1) - t 0) / Real.sin (t (i + 1) - t 0)) ?_ ?_ ?_
    · intro i j hij
      have hi := ht (i + 1) 0 (by omega) (by omega)
      have hj := ht (j + 1) 0 (by omega) (by omega)
      by_contra hne
      have hs : Real.sin ((t (i + 1) - t 0) - (t (j + 1) - t 0)) = 0 := by
        rw [Real.sin_sub]
        have : Real.cos (t (i + 1) - t 0) * Real.sin (t (j + 1) - t 0) = Real.cos (t (j + 1) - t 0) * Real.sin (t (i + 1) - t 0) :=
          (div_eq_div_iff hi hj).1 hij
        linarith
      rw [sub_sub_sub_cancel_right] at hs
      rcases lt_or_gt_of_ne hne with hlt | hlt
      · refine ht (j + 1) (i + 1) (by omega) (by have := Fin.lt_def.1 hlt; omega) ?_
        rw [← neg_sub, Real.sin_neg, hs, neg_zero]
      · exact ht (i + 1) (j + 1) (by omega) (by have := Fin.lt_def.1 hlt; omega) hs
    · intro i
      have hi := ht (i + 1) 0 (by omega) (by omega)
      have := cot _ hi
      rw [h (i + 1) (by omega)] at this
      exact (mul_eq_zero.1 this.symm).resolve_left (pow_ne_zero _ hi)
    · rw [Fintype.card_fin]
      exact lt_of_le_of_lt Polynomial.natDegree_cubic_le (by norm_num)
  by_cases hs : Real.sin (s - t 0) = 0
  · rw [turn, hs]
    simp [quartic, d0]
  · rw [cot s hs, hz]
    simp

/-- Five nodes of a section are different lines. -/
theorem nodes_differ {n : ℕ} (hn : 10 ≤ n) (i j : ℕ) (hi : i < 5) (hj : j < i) :
    Real.sin (radians (angle n i) - radians (angle n j)) ≠ 0 := by
  have hn' : (10 : ℝ) ≤ n := by exact_mod_cast hn
  have hi' : (i : ℝ) ≤ 4 := by exact_mod_cast (by omega : i ≤ 4)
  have hj' : (j : ℝ) < i := by exact_mod_cast hj
  have hj0 : (0 : ℝ) ≤ j := by positivity
  have hm : (0 : ℝ) < n - 1 := by linarith
  have e : radians (angle n i) - radians (angle n j) = Real.pi * (2 * (i - j) / (n - 1)) := by
    unfold radians angle
    field_simp
    ring
  have h1 : 0 < 2 * ((i : ℝ) - j) / (n - 1) := div_pos (by linarith) hm
  have h2 : 2 * ((i : ℝ) - j) / (n - 1) < 1 := (div_lt_one hm).2 (by linarith)
  rw [e]
  have := Real.pi_pos
  exact (Real.sin_pos_of_pos_of_lt_pi (by positivity) (by nlinarith)).ne'

/-- The compliance along the directions of a plane is a form of degree four. -/
theorem compliance_quartic (S : T4) (k : Plane) : ∃ c, ∀ t,
    contract4 S (direction k t) (direction k t) (direction k t) (direction k t) = quartic c (Real.cos t) (Real.sin t) := by
  obtain ⟨p, q, hpq⟩ : ∃ p q : Fin 3, (k = .xy ∧ p = 0 ∧ q = 1) ∨ (k = .xz ∧ p = 2 ∧ q = 0) ∨ (k = .yz ∧ p = 2 ∧ q = 1) := by
    cases k
    · exact ⟨0, 1, by simp⟩
    · exact ⟨2, 0, by simp⟩
    · exact ⟨2, 1, by simp⟩
  refine ⟨![S p p p p, S q p p p + S p q p p + S p p q p + S p p p q,
    S q q p p + S q p q p + S q p p q + S p q q p + S p q p q + S p p q q,
    S p q q q + S q p q q + S q q p q + S q q q p, S q q q q], fun t => ?_⟩
  rcases hpq with ⟨rfl, rfl, rfl⟩ | ⟨rfl, rfl, rfl⟩ | ⟨rfl, rfl, rfl⟩ <;>
  · simp only [contract4, quartic, direction, Fin.sum_univ_three, Matrix.cons_val_zero, Matrix.cons_val_one, Matrix.cons_val,
      mul_zero, zero_mul, add_zero, zero_add]
    ring

/-- The compressibility along the directions of a plane is a form of degree two, and so one of degree four. -/
theorem compressibility_quartic (S : T4) (k : Plane) : ∃ c, ∀ t,
    (∑ i, ∑ j, ∑ l, direction k t i * direction k t j * S i j l l) = quartic c (Real.cos t) (Real.sin t) := by
  obtain ⟨p, q, hpq⟩ : ∃ p q : Fin 3, (k = .xy ∧ p = 0 ∧ q = 1) ∨ (k = .xz ∧ p = 2 ∧ q = 0) ∨ (k = .yz ∧ p = 2 ∧ q = 1) := by
    cases k
    · exact ⟨0, 1, by simp⟩
    · exact ⟨2, 0, by simp⟩
    · exact ⟨2, 1, by simp⟩
  set B : Fin 3 → Fin 3 → ℝ := fun i j => ∑ l, S i j l l with hB
  refine ⟨![B p p, B p q + B q p, B p p + B q q, B p q + B q p, B q q], fun t => ?_⟩
  have e : (∑ i, ∑ j, ∑ l, direction k t i * direction k t j * S i j l l) = ∑ i, ∑ j, direction k t i * direction k t j * B i j := by
    refine Finset.sum_congr rfl fun i _ => Finset.sum_congr rfl fun j _ => ?_
    rw [hB, Finset.mul_sum]
  rw [e]
  have h1 := Real.sin_sq_add_cos_sq t
  rcases hpq with ⟨rfl, rfl, rfl⟩ | ⟨rfl, rfl, rfl⟩ | ⟨rfl, rfl, rfl⟩ <;>
  · simp only [quartic, direction, Fin.sum_univ_three, Matrix.cons_val_zero, Matrix.cons_val_one, Matrix.cons_val,
      mul_zero, zero_mul, add_zero, zero_add]
    generalize Real.sin t = s at h1 ⊢
    generalize Real.cos t = c at h1 ⊢
    first
      | linear_combination (-(B 0 0 * c ^ 2 + (B 0 1 + B 1 0) * c * s + B 1 1 * s ^ 2)) * h1
      | linear_combination (-(B 2 2 * c ^ 2 + (B 2 0 + B 0 2) * c * s + B 0 0 * s ^ 2)) * h1
      | linear_combination (-(B 2 2 * c ^ 2 + (B 2 1 + B 1 2) * c * s + B 1 1 * s ^ 2)) * h1

/-- Two forms of degree four that agree at the nodes of a section agree. -/
theorem quartic_nodes {f g : ℝ → ℝ} (hf : ∃ c, ∀ t, f t = quartic c (Real.cos t) (Real.sin t))
    (hg : ∃ c, ∀ t, g t = quartic c (Real.cos t) (Real.sin t)) {n : ℕ} (hn : 10 ≤ n)
    (h : ∀ i < n, f (radians (angle n i)) = g (radians (angle n i))) (t : ℝ) : f t = g t := by
  obtain ⟨c, hc⟩ := hf
  obtain ⟨d, hd⟩ := hg
  have e : ∀ t, quartic (c - d) (Real.cos t) (Real.sin t) = f t - g t := by
    intro t
    rw [hc, hd]
    simp only [quartic, Pi.sub_apply]
    ring
  have := quartic_zero (c - d) (fun i => radians (angle n i)) (fun i j hi hj => nodes_differ hn i j hi hj)
    (fun i hi => by rw [e, h i (by omega), sub_self]) t
  rw [e] at this
  exact sub_eq_zero.1 this

theorem isYoung_iff {C : M6} (hC : C.PosDef) (a : V3) (E : ℝ) :
    IsYoung C a E ↔ E * contract4 (sTensor C⁻¹) a a a a = 1 := by
  unfold IsYoung
  constructor
  · rintro ⟨ε, h1, h2⟩
    rw [(hooke_iff (posDef_det hC) _ _ (symm_uniaxial 1 a)).1 h1, along_uniaxial, one_mul] at h2
    exact h2
  · intro h
    refine ⟨_, (hooke_iff (posDef_det hC) _ _ (symm_uniaxial 1 a)).2 rfl, ?_⟩
    rw [along_uniaxial, one_mul, h]

theorem isCompressibility_iff {C : M6} (hC : C.PosDef) (a : V3) (β : ℝ) :
    IsCompressibility C a β ↔ β = ∑ i, ∑ j, ∑ k, a i * a j * sTensor C⁻¹ i j k k := by
  unfold IsCompressibility
  constructor
  · rintro ⟨ε, h1, h2⟩
    rw [(hooke_iff (posDef_det hC) _ _ (symm_hydrostatic 1)).1 h1, along_hydrostatic] at h2
    rw [h2]
    ring
  · intro h
    refine ⟨_, (hooke_iff (posDef_det hC) _ _ (symm_hydrostatic 1)).2 rfl, ?_⟩
    rw [along_hydrostatic, h]
    ring

/-- Tables agree when their rows do. -/
theorem tables_agree (powell : Powell) (num : Numerics) (o o' : Solid) {n : ℕ} (hn : 2 ≤ n) (k : Plane) (v : Var) (hv : v ≠ .waves) :
    (calculatePolar powell num o n).table k v = (calculatePolar powell num o' n).table k v ↔
      ∀ i < n, valuesAt powell num o v (node k (radians (angle n i))) = valuesAt powell num o' v (node k (radians (angle n i))) := by
  obtain ⟨T, e, l, r⟩ := table_row powell num o hn k v (fun h => absurd h hv)
  obtain ⟨T', e', l', r'⟩ := table_row powell num o' hn k v (fun h => absurd h hv)
  rw [e, e', Option.some.injEq]
  constructor
  · rintro rfl i hi
    have := (r i hi).symm.trans (r' i hi)
    simpa using this
  · intro h
    refine List.ext_getElem? fun i => ?_
    by_cases hi : i < n
    · rw [r i hi, r' i hi, h i hi]
    · rw [List.getElem?_eq_none (by omega), List.getElem?_eq_none (by omega)]

/-! ### Theorems -/

/-- C183: two stable solids have the same table of Young's modulus on a plane, with ten nodes or more, if and only if they have the
same Young's modulus along every direction of the plane. -/
theorem C183_young (C C' : M6) (hC : C.PosDef) (hC' : C'.PosDef) (density density' : ℝ) (sys sys' : System) (o o' : Solid)
    (h : load C density = .ok (sys, o)) (h' : load C' density' = .ok (sys', o')) (ho : sys = .orthorhombic → OrthorhombicForm C)
    (ho' : sys' = .orthorhombic → OrthorhombicForm C') (powell : Powell) (num : Numerics) (n : ℕ) (hn : 10 ≤ n) (k : Plane) :
    (calculatePolar powell num o n).table k .E = (calculatePolar powell num o' n).table k .E ↔
      ∀ t E, IsYoung C (direction k t) E ↔ IsYoung C' (direction k t) E := by
  have S : o.soec.Smat = sTensor C⁻¹ := by obtain ⟨-, e⟩ := soec_ok (load_solid h).1; rw [e]
  have S' : o'.soec.Smat = sTensor C'⁻¹ := by obtain ⟨-, e⟩ := soec_ok (load_solid h').1; rw [e]
  have unit : ∀ t, UnitVector (direction k t) := fun t => by rw [← node_direction]; exact vector_unit _ _
  have p := fun t => young_denominator_pos hC (unit t)
  have p' := fun t => young_denominator_pos hC' (unit t)
  have val : ∀ t, o.youngModulus (node k t) = 1 / contract4 (sTensor C⁻¹) (direction k t) (direction k t) (direction k t) (direction k t) := by
    intro t
    rw [(solid_generic h ho).1, Soec.youngModulus, S, node_direction]
    rfl
  have val' : ∀ t, o'.youngModulus (node k t) = 1 / contract4 (sTensor C'⁻¹) (direction k t) (direction k t) (direction k t) (direction k t) := by
    intro t
    rw [(solid_generic h' ho').1, Soec.youngModulus, S', node_direction]
    rfl
  rw [tables_agree powell num o o' (by omega) k .E (by simp)]
  constructor
  · intro hrow t E
    rw [isYoung_iff hC, isYoung_iff hC', quartic_nodes (compliance_quartic (sTensor C⁻¹) k) (compliance_quartic (sTensor C'⁻¹) k) hn
      (fun i hi => ?_) t]
    have := hrow i hi
    simp only [valuesAt, val, val', List.cons.injEq, and_true] at this
    rwa [one_div, one_div, inv_inj] at this
  · intro hE i hi
    simp only [valuesAt, val, val', List.cons.injEq, and_true]
    have := (hE (radians (angle n i)) _).1 ((isYoung_iff hC _ _).2 (one_div_mul_cancel (p _).ne'))
    rw [isYoung_iff hC'] at this
    rw [eq_one_div_of_mul_eq_one_left this]

/-- C183: the same for the linear compressibility. -/
theorem C183_compressibility (C C' : M6) (hC : C.PosDef) (hC' : C'.PosDef) (density density' : ℝ) (sys sys' : System) (o o' : Solid)
    (h : load C density = .ok (sys, o)) (h' : load C' density' = .ok (sys', o')) (ho : sys = .orthorhombic → OrthorhombicForm C)
    (ho' : sys' = .orthorhombic → OrthorhombicForm C') (powell : Powell) (num : Numerics) (n : ℕ) (hn : 10 ≤ n) (k : Plane) :
    (calculatePolar powell num o n).table k .LC = (calculatePolar powell num o' n).table k .LC ↔
      ∀ t β, IsCompressibility C (direction k t) β ↔ IsCompressibility C' (direction k t) β := by
  have S : o.soec.Smat = sTensor C⁻¹ := by obtain ⟨-, e⟩ := soec_ok (load_solid h).1; rw [e]
  have S' : o'.soec.Smat = sTensor C'⁻¹ := by obtain ⟨-, e⟩ := soec_ok (load_solid h').1; rw [e]
  have val : ∀ t, o.linearCompressibility (node k t) =
      1000 * ∑ i, ∑ j, ∑ l, direction k t i * direction k t j * sTensor C⁻¹ i j l l := by
    intro t
    rw [(solid_generic h ho).2.1, Soec.linearCompressibility, S, node_direction]
    rfl
  have val' : ∀ t, o'.linearCompressibility (node k t) =
      1000 * ∑ i, ∑ j, ∑ l, direction k t i * direction k t j * sTensor C'⁻¹ i j l l := by
    intro t
    rw [(solid_generic h' ho').2.1, Soec.linearCompressibility, S', node_direction]
    rfl
  have parts : ∀ x y : ℝ, max 0 x = max 0 y → max 0 (-x) = max 0 (-y) → x = y := by
    intro x y h1 h2
    have e : ∀ z : ℝ, z = max 0 z - max 0 (-z) := by
      intro z
      rcases le_total 0 z with hz | hz
      · rw [max_eq_right hz, max_eq_left (by linarith), sub_zero]
      · rw [max_eq_left hz, max_eq_right (by linarith)]
        ring
    rw [e x, e y, h1, h2]
  rw [tables_agree powell num o o' (by omega) k .LC (by simp)]
  constructor
  · intro hrow t β
    rw [isCompressibility_iff hC, isCompressibility_iff hC',
      quartic_nodes (compressibility_quartic (sTensor C⁻¹) k) (compressibility_quartic (sTensor C'⁻¹) k) hn (fun i hi => ?_) t]
    have := hrow i hi
    simp only [valuesAt, List.cons.injEq, and_true] at this
    have := parts _ _ this.1 this.2
    rw [val, val'] at this
    linarith
  · intro hβ i hi
    have := (hβ (radians (angle n i)) _).1 ((isCompressibility_iff hC _ _).2 rfl)
    rw [isCompressibility_iff hC'] at this
    simp only [valuesAt, val, val', this]

end Verif.Polar
