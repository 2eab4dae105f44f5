/-
Turned tensors: how the contractions of the stiffness and compliance tensors change with the frame.
-/
import Verif.Elastic.Tensor
import Verif.Elastic.RotationSpec

namespace Verif.Elastic
open Verif.Elastic.Spec

variable {R : Fin 3 → Fin 3 → ℝ}

theorem orthogonal_mul (hR : Orthogonal R) : (Matrix.of R).transpose * Matrix.of R = 1 := by
  ext i j
  rw [Matrix.mul_apply, Matrix.one_apply]
  exact hR i j

theorem orthogonal_mul' (hR : Orthogonal R) : Matrix.of R * (Matrix.of R).transpose = 1 :=
  mul_eq_one_comm.1 (orthogonal_mul hR)

/-- The rows are orthonormal too. -/
theorem orthogonal_rows (hR : Orthogonal R) (i j : Fin 3) : ∑ k, R i k * R j k = if i = j then 1 else 0 := by
  have := congrFun (congrFun (orthogonal_mul' hR) i) j
  rw [Matrix.mul_apply, Matrix.one_apply] at this
  exact this

/-- The inverse of an isometry. -/
theorem orthogonal_transpose (hR : Orthogonal R) : Orthogonal (fun i j => R j i) := fun i j => orthogonal_rows hR i j

theorem turn_eq (R : Fin 3 → Fin 3 → ℝ) (a : V3) : turn R a = (Matrix.of R).mulVec a := rfl

theorem turnTensor_eq (R : Fin 3 → Fin 3 → ℝ) (t : T2) :
    Matrix.of (turnTensor R t) = Matrix.of R * Matrix.of t * (Matrix.of R).transpose := by
  ext i j
  rw [Matrix.mul_apply]
  simp only [Matrix.mul_apply, Matrix.of_apply, Matrix.transpose_apply, turnTensor, Finset.sum_mul]
  rw [Finset.sum_comm]
  refine Finset.sum_congr rfl fun l _ => Finset.sum_congr rfl fun k _ => by ring

theorem turn_transpose (hR : Orthogonal R) (a : V3) : turn (fun i j => R j i) (turn R a) = a := by
  have : (Matrix.of fun i j => R j i) = (Matrix.of R).transpose := rfl
  rw [turn_eq, turn_eq, this, Matrix.mulVec_mulVec, orthogonal_mul hR, Matrix.one_mulVec]

theorem turn_transpose' (hR : Orthogonal R) (a : V3) : turn R (turn (fun i j => R j i) a) = a := by
  have : (Matrix.of fun i j => R j i) = (Matrix.of R).transpose := rfl
  rw [turn_eq, turn_eq, this, Matrix.mulVec_mulVec, orthogonal_mul' hR, Matrix.one_mulVec]

theorem turnTensor_transpose (hR : Orthogonal R) (t : T2) : turnTensor (fun i j => R j i) (turnTensor R t) = t := by
  have h : Matrix.of (turnTensor (fun i j => R j i) (turnTensor R t)) = Matrix.of t := by
    rw [turnTensor_eq, turnTensor_eq]
    have : (Matrix.of fun i j => R j i) = (Matrix.of R).transpose := rfl
    rw [this, Matrix.transpose_transpose, Matrix.mul_assoc, Matrix.mul_assoc, Matrix.mul_assoc, orthogonal_mul hR,
      Matrix.mul_one, ← Matrix.mul_assoc, orthogonal_mul hR, Matrix.one_mul]
  exact Matrix.of.injective h

theorem symm_turnTensor {t : T2} (ht : Symm t) : Symm (turnTensor R t) := by
  intro i j
  unfold turnTensor
  rw [Finset.sum_comm]
  refine Finset.sum_congr rfl fun k _ => Finset.sum_congr rfl fun l _ => ?_
  rw [ht l k]
  ring

theorem dot_eq (a b : V3) : dot a b = a ⬝ᵥ b := rfl

theorem along_eq (t : T2) (a b : V3) : along t a b = a ⬝ᵥ (Matrix.of t).mulVec b := by
  simp only [along, dotProduct, Matrix.mulVec, Matrix.of_apply, Finset.mul_sum]
  refine Finset.sum_congr rfl fun i _ => Finset.sum_congr rfl fun j _ => by ring

theorem dot_turn (hR : Orthogonal R) (a b : V3) : dot (turn R a) (turn R b) = dot a b := by
  rw [dot_eq, dot_eq, turn_eq, turn_eq, Matrix.dotProduct_mulVec, ← Matrix.mulVec_transpose, Matrix.mulVec_mulVec,
    orthogonal_mul hR, Matrix.one_mulVec]

theorem along_turn (hR : Orthogonal R) (t : T2) (a b : V3) :
    along (turnTensor R t) (turn R a) (turn R b) = along t a b := by
  rw [along_eq, along_eq, turnTensor_eq, turn_eq, turn_eq, Matrix.mulVec_mulVec, Matrix.mul_assoc, orthogonal_mul hR,
    Matrix.mul_one, ← Matrix.mulVec_mulVec, ← dot_eq, ← turn_eq, ← turn_eq, dot_turn hR, dot_eq]

/-- The strain or stress a tensor answers with. -/
def app (T : T4) (t : T2) : T2 := fun i j => ∑ k, ∑ l, T i j k l * t k l

/-- The symmetric product of two vectors. -/
noncomputable def sym (a b : V3) : T2 := fun i j => (a i * b j + b i * a j) / 2

theorem symm_sym (a b : V3) : Symm (sym a b) := by intro i j; unfold sym; ring

theorem turnTensor_sym (a b : V3) : turnTensor R (sym a b) = sym (turn R a) (turn R b) := by
  funext i j
  simp only [turnTensor, sym, turn, Fin.sum_univ_three]
  ring

theorem contract4_app {T : T4} (hT : ∀ i j k l, T i j k l = T i j l k) (a b c d : V3) :
    contract4 T a b c d = along (app T (sym c d)) a b := by
  have e : ∀ i j, ∑ k, ∑ l, T i j k l * (sym c d) k l = ∑ k, ∑ l, T i j k l * (c k * d l) := by
    intro i j
    have h1 : ∑ k, ∑ l, T i j k l * (d k * c l) = ∑ k, ∑ l, T i j k l * (c k * d l) := by
      rw [Finset.sum_comm]
      refine Finset.sum_congr rfl fun k _ => Finset.sum_congr rfl fun l _ => ?_
      rw [hT i j l k]
      ring
    have h2 : ∑ k, ∑ l, T i j k l * (sym c d) k l =
        (∑ k, ∑ l, T i j k l * (c k * d l) + ∑ k, ∑ l, T i j k l * (d k * c l)) / 2 := by
      simp only [sym, Fin.sum_univ_three]
      ring
    rw [h2, h1]
    ring
  simp only [contract4, along, app, e, Finset.mul_sum, Finset.sum_mul]
  refine Finset.sum_congr rfl fun i _ => Finset.sum_congr rfl fun j _ => Finset.sum_congr rfl fun k _ =>
    Finset.sum_congr rfl fun l _ => ?_
  ring

/-- The contractions with turned vectors, from the response to turned symmetric tensors. -/
theorem contract4_turn (hR : Orthogonal R) {T T' : T4} (hT : ∀ i j k l, T i j k l = T i j l k)
    (hT' : ∀ i j k l, T' i j k l = T' i j l k)
    (h : ∀ t, Symm t → app T' (turnTensor R t) = turnTensor R (app T t)) (a b c d : V3) :
    contract4 T' (turn R a) (turn R b) (turn R c) (turn R d) = contract4 T a b c d := by
  rw [contract4_app hT', contract4_app hT, ← turnTensor_sym, h _ (symm_sym c d), along_turn hR]

theorem cTensor_minor (C : M6) (i j k l : Fin 3) : cTensor C i j k l = cTensor C i j l k := by
  unfold cTensor; rw [vm_comm k l]

theorem sTensor_minor (S : M6) (i j k l : Fin 3) : sTensor S i j k l = sTensor S i j l k := by
  unfold sTensor; rw [vm_comm k l]

theorem voigtStress_vm (σ : T2) (hσ : Symm σ) (i j : Fin 3) : voigtStress σ (vm i j) = σ i j := by
  fin_cases i <;> fin_cases j <;> first | rfl | exact hσ _ _

/-- Hooke's law with the stiffness tensor. -/
theorem hooke_app {C : M6} {ε σ : T2} : Hooke C ε σ ↔ Symm ε ∧ σ = app (cTensor C) ε := by
  have key : ∀ ε, Symm ε → ∀ i j, app (cTensor C) ε i j = ∑ J, C (vm i j) J * voigtStrain ε J := by
    intro ε hε i j
    have := sum_vm fun J => C (vm i j) J * (voigtStrain ε J / wt J)
    have e2 : ∑ J, wt J * (C (vm i j) J * (voigtStrain ε J / wt J)) = ∑ J, C (vm i j) J * voigtStrain ε J := by
      refine Finset.sum_congr rfl fun J _ => ?_
      have := (wt_pos J).ne'
      field_simp
    rw [← e2, ← this]
    unfold app cTensor
    refine Finset.sum_congr rfl fun k _ => Finset.sum_congr rfl fun l _ => ?_
    rw [voigtStrain_vm ε hε, mul_div_cancel_left₀ _ (wt_pos _).ne']
  constructor
  · rintro ⟨h1, h2, h3⟩
    refine ⟨h1, ?_⟩
    funext i j
    rw [key ε h1, ← h3, voigtStress_vm σ h2]
  · rintro ⟨h1, rfl⟩
    have hs : Symm (app (cTensor C) ε) := by
      intro i j
      rw [key ε h1, key ε h1, vm_comm]
    refine ⟨h1, hs, fun I => ?_⟩
    obtain ⟨i, j, rfl⟩ := vm_surj I
    rw [voigtStress_vm _ hs, key ε h1]

theorem turned_app {C C' : M6} (h : Turned R C C') {t : T2} (ht : Symm t) :
    app (cTensor C') (turnTensor R t) = turnTensor R (app (cTensor C) t) :=
  ((hooke_app.1 (h _ _ (hooke_app.2 ⟨ht, rfl⟩))).2).symm

theorem symm_app_c (C : M6) {t : T2} (ht : Symm t) : Symm (app (cTensor C) t) := (hooke_app.2 ⟨ht, rfl⟩).2.1

theorem turned_strain {C C' : M6} (hC : C.det ≠ 0) (hC' : C'.det ≠ 0) (h : Turned R C C') {t : T2} (ht : Symm t) :
    app (sTensor C'⁻¹) (turnTensor R t) = turnTensor R (app (sTensor C⁻¹) t) :=
  ((hooke_iff hC' _ _ (symm_turnTensor ht)).1 (h _ _ ((hooke_iff hC _ _ ht).2 rfl))).symm

/-- The stiffness tensor of the turned crystal. -/
theorem stiffness_turn (hR : Orthogonal R) {C C' : M6} (h : Turned R C C') (a b c d : V3) :
    contract4 (cTensor C') (turn R a) (turn R b) (turn R c) (turn R d) = contract4 (cTensor C) a b c d :=
  contract4_turn hR (cTensor_minor C) (cTensor_minor C') (fun _ ht => turned_app h ht) a b c d

/-- The compliance tensor of the turned crystal. -/
theorem compliance_turn (hR : Orthogonal R) {C C' : M6} (hC : C.det ≠ 0) (hC' : C'.det ≠ 0) (h : Turned R C C')
    (a b c d : V3) :
    contract4 (sTensor C'⁻¹) (turn R a) (turn R b) (turn R c) (turn R d) = contract4 (sTensor C⁻¹) a b c d :=
  contract4_turn hR (sTensor_minor _) (sTensor_minor _) (fun _ ht => turned_strain hC hC' h ht) a b c d

/-! ### Sums over a frame -/

/-- The Cartesian axes. -/
def axis (i : Fin 3) : V3 := fun j => if i = j then 1 else 0

theorem turn_axis (R : Fin 3 → Fin 3 → ℝ) (i : Fin 3) : turn R (axis i) = fun j => R j i := by
  funext j
  simp [turn, axis]

theorem contract4_axes (T : T4) (i j k l : Fin 3) : contract4 T (axis i) (axis j) (axis k) (axis l) = T i j k l := by
  simp [contract4, axis]

/-- The trace over the first and third, and the second and fourth places, in the turned axes. -/
theorem trace_cross (hR : Orthogonal R) (T : T4) :
    ∑ i, ∑ j, contract4 T (turn R (axis i)) (turn R (axis j)) (turn R (axis i)) (turn R (axis j)) =
      ∑ i, ∑ j, T i j i j := by
  have hr := orthogonal_rows hR
  have h : ∀ a b c d, ∑ i, ∑ j, T a b c d * R a i * R b j * R c i * R d j =
      T a b c d * ((if a = c then 1 else 0) * (if b = d then 1 else 0)) := by
    intro a b c d
    rw [← hr a c, ← hr b d, Finset.sum_mul_sum, Finset.mul_sum]
    refine Finset.sum_congr rfl fun i _ => ?_
    rw [Finset.mul_sum]
    refine Finset.sum_congr rfl fun j _ => by ring
  simp only [contract4, turn_axis]
  calc _ = ∑ a, ∑ b, ∑ c, ∑ d, ∑ i, ∑ j, T a b c d * R a i * R b j * R c i * R d j := by
        simp only [Fin.sum_univ_three]; ring
    _ = _ := by
        rw [Finset.sum_congr rfl fun a _ => Finset.sum_congr rfl fun b _ => Finset.sum_congr rfl fun c _ =>
          Finset.sum_congr rfl fun d _ => h a b c d]
        simp

/-- The trace over the first and the second pair, in the turned axes. -/
theorem trace_pairs (hR : Orthogonal R) (T : T4) :
    ∑ i, ∑ j, contract4 T (turn R (axis i)) (turn R (axis i)) (turn R (axis j)) (turn R (axis j)) =
      ∑ i, ∑ j, T i i j j := by
  have hr := orthogonal_rows hR
  have h : ∀ a b c d, ∑ i, ∑ j, T a b c d * R a i * R b i * R c j * R d j =
      T a b c d * ((if a = b then 1 else 0) * (if c = d then 1 else 0)) := by
    intro a b c d
    rw [← hr a b, ← hr c d, Finset.sum_mul_sum, Finset.mul_sum]
    refine Finset.sum_congr rfl fun i _ => ?_
    rw [Finset.mul_sum]
    refine Finset.sum_congr rfl fun j _ => by ring
  simp only [contract4, turn_axis]
  calc _ = ∑ a, ∑ b, ∑ c, ∑ d, ∑ i, ∑ j, T a b c d * R a i * R b i * R c j * R d j := by
        simp only [Fin.sum_univ_three]; ring
    _ = _ := by
        rw [Finset.sum_congr rfl fun a _ => Finset.sum_congr rfl fun b _ => Finset.sum_congr rfl fun c _ =>
          Finset.sum_congr rfl fun d _ => h a b c d]
        simp

/-- The trace over the second pair, in the turned axes. -/
theorem trace_second (hR : Orthogonal R) (T : T4) (a : V3) :
    ∑ k, contract4 T a a (turn R (axis k)) (turn R (axis k)) = ∑ i, ∑ j, ∑ k, a i * a j * T i j k k := by
  have hr := orthogonal_rows hR
  simp only [contract4, turn_axis]
  calc _ = ∑ i, ∑ j, ∑ c, ∑ d, T i j c d * a i * a j * ∑ k, R c k * R d k := by
        simp only [Fin.sum_univ_three]; ring
    _ = _ := by
        simp only [hr, Fin.sum_univ_three]
        simp
        ring

end Verif.Elastic
