/-
C116: the elastic properties do not depend on the Cartesian frame.
-/
import Verif.Elastic.Rotation
import Verif.Elastic.Props

namespace Verif.Elastic
open Verif.Py Verif.Elastic.Spec

variable {R : Fin 3 → Fin 3 → ℝ}

/-! ### The turned crystal -/

theorem frob_turn (hR : Orthogonal R) (A t : T2) :
    ∑ k, ∑ l, turnTensor R A k l * turnTensor R t k l = ∑ k, ∑ l, A k l * t k l := by
  have e : ∀ A t : T2, ∑ k, ∑ l, A k l * t k l = Matrix.trace ((Matrix.of A) * (Matrix.of t).transpose) := by
    intro A t
    simp only [Matrix.trace, Matrix.diag, Matrix.mul_apply, Matrix.of_apply, Matrix.transpose_apply]
  rw [e, e, turnTensor_eq, turnTensor_eq, Matrix.transpose_mul, Matrix.transpose_mul, Matrix.transpose_transpose]
  calc _ = Matrix.trace (Matrix.of R * (Matrix.of A * (((Matrix.of R).transpose * Matrix.of R) *
        ((Matrix.of t).transpose * (Matrix.of R).transpose)))) := by simp only [Matrix.mul_assoc]
    _ = _ := by
        rw [orthogonal_mul hR, Matrix.one_mul, Matrix.trace_mul_comm, Matrix.mul_assoc, Matrix.mul_assoc,
          orthogonal_mul hR, Matrix.mul_one]

/-- The two Cartesian indices of a Voigt index. -/
def pair : Fin 6 → Fin 3 × Fin 3 := ![(0, 0), (1, 1), (2, 2), (1, 2), (0, 2), (0, 1)]

/-- The stiffness of the turned crystal. -/
def turnedStiffness (R : Fin 3 → Fin 3 → ℝ) (C : M6) : M6 := Matrix.of fun I J =>
  contract4 (cTensor C) (R (pair I).1) (R (pair I).2) (R (pair J).1) (R (pair J).2)

theorem contract4_swap_first (C : M6) (a b c d : V3) :
    contract4 (cTensor C) a b c d = contract4 (cTensor C) b a c d := by
  unfold contract4
  rw [Finset.sum_comm]
  refine Finset.sum_congr rfl fun i _ => Finset.sum_congr rfl fun j _ => Finset.sum_congr rfl fun k _ =>
    Finset.sum_congr rfl fun l _ => ?_
  rw [show cTensor C j i k l = cTensor C i j k l by unfold cTensor; rw [vm_comm]]
  ring

theorem contract4_swap_second (C : M6) (a b c d : V3) :
    contract4 (cTensor C) a b c d = contract4 (cTensor C) a b d c := by
  unfold contract4
  refine Finset.sum_congr rfl fun i _ => Finset.sum_congr rfl fun j _ => ?_
  rw [Finset.sum_comm]
  refine Finset.sum_congr rfl fun k _ => Finset.sum_congr rfl fun l _ => ?_
  rw [cTensor_minor]
  ring

theorem turnedStiffness_tensor (R : Fin 3 → Fin 3 → ℝ) (C : M6) (i j k l : Fin 3) :
    cTensor (turnedStiffness R C) i j k l = contract4 (cTensor C) (R i) (R j) (R k) (R l) := by
  have h1 : ∀ i j, pair (vm i j) = (i, j) ∨ pair (vm i j) = (j, i) := by decide
  unfold cTensor turnedStiffness
  rw [Matrix.of_apply]
  show contract4 (cTensor C) _ _ _ _ = contract4 (cTensor C) _ _ _ _
  rcases h1 i j with e | e <;> rcases h1 k l with e' | e' <;> rw [e, e']
  · rw [contract4_swap_second]
  · rw [contract4_swap_first]
  · rw [contract4_swap_first, contract4_swap_second]

/-- Every crystal can be turned. -/
theorem turnedStiffness_turned (hR : Orthogonal R) (C : M6) : Turned R C (turnedStiffness R C) := by
  intro ε σ h
  obtain ⟨hε, rfl⟩ := hooke_app.1 h
  refine hooke_app.2 ⟨symm_turnTensor hε, ?_⟩
  funext i j
  set A : T2 := fun c d => ∑ a, ∑ b, R i a * R j b * cTensor C a b c d with hA
  have h1 : ∀ k l, cTensor (turnedStiffness R C) i j k l = turnTensor R A k l := by
    intro k l
    rw [turnedStiffness_tensor]
    simp only [contract4, turnTensor, hA, Fin.sum_univ_three]
    ring
  unfold app
  simp only [h1]
  rw [frob_turn hR]
  simp only [turnTensor, hA, Fin.sum_univ_three]
  ring

theorem turned_det (hR : Orthogonal R) {C C' : M6} (hC : C.det ≠ 0) (h : Turned R C C') : C'.det ≠ 0 := by
  intro h0
  obtain ⟨v, hv, hm⟩ := Matrix.exists_mulVec_eq_zero_iff.2 h0
  set ε' : T2 := fun i j => v (vm i j) / wt (vm i j) with hε'
  have hs' : Symm ε' := fun i j => by simp only [hε', vm_comm i j]
  have hvoigt : voigtStrain ε' = v := by
    funext I
    obtain ⟨i, j, rfl⟩ := vm_surj I
    rw [voigtStrain_vm ε' hs', hε', mul_div_cancel₀ _ (wt_pos _).ne']
  set ε := turnTensor (fun i j => R j i) ε' with hε
  have hs : Symm ε := symm_turnTensor hs'
  have hback : turnTensor R ε = ε' := turnTensor_transpose (R := fun i j => R j i) (orthogonal_transpose hR) ε'
  have hz : app (cTensor C') ε' = fun _ _ => 0 := by
    have hh := hooke_app.2 ⟨hs', (rfl : app (cTensor C') ε' = _)⟩
    funext i j
    rw [← voigtStress_vm _ hh.2.1, hh.2.2, hvoigt]
    exact congrFun hm (vm i j)
  have h1 : turnTensor R (app (cTensor C) ε) = fun _ _ => 0 := by
    rw [← turned_app h hs, hback, hz]
  have h2 : app (cTensor C) ε = fun _ _ => 0 := by
    rw [← turnTensor_transpose hR (app (cTensor C) ε), h1]
    funext i j
    simp [turnTensor]
  have hz2 : Symm (fun _ _ => 0 : T2) := fun _ _ => rfl
  have h3 : ε = fun _ _ => 0 := by
    have := (hooke_iff hC ε (fun _ _ => 0) hz2).1 (hooke_app.2 ⟨hs, h2.symm⟩)
    rw [this]
    funext i j
    simp [strainOf]
  have h4 : ε' = fun _ _ => 0 := by
    rw [← hback, h3]
    funext i j
    simp [turnTensor]
  refine hv (hvoigt ▸ ?_)
  rw [h4]
  funext I
  fin_cases I <;> simp [voigtStrain]

/-- The tensor of a turned crystal. -/
theorem turned_tensor (hR : Orthogonal R) {C C' : M6} (h : Turned R C C') (i j k l : Fin 3) :
    cTensor C' i j k l = contract4 (cTensor C) (R i) (R j) (R k) (R l) := by
  have ht := orthogonal_transpose hR
  have e : ∀ i, axis i = turn R (R i) := by
    intro i
    rw [← turn_transpose' hR (axis i), turn_axis]
  rw [← contract4_axes (cTensor C'), e i, e j, e k, e l, stiffness_turn hR h]

theorem turned_eq (hR : Orthogonal R) {C C' : M6} (h : Turned R C C') : C' = turnedStiffness R C := by
  ext I J
  obtain ⟨i, j, rfl⟩ := vm_surj I
  obtain ⟨k, l, rfl⟩ := vm_surj J
  have h1 := turned_tensor hR h i j k l
  have h2 := turnedStiffness_tensor R C i j k l
  exact h1.trans h2.symm

theorem turned_symm (hR : Orthogonal R) {C C' : M6} (hC : ∀ i j, C i j = C j i) (h : Turned R C C') (I J : Fin 6) :
    C' I J = C' J I := by
  rw [turned_eq hR h]
  unfold turnedStiffness
  rw [Matrix.of_apply, Matrix.of_apply]
  generalize pair I = p
  generalize pair J = q
  have hm : ∀ i j k l, cTensor C i j k l = cTensor C k l i j := fun i j k l => hC _ _
  unfold contract4
  simp only [Fin.sum_univ_three]
  rw [hm 0 0 0 0]
  simp only [hm 1 1 0 0, hm 2 2 0 0, hm 0 1 0 0, hm 1 0 0 0, hm 0 2 0 0, hm 2 0 0 0, hm 1 2 0 0, hm 2 1 0 0,
    hm 1 1 0 1, hm 2 2 0 1, hm 1 0 0 1, hm 0 2 0 1, hm 2 0 0 1, hm 1 2 0 1, hm 2 1 0 1,
    hm 1 1 1 0, hm 2 2 1 0, hm 0 2 1 0, hm 2 0 1 0, hm 1 2 1 0, hm 2 1 1 0,
    hm 1 1 0 2, hm 2 2 0 2, hm 2 0 0 2, hm 1 2 0 2, hm 2 1 0 2,
    hm 1 1 2 0, hm 2 2 2 0, hm 1 2 2 0, hm 2 1 2 0,
    hm 2 2 1 1, hm 1 2 1 1, hm 2 1 1 1, hm 2 2 1 2, hm 2 1 1 2, hm 2 2 2 1]
  ring

/-! ### C116 -/

/-- C116: a crystal can be turned in every way, and the calculator takes the turned crystal exactly when it takes the
crystal. -/
theorem C116_turned (hR : Orthogonal R) (C : M6) :
    (∃ C', Turned R C C') ∧ ∀ C', Turned R C C' → ∀ density,
      ((∃ s, soec C density = .ok s) ↔ ∃ s', soec C' density = .ok s') := by
  refine ⟨⟨_, turnedStiffness_turned hR C⟩, fun C' h density => ?_⟩
  have hdet : C.det = 0 ↔ C'.det = 0 := by
    constructor
    · intro h0
      by_contra h1
      have hback : Turned (fun i j => R j i) C' C := by
        intro ε' σ' hh
        obtain ⟨hs', rfl⟩ := hooke_app.1 hh
        refine hooke_app.2 ⟨symm_turnTensor hs', ?_⟩
        have hb := turnTensor_transpose (R := fun i j => R j i) (orthogonal_transpose hR) ε'
        have h2 := turned_app h (symm_turnTensor (R := fun i j => R j i) hs')
        rw [hb] at h2
        rw [h2, turnTensor_transpose hR]
      exact turned_det (orthogonal_transpose hR) h1 hback h0
    · intro h0
      by_contra h1
      exact turned_det hR h1 h h0
  unfold soec
  by_cases h0 : C.det = 0
  · simp [h0, hdet.1 h0]
  · have h1 : ¬ C'.det = 0 := fun h => h0 (hdet.2 h)
    simp [h0, h1]

/-- C116: the directional properties of the turned crystal along turned directions are those of the crystal along the
directions themselves. -/
theorem C116_directional (hR : Orthogonal R) {C C' : M6} (h : Turned R C C') {density : ℝ} {s s' : Soec}
    (hs : soec C density = .ok s) (hs' : soec C' density = .ok s') :
    (∀ x x', vector x'.1 x'.2 = turn R (vector x.1 x.2) →
      s'.youngModulus x' = s.youngModulus x ∧ s'.linearCompressibility x' = s.linearCompressibility x) ∧
    ∀ x x', vector x'.1 x'.2.1 = turn R (vector x.1 x.2.1) →
      vectorChi x'.1 x'.2.1 x'.2.2 = turn R (vectorChi x.1 x.2.1 x.2.2) →
      s'.shearModulus x' = s.shearModulus x ∧ s'.poissonRatio x' = s.poissonRatio x := by
  obtain ⟨hC, rfl⟩ := soec_ok hs
  obtain ⟨hC', rfl⟩ := soec_ok hs'
  have key := compliance_turn hR hC hC' h
  refine ⟨fun x x' hx => ⟨?_, ?_⟩, fun x x' hx hy => ⟨?_, ?_⟩⟩
  · simp only [Soec.youngModulus, youngAlong, hx, key]
  · simp only [Soec.linearCompressibility, compressibilityAlong, hx]
    rw [← trace_second hR, ← trace_second (R := fun i j => if i = j then 1 else 0)
      (fun i j => by fin_cases i <;> fin_cases j <;> simp)]
    simp only [key]
    congr 1
    refine Finset.sum_congr rfl fun k _ => ?_
    rw [show turn (fun i j => if i = j then 1 else 0) (axis k) = axis k by
      rw [turn_axis]; funext j; simp only [axis, eq_comm]]
  · simp only [Soec.shearModulus, shearAlong_eq, hx, hy, key]
  · simp only [Soec.poissonRatio, poissonAlong_eq, hx, hy, key]

/-- The traces of a tensor and of the turned one. -/
theorem traces_turn (hR : Orthogonal R) {T T' : T4}
    (key : ∀ a b c d, contract4 T' (turn R a) (turn R b) (turn R c) (turn R d) = contract4 T a b c d) :
    ∑ i, ∑ j, T' i i j j = ∑ i, ∑ j, T i i j j ∧ ∑ i, ∑ j, T' i j i j = ∑ i, ∑ j, T i j i j := by
  constructor
  · rw [← trace_pairs hR]; simp only [key, contract4_axes]
  · rw [← trace_cross hR]; simp only [key, contract4_axes]

theorem voigtG_trace {C : M6} (hC : ∀ i j, C i j = C j i) :
    voigtG C = (3 * ∑ i, ∑ j, cTensor C i j i j - ∑ i, ∑ j, cTensor C i i j j) / 30 := by
  simp only [voigtG, cTensor, vm, Fin.sum_univ_three, Matrix.cons_val, hC 1 0, hC 2 0, hC 2 1]
  ring

theorem reussG_trace {S : M6} (hS : ∀ i j, S i j = S j i) :
    reussG S = 15 / (6 * ∑ i, ∑ j, sTensor S i j i j - 2 * ∑ i, ∑ j, sTensor S i i j j) := by
  simp only [reussG, sTensor, sc, vm, Fin.sum_univ_three, Matrix.cons_val, hS 1 0, hS 2 0, hS 2 1]
  congr 1
  norm_num
  ring

/-- C116: the averages and the isotropic velocities do not change when the crystal is turned. -/
theorem C116_averages (hR : Orthogonal R) {C C' : M6} (hsym : ∀ i j, C i j = C j i) (h : Turned R C C') {density : ℝ}
    {s s' : Soec} (hs : soec C density = .ok s) (hs' : soec C' density = .ok s') :
    s'.averages = s.averages ∧ s'.isotropicVelocities = s.isotropicVelocities := by
  obtain ⟨hC, rfl⟩ := soec_ok hs
  obtain ⟨hC', rfl⟩ := soec_ok hs'
  obtain ⟨c1, c2⟩ := traces_turn hR (stiffness_turn hR h)
  obtain ⟨s1, s2⟩ := traces_turn hR (compliance_turn hR hC hC' h)
  have hsym' := turned_symm hR hsym h
  have inv : ∀ {C : M6}, (∀ i j, C i j = C j i) → ∀ i j, C⁻¹ i j = C⁻¹ j i := by
    intro C hC i j
    have hT : C.transpose = C := by ext i j; exact hC j i
    have : C⁻¹.transpose = C⁻¹ := by rw [Matrix.transpose_nonsing_inv, hT]
    exact congrFun (congrFun this j) i
  have hav : ({ C := C', density := density, S := C'⁻¹, Smat := sTensor C'⁻¹, Cmat := cTensor C' } : Soec).averages =
      ({ C := C, density := density, S := C⁻¹, Smat := sTensor C⁻¹, Cmat := cTensor C } : Soec).averages := by
    simp only [Soec.averages, einsum_iijj, c1, s1, voigtG_trace hsym, voigtG_trace hsym', c2, reussG_trace (inv hsym),
      reussG_trace (inv hsym'), s2]
  refine ⟨hav, ?_⟩
  simp only [Soec.isotropicVelocities, hav]

/-- C116: the properties have the symmetry of the crystal: along directions that a symmetry operation of the crystal takes
into each other they are equal. -/
theorem C116_symmetry (hR : Orthogonal R) {C : M6} (h : Turned R C C) {density : ℝ} {s : Soec}
    (hs : soec C density = .ok s) :
    (∀ x x', vector x'.1 x'.2 = turn R (vector x.1 x.2) →
      s.youngModulus x' = s.youngModulus x ∧ s.linearCompressibility x' = s.linearCompressibility x) ∧
    ∀ x x', vector x'.1 x'.2.1 = turn R (vector x.1 x.2.1) →
      vectorChi x'.1 x'.2.1 x'.2.2 = turn R (vectorChi x.1 x.2.1 x.2.2) →
      s.shearModulus x' = s.shearModulus x ∧ s.poissonRatio x' = s.poissonRatio x :=
  C116_directional hR h hs hs

/-- A quarter turn about the third axis. -/
def quarter : Fin 3 → Fin 3 → ℝ := ![![0, -1, 0], ![1, 0, 0], ![0, 0, 1]]

theorem quarter_orthogonal : Orthogonal quarter := by
  intro i j
  fin_cases i <;> fin_cases j <;> simp [quarter, Fin.sum_univ_three]

/-- The stiffness of a cubic crystal. -/
def cubic (a b c : ℝ) : M6 :=
  Matrix.of ![![a, b, b, 0, 0, 0], ![b, a, b, 0, 0, 0], ![b, b, a, 0, 0, 0], ![0, 0, 0, c, 0, 0], ![0, 0, 0, 0, c, 0],
    ![0, 0, 0, 0, 0, c]]

/-- The quarter turn is a symmetry operation of a cubic crystal, so that its properties repeat every quarter turn. -/
example (a b c density : ℝ) (s : Soec) (hs : soec (cubic a b c) density = .ok s) (t p : ℝ) :
    s.youngModulus (t, p + Real.pi / 2) = s.youngModulus (t, p) := by
  have hT : Turned quarter (cubic a b c) (cubic a b c) := by
    rintro ε σ ⟨h1, h2, h3⟩
    have e0 := h3 0
    have e1 := h3 1
    have e2 := h3 2
    have e3 := h3 3
    have e4 := h3 4
    have e5 := h3 5
    simp only [voigtStress, voigtStrain, cubic, Fin.sum_univ_six, Matrix.of_apply, Matrix.cons_val, zero_mul, zero_add,
      add_zero] at e0 e1 e2 e3 e4 e5
    refine ⟨symm_turnTensor h1, symm_turnTensor h2, fun I => ?_⟩
    have t : ∀ τ : T2, turnTensor quarter τ = 
        ![![τ 1 1, -τ 1 0, -τ 1 2], ![-τ 0 1, τ 0 0, τ 0 2], ![-τ 2 1, τ 2 0, τ 2 2]] := by
      intro τ
      funext i j
      fin_cases i <;> fin_cases j <;> simp [turnTensor, quarter, Fin.sum_univ_three]
    rw [t, t]
    have s1 := h1 1 0
    have s2 := h2 1 0
    fin_cases I <;> simp [voigtStress, voigtStrain, cubic, Fin.sum_univ_six, s1, s2] <;> linarith
  refine ((C116_symmetry quarter_orthogonal hT hs).1 (t, p) (t, p + Real.pi / 2) ?_).1
  funext i
  fin_cases i <;> simp [vector, turn, quarter, Fin.sum_univ_three, Real.cos_add_pi_div_two, Real.sin_add_pi_div_two]

end Verif.Elastic
