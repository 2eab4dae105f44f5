/- Concrete cases for the theorems about elastic properties. -/
import Verif.Elastic.Classes
import Verif.Elastic.Gradual
import Verif.Elastic.OrientationProps
import Verif.Elastic.RunProps
import Verif.Elastic.Scaling
import Verif.Elastic.Stiffer
import Verif.Elastic.Symmetry
import Verif.Elastic.Transverse

namespace Verif.Elastic.Cases
open Verif.Py Verif.Elastic Verif.Elastic.Spec

/-- The calculator of periclase. -/
noncomputable def mgo : Soec := Classical.choose (soec_of_det (posDef_det periclase_posDef) 3585)
theorem mgo_ok : soec periclase 3585 = .ok mgo := Classical.choose_spec (soec_of_det (posDef_det periclase_posDef) 3585)

/-- The calculator of olivine. -/
noncomputable def oli : Soec := Classical.choose (soec_of_det (posDef_det olivine_posDef) 3300)
theorem oli_ok : soec (ofInt olivine) 3300 = .ok oli := Classical.choose_spec (soec_of_det (posDef_det olivine_posDef) 3300)

/-- The calculator of an isotropic solid. -/
noncomputable def iso : Soec :=
  Classical.choose (soec_of_det (posDef_det (isotropic_posDef (K := 10) (G := 6) (by norm_num) (by norm_num))) 3000)
theorem iso_ok : soec (isotropic 10 6) 3000 = .ok iso :=
  Classical.choose_spec (soec_of_det (posDef_det (isotropic_posDef (K := 10) (G := 6) (by norm_num) (by norm_num))) 3000)

theorem olivine_orthorhombic : OrthorhombicForm (ofInt olivine) := by
  constructor
  · ext i j; fin_cases i <;> fin_cases j <;> rfl
  · intro i j hij h3
    rw [olivine_diagonal, Matrix.diagonal_apply_ne _ hij]

theorem olivine_check : checkSymmetry (ofInt olivine) = .ok .orthorhombic := check_int (by decide +kernel)

theorem olivine_load : load (ofInt olivine) 3300 = .ok (.orthorhombic, { soec := oli, ortho := true }) := by
  have hc : oli.C = ofInt olivine := by obtain ⟨-, h⟩ := soec_ok oli_ok; rw [h]
  simp [load, bind, Except.bind, oli_ok, hc, olivine_check, pure, Except.pure]

/-! ### The directional properties -/

example := C31_tensors _ _ _ mgo_ok
example := C32_reversal mgo (1, 2) (Real.pi - 1, 2 + Real.pi) (by
  funext i
  fin_cases i <;> simp [vector, Real.cos_add_pi, Real.sin_add_pi, Real.sin_pi_sub, Real.cos_pi_sub])
example := C32_isotropic 10 6 3000 (by norm_num) (by norm_num) (by norm_num) _ iso_ok
example (theta phi : ℝ) : ∃ ε, Hooke periclase ε (uniaxial 2 (vector theta phi)) ∧
    mgo.youngModulus (theta, phi) = 2 / along ε (vector theta phi) (vector theta phi) := by
  obtain ⟨ε, hε, -⟩ := response_unique periclase (posDef_det periclase_posDef) _ (symm_uniaxial 2 (vector theta phi))
  have h := C32_young _ _ _ mgo_ok theta phi 2 ε hε
  exact ⟨ε, hε, h.1 ((h.2 periclase_posDef).2 (by norm_num))⟩
example (theta phi : ℝ) : ∃ ε, Hooke periclase ε (hydrostatic 2) ∧
    mgo.linearCompressibility (theta, phi) = 1000 * (-along ε (vector theta phi) (vector theta phi) / 2) := by
  obtain ⟨ε, hε, -⟩ := response_unique periclase (posDef_det periclase_posDef) (hydrostatic 2) (by
    intro i j; simp [hydrostatic, eq_comm])
  exact ⟨ε, hε, C32_compressibility _ _ _ mgo_ok theta phi 2 (by norm_num) ε hε⟩
example (theta phi chi : ℝ) : ∃ ε, Hooke periclase ε (shear 2 (vector theta phi) (vectorChi theta phi chi)) ∧
    mgo.shearModulus (theta, phi, chi) = 2 / (2 * along ε (vector theta phi) (vectorChi theta phi chi)) := by
  obtain ⟨ε, hε, -⟩ := response_unique periclase (posDef_det periclase_posDef) _
    (symm_shear 2 (vector theta phi) (vectorChi theta phi chi))
  have h := C33_shear _ _ _ mgo_ok theta phi chi 2 ε hε
  exact ⟨ε, hε, h.2.1 ((h.2.2 periclase_posDef).2 (by norm_num))⟩
example (theta phi chi : ℝ) : ∃ ε, Hooke periclase ε (uniaxial 2 (vector theta phi)) ∧
    mgo.poissonRatio (theta, phi, chi) = -along ε (vectorChi theta phi chi) (vectorChi theta phi chi) /
      along ε (vector theta phi) (vector theta phi) := by
  obtain ⟨ε, hε, -⟩ := response_unique periclase (posDef_det periclase_posDef) _ (symm_uniaxial 2 (vector theta phi))
  exact ⟨ε, hε, C33_poisson _ _ periclase_cubic.1 _ mgo_ok theta phi chi 2 ε hε
    (((C32_young _ _ _ mgo_ok theta phi 2 ε hε).2 periclase_posDef).2 (by norm_num))⟩
example := C33_reciprocity _ _ periclase_posDef _ mgo_ok (Real.pi / 2, 0, Real.pi / 2)
  (Real.pi / 2, Real.pi / 2, -(Real.pi / 2)) (by funext i; fin_cases i <;> simp [vector, vectorChi])
  (by funext i; fin_cases i <;> simp [vector, vectorChi])
example := C34_fast_path _ olivine_orthorhombic _ _ oli_ok
example := C34_calculator _ olivine_orthorhombic _ _ _ olivine_load _ oli_ok
example := C35_complete ![1, 0, 0] ![0, 0, 1] (by
  refine ⟨?_, ?_, ?_⟩ <;> simp [UnitVector, dot, Fin.sum_univ_three])

/-! ### Averages -/

example := C36_ordered _ periclase_posDef _ _ mgo_ok
example := C36_relations _ periclase_posDef _ _ mgo_ok _ (.inr (.inr rfl))
example := C36_isotropic 10 6 3000 (by norm_num) (by norm_num) _ iso_ok _ (.inr (.inl rfl))
example : ∃ s' : Seismic, seismic periclase 3585 = .ok s' ∧ s'.bulkModulus = mgo.averages.hill.K := by
  obtain ⟨s', h'⟩ : ∃ s', seismic periclase 3585 = .ok s' := by
    simp [seismic, posDef_det periclase_posDef]
  exact ⟨s', h', (C36_modules _ _ (by norm_num) _ _ mgo_ok h').1⟩
example := C133_reuss _ periclase_posDef _ _ mgo_ok
example : ∃ E : Variation, ExtremesOf (youngAlong oli.Smat) E ∧ E.minimum ≤ oli.averages.reuss.E := by
  obtain ⟨min2, h2⟩ := exists_finds (X := ℝ × ℝ)
  obtain ⟨min3, h3⟩ := exists_finds (X := ℝ × ℝ × ℝ)
  obtain ⟨a1, a2⟩ := C46_extremes _ olivine_posDef 3300 _ oli_ok min2 h2
  obtain ⟨a3, -⟩ := C46_pair_extremes_partial _ olivine_posDef 3300 _ oli_ok min3 h3
  exact ⟨_, a1, (C133_between _ olivine_posDef 3300 _ oli_ok _ _ _ a1 a2 a3).1.1⟩

/-! ### Relations -/

example := C119_compressibilities _ periclase_posDef _ _ mgo_ok (Real.pi / 2, 0) (Real.pi / 2, Real.pi / 2) (0, 0) (by
  refine ⟨⟨?_, ?_, ?_⟩, ⟨?_, ?_, ?_⟩, ?_, ?_, ?_⟩ <;> simp [UnitVector, dot, vector, Fin.sum_univ_three])
example := C119_hydrostatic _ periclase_posDef _ _ mgo_ok 1 2 3
example : ∃ σ, Hooke periclase (uniaxial 2 (vector 1 2)) σ ∧
    mgo.youngModulus (1, 2) ≤ along σ (vector 1 2) (vector 1 2) / 2 :=
  ⟨_, hooke_app.2 ⟨symm_uniaxial _ _, rfl⟩, (C119_bounds _ periclase_posDef _ _ mgo_ok 1 2 3 2 (by norm_num)).1 _
    (hooke_app.2 ⟨symm_uniaxial _ _, rfl⟩)⟩

/-! ### Pairs and triads of directions -/

theorem describes_xy : Describes (Real.pi / 2, 0, Real.pi / 2) ![1, 0, 0] ![0, 1, 0] := by
  constructor <;> (funext i; fin_cases i <;> simp [vector, vectorChi])
theorem describes_yx : Describes (Real.pi / 2, Real.pi / 2, -(Real.pi / 2)) ![0, 1, 0] ![1, 0, 0] := by
  constructor <;> (funext i; fin_cases i <;> simp [vector, vectorChi])

example := C178_pair _ periclase_posDef _ _ mgo_ok _ _ _ _ describes_xy describes_yx
example := C178_triad _ olivine_posDef _ _ oli_ok ![1, 0, 0] ![0, 1, 0] ![0, 0, 1]
  (by refine ⟨⟨?_, ?_, ?_⟩, ⟨?_, ?_, ?_⟩, ?_, ?_, ?_⟩ <;> simp [UnitVector, dot, Fin.sum_univ_three])
  _ _ (Real.pi / 2, Real.pi / 2, Real.pi) (0, 0, Real.pi / 2) (0, 0, 0) (Real.pi / 2, 0, Real.pi) describes_xy describes_yx
  (by constructor <;> (funext i; fin_cases i <;> simp [vector, vectorChi]))
  (by constructor <;> (funext i; fin_cases i <;> simp [vector, vectorChi]))
  (by constructor <;> (funext i; fin_cases i <;> simp [vector, vectorChi]))
  (by constructor <;> (funext i; fin_cases i <;> simp [vector, vectorChi]))
example := C178_bisectors _ periclase_posDef _ _ mgo_ok _ _ _ _ describes_xy describes_yx (Real.pi / 2, Real.pi / 4)
  (Real.pi / 2, -(Real.pi / 4))
  (fun i => by fin_cases i <;> simp [vector, ← Real.sqrt_div_self])
  (fun i => by fin_cases i <;> simp [vector, ← Real.sqrt_div_self, neg_div])

example : ∃ z, (1 / √(oli.youngModulus (1, 2)) - 1 / √(oli.youngModulus (1.5, 2))) ^ 2 ≤
    (1 - dot (vector 1 2) (vector 1.5 2) ^ 2) / oli.shearModulus z := by
  obtain ⟨z, a, b, h1, h2⟩ := C181_bisectors (1, 2) (1.5, 2)
  exact ⟨z, C181_young _ olivine_posDef _ _ oli_ok (1, 2) (1.5, 2) z a b h1 h2⟩

/-! ### Turned, stiffer and converted crystals -/

/-- Olivine turned by a quarter turn. -/
example : ∃ C' s', Turned quarter (ofInt olivine) C' ∧ soec C' 3300 = .ok s' ∧ s'.averages = oli.averages ∧
    s'.youngModulus (1, 2 + Real.pi / 2) = oli.youngModulus (1, 2) := by
  obtain ⟨C', hC'⟩ := (C116_turned quarter_orthogonal (ofInt olivine)).1
  obtain ⟨s', hs'⟩ := ((C116_turned quarter_orthogonal (ofInt olivine)).2 C' hC' 3300).1 ⟨_, oli_ok⟩
  refine ⟨C', s', hC', hs', (C116_averages quarter_orthogonal (fun i j => ?_) hC' oli_ok hs').1,
    ((C116_directional quarter_orthogonal hC' oli_ok hs').1 (1, 2) (1, 2 + Real.pi / 2) ?_).1⟩
  · exact olivine_orthorhombic.1.apply j i
  · funext i
    fin_cases i <;> simp [vector, turn, quarter, Fin.sum_univ_three, Real.cos_add_pi_div_two, Real.sin_add_pi_div_two]

example := C125_orthorhombic (C := ofInt olivine) olivine_orthorhombic oli_ok (x := (1, 2)) (x' := (Real.pi - 1, 2)) (by
  intro i
  fin_cases i <;> simp [vector, Real.sin_pi_sub, Real.cos_pi_sub])

example := C122_directional (l := 2) (m := 3) (by norm_num) periclase 3585
example : ∃ s', soec ((2 : ℝ) • periclase) (3 * 3585) = .ok s' ∧ s'.averages.reuss.K = 2 * mgo.averages.reuss.K := by
  obtain ⟨s', hs'⟩ := ((C122_directional (l := 2) (m := 3) (by norm_num) periclase 3585).1).1 ⟨_, mgo_ok⟩
  exact ⟨s', hs', ((C122_averages (by norm_num) (by norm_num) mgo_ok hs').1 _ (.inr (.inl rfl))).1⟩

/-- Two isotropic solids, the second stiffer. -/
example : ∃ s s', soec (isotropic 100 50) 3000 = .ok s ∧ soec (isotropic 120 60) 2900 = .ok s' ∧
    s.youngModulus (1, 2) ≤ s'.youngModulus (1, 2) ∧ s.isotropicVelocities 0 ≤ s'.isotropicVelocities 0 := by
  have h : (isotropic 100 50).PosDef := isotropic_posDef (by norm_num) (by norm_num)
  have h' : (isotropic 120 60).PosDef := isotropic_posDef (by norm_num) (by norm_num)
  obtain ⟨s, hs⟩ := soec_of_det (posDef_det h) 3000
  obtain ⟨s', hs'⟩ := soec_of_det (posDef_det h') 2900
  have hst : Stiffer (isotropic 100 50) (isotropic 120 60) := stiffer_isotropic (by norm_num) (by norm_num)
  exact ⟨s, s', hs, hs', (C129_directional h h' hst hs hs' 1 2 3).1,
    (C129_averages h h' hst hs hs').2.2.2 (by norm_num) (by norm_num) 0⟩

/-! ### Crystal systems, extremes and the whole run -/

example := C44_sound_partial _ _ olivine_check (.inr (.inr (.inl rfl)))
example := C46_single_axis_partial mgo (fun f => ⟨(1, 1), f (1, 1)⟩) fun _ => rfl
example := C46_two_axes_violated (fun f => ⟨(1, 1, 1), f (1, 1, 1)⟩) fun _ => rfl

theorem eigenSolver_exists : ∃ eigvals, EigenSolver eigvals := by
  have hfin : ∀ m : M6, m.IsSymm → {l | Eigenvalue m l}.Finite := by
    intro m _
    refine (m.charpoly.rootSet_finite ℝ).subset fun l hl => ?_
    obtain ⟨v, hv, e⟩ := hl
    rw [Polynomial.mem_rootSet]
    refine ⟨m.charpoly_monic.ne_zero, ?_⟩
    rw [Polynomial.coe_aeval_eq_eval, Matrix.eval_charpoly]
    refine Matrix.exists_mulVec_eq_zero_iff.1 ⟨v, hv, ?_⟩
    rw [Matrix.sub_mulVec, e]
    simp [Matrix.scalar_apply, Matrix.mulVec_diagonal, funext_iff]
  classical
  refine ⟨fun m => if h : m.IsSymm then (hfin m h).toFinset.toList else [], ?_⟩
  intro m hm l
  simp [dif_pos hm]

example : ∃ eigvals, ∃ min2 : Search (ℝ × ℝ), ∃ min3 : Search (ℝ × ℝ × ℝ),
    (run eigvals min2 min3 { soec := oli, ortho := true }).completed = true := by
  obtain ⟨eigvals, he⟩ := eigenSolver_exists
  obtain ⟨min2, h2⟩ := exists_finds (X := ℝ × ℝ)
  obtain ⟨min3, h3⟩ := exists_finds (X := ℝ × ℝ × ℝ)
  obtain ⟨-, -, h, -⟩ := C46_run_partial _ olivine_posDef 3300 _ _ olivine_load (fun _ => olivine_orthorhombic) eigvals he
    min2 h2 min3 h3
  exact ⟨eigvals, min2, min3, h⟩

end Verif.Elastic.Cases
