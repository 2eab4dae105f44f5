/- Concrete cases for the theorems about seismic velocities. -/
import Verif.Seismic.Convex
import Verif.Elastic.Cases
import Verif.Seismic.Cache
import Verif.Seismic.Classes
import Verif.Seismic.FigureProps
import Verif.Seismic.Group
import Verif.Seismic.Motion
import Verif.Seismic.Plot
import Verif.Seismic.Projection
import Verif.Seismic.RayBound
import Verif.Seismic.RayProps
import Verif.Seismic.Rod
import Verif.Seismic.Rotation
import Verif.Seismic.Scaling
import Verif.Seismic.Scan
import Verif.Seismic.Stiffer
import Verif.Seismic.Sandwich
import Verif.Seismic.SumRules
import Verif.Seismic.Resolution

namespace Verif.Seismic.Cases
open Verif.Py Verif.Elastic Verif.Elastic.Spec Verif.Elastic.Cases Verif.Seismic Verif.Seismic.Spec

/-- Routines of linear algebra that do what is asked of them. -/
noncomputable def num : Numerics := Classical.choose exists_numerics
theorem eigh : EighCorrect num := (Classical.choose_spec exists_numerics).1
theorem pinv : PinvCorrect num := (Classical.choose_spec exists_numerics).2

theorem seismic_of_det {C : M6} (h : C.det ≠ 0) (d : ℝ) : ∃ o, seismic C d = .ok o := ⟨_, if_neg h⟩

/-- The calculators of periclase, olivine and of an isotropic solid. -/
noncomputable def mgo' : Seismic := Classical.choose (seismic_of_det (posDef_det periclase_posDef) 3585)
theorem mgo'_ok : seismic periclase 3585 = .ok mgo' :=
  Classical.choose_spec (seismic_of_det (posDef_det periclase_posDef) 3585)
noncomputable def oli' : Seismic := Classical.choose (seismic_of_det (posDef_det olivine_posDef) 3300)
theorem oli'_ok : seismic (ofInt olivine) 3300 = .ok oli' :=
  Classical.choose_spec (seismic_of_det (posDef_det olivine_posDef) 3300)
theorem iso_posDef : (isotropic 160 80).PosDef := isotropic_posDef (by norm_num) (by norm_num)
noncomputable def iso' : Seismic := Classical.choose (seismic_of_det (posDef_det iso_posDef) 3200)
theorem iso'_ok : seismic (isotropic 160 80) 3200 = .ok iso' :=
  Classical.choose_spec (seismic_of_det (posDef_det iso_posDef) 3200)

theorem periclase_symm (i j : Fin 6) : periclase i j = periclase j i := periclase_cubic.1.apply j i

/-- The results of a scan of periclase. -/
noncomputable def table : Tables := Classical.choose (C43_rows num mgo' 4 5 (by norm_num) (by norm_num) {})
theorem table_ok : scan num mgo' 4 5 {} = .ok table :=
  (Classical.choose_spec (C43_rows num mgo' 4 5 (by norm_num) (by norm_num) {})).1
noncomputable def isoTable : Tables := Classical.choose (C43_rows num iso' 4 5 (by norm_num) (by norm_num) {})
theorem isoTable_ok : scan num iso' 4 5 {} = .ok isoTable :=
  (Classical.choose_spec (C43_rows num iso' 4 5 (by norm_num) (by norm_num) {})).1

/-! ### Directions and cache -/

example := C41_cleared num mgo' [.spherical 1 2, .solve] [.solveGroup] (by simp) .groupVelocity
example := C42_theta_partial num mgo' ![1, 2, 2] (by simp) {}
example := C42_group_partial num mgo' (.spherical 1 2) (.inl ⟨1, 2, rfl⟩) {}

/-! ### Waves -/

example := C37_same_matrix _ _ (by norm_num) _ mgo'_ok ![1, 0, 0]
example := C37_velocities num eigh _ periclase_posDef _ (by norm_num) _ mgo_ok _ mgo'_ok 1 2
example := C39_projection_partial num eigh _ periclase_symm _ _ mgo'_ok (.spherical 1 2) (.inl ⟨1, 2, rfl⟩) {}
example := C39_negative_violated num eigh
example := C157_motion num eigh _ periclase_symm _ (by norm_num) _ mgo'_ok (.spherical 1 2) (.inl ⟨1, 2, rfl⟩) {}
/-- All the waves of periclase have positive speeds. -/
example : ∃ (pv : V3) (pol : M3),
    (step num mgo' (.read .phaseVelocity) (step num mgo' (.spherical 1 2) {}).2).1 = .ok (.vec pv) ∧
    ∀ i, 0 < pv i ∧ ObeysMotion (fun i j k l => 10 ^ 9 * cTensor periclase i j k l) 3585
      (planeWave (pol i) (seismicVector 1 2) 7 (1000 * pv i)) := by
  obtain ⟨q, pv, pol, gv, hq, hp, -, -, -, -, h⟩ :=
    C157_motion num eigh _ periclase_symm _ (by norm_num) _ mgo'_ok (.spherical 1 2) (.inl ⟨1, 2, rfl⟩) {}
  obtain ⟨-, hpos, hread⟩ := C37_velocities num eigh _ periclase_posDef _ (by norm_num) _ mgo_ok _ mgo'_ok 1 2
  have e1 : pv = Soec.phaseVelocity num mgo 1 2 := by
    have := hp.symm.trans (hread {})
    simpa using this
  have e2 : q = seismicVector 1 2 := by
    have g := set_good (num := num) (o := mgo') (op := .spherical 1 2) (d := ⟨seismicVector 1 2, 1, 2⟩) rfl {}
    have := hq.symm.trans (step_read g .q)
    injection this with this
    injection this
  subst e1 e2
  exact ⟨_, pol, hp, fun i => ⟨hpos i, (h i (hpos i) 7 _ rfl).1⟩⟩
example := C157_only num eigh _ periclase_symm _ (by norm_num) _ mgo'_ok (.cartesian ![1, 2, 2]) (.inr ⟨_, by simp, rfl⟩) {}
example := C40_matrix num _ _ (by norm_num) _ mgo'_ok (.cartesian ![1, 2, 2]) (.inr ⟨_, by simp, rfl⟩) {}
example := C73_ratios num eigh _ periclase_posDef _ (by norm_num) _ mgo'_ok 1 2 {}
example := C118_rays num eigh pinv periclase_symm mgo'_ok (setting := .spherical 1 2) (.inl ⟨1, 2, rfl⟩) {}
example := C119_waves num eigh _ periclase_posDef _ (by norm_num) _ mgo_ok _ mgo'_ok 1 2 3 {}
example := C130_order num eigh _ periclase_posDef _ (by norm_num) _ mgo_ok (1, 2)
example := C130_sum num eigh _ periclase_posDef _ (by norm_num) _ mgo_ok (0, 0) (Real.pi / 2, 0) (Real.pi / 2, Real.pi / 2) (by
  refine ⟨⟨vector_unit _ _, vector_unit _ _, ?_⟩, ⟨vector_unit _ _, vector_unit _ _, ?_⟩, ⟨vector_unit _ _, vector_unit _ _, ?_⟩⟩ <;>
    simp [dot, vector, Fin.sum_univ_three])
example := C130_bound num eigh _ periclase_posDef _ (by norm_num) _ mgo_ok (1, 2)
example : ∃ minimize : Search (ℝ × ℝ), Extremes periclase 3585 2 (phaseVelocityVariation minimize num mgo).Vp := by
  obtain ⟨minimize, hm⟩ := exists_finds (X := ℝ × ℝ)
  exact ⟨minimize, (C130_ranges num eigh _ periclase_posDef _ (by norm_num) _ mgo_ok minimize hm).2.2⟩
example := C160_cubic_waves num eigh periclase_cubic periclase_posDef (by norm_num) mgo_ok mgo'_ok 1 2 {}
example := C174_ray num eigh _ periclase_posDef _ (by norm_num) _ mgo'_ok (.spherical 1 2) (.inl ⟨1, 2, rfl⟩) {} {}
example := C174_bound num eigh _ periclase_posDef _ (by norm_num) _ mgo_ok _ mgo'_ok (.spherical 1 2) (.inl ⟨1, 2, rfl⟩) {}
example := C180_triangle num eigh _ periclase_posDef _ (by norm_num) _ mgo'_ok ![1, 0, 0] ![0, 2, 0]
  (fun h => by simpa using congrFun h 0) (fun h => by simpa using congrFun h 1) (fun h => by simpa using congrFun h 0) {} {} {}
example := C180_lipschitz num eigh _ periclase_posDef _ (by norm_num) _ mgo_ok (1, 2) (1.1, 2.2) 0
example := C182_phase num eigh _ periclase_posDef _ (by norm_num) _ mgo_ok _ mgo'_ok 4 5 (by norm_num) (by norm_num) {}
example := C133_waves num eigh _ periclase_posDef _ (by norm_num) _ mgo_ok
example := C133_aggregate num eigh _ periclase_posDef _ (by norm_num) _ mgo_ok

/-! ### Symmetry -/

example := C125_waves_cubic num eigh pinv periclase_cubic mgo'_ok (x := (0, 0)) (x' := (Real.pi / 2, 0)) (by
  refine ⟨Equiv.swap 0 2, fun i => ?_⟩
  fin_cases i <;> simp [vector, Equiv.swap_apply_def])
example := C125_waves_orthorhombic num eigh pinv (C := ofInt olivine) olivine_orthorhombic oli'_ok (x := (1, 2))
  (x' := (Real.pi - 1, 2)) (by
    intro i
    fin_cases i <;> simp [vector, Real.sin_pi_sub, Real.cos_pi_sub])
example := C125_velocities_axis num eigh (C := ofInt olivine) olivine_orthorhombic olivine_posDef (by norm_num) oli_ok oli'_ok
  (theta := 0) (phi := 0) 2 (by intro i hi; fin_cases i <;> simp [vector] at hi ⊢)
example := C125_velocities_face num eigh periclase_cubic periclase_posDef (by norm_num) mgo_ok mgo'_ok (theta := Real.pi / 2)
  (phi := Real.pi / 4) ⟨1, fun i => by fin_cases i <;> simp [vector, Real.cos_pi_div_four, Real.sin_pi_div_four]⟩
theorem periclase_repeat : Repeat periclase (Real.pi / 2) := by
  refine .inr (.inl ⟨⟨periclase_cubic.1, ?_, ?_, ?_, ?_, ?_, ?_, ?_, ?_, ?_, ?_, ?_, ?_, ?_, ?_⟩, rfl⟩) <;>
    simp [periclase, cubic]
example := C125_waves_axis num eigh pinv periclase_repeat mgo'_ok 1 2
example := C125_velocities_principal num eigh periclase_repeat periclase_posDef (by norm_num) mgo_ok mgo'_ok (theta := 0)
  (phi := 0) (by simp [vector]) (by simp [vector])

/-! ### Turned, stiffer and converted crystals -/

/-- Olivine turned by a quarter turn. -/
example : ∃ C' s' o', Turned quarter (ofInt olivine) C' ∧ soec C' 3300 = .ok s' ∧ seismic C' 3300 = .ok o' ∧
    Soec.phaseVelocity num s' 1 (2 + Real.pi / 2) = Soec.phaseVelocity num oli 1 2 ∧
    (step num o' (.read .phaseVelocity) (step num o' (.spherical 1 (2 + Real.pi / 2)) {}).2).1 =
      (step num oli' (.read .phaseVelocity) (step num oli' (.spherical 1 2) {}).2).1 := by
  obtain ⟨C', hC'⟩ := (C116_turned quarter_orthogonal (ofInt olivine)).1
  obtain ⟨s', hs'⟩ := ((C116_turned quarter_orthogonal (ofInt olivine)).2 C' hC' 3300).1 ⟨_, oli_ok⟩
  obtain ⟨o', ho'⟩ := seismic_of_det (soec_ok hs').1 3300
  have hv : vector 1 (2 + Real.pi / 2) = turn quarter (vector 1 2) := by
    funext i
    fin_cases i <;> simp [vector, turn, quarter, Fin.sum_univ_three, Real.cos_add_pi_div_two, Real.sin_add_pi_div_two]
  refine ⟨C', s', o', hC', hs', ho', C117_elastic num eigh quarter_orthogonal
    (fun i j => olivine_orthorhombic.1.apply j i) hC' oli_ok hs' hv, ?_⟩
  refine (C117_waves num eigh pinv quarter_orthogonal (fun i j => olivine_orthorhombic.1.apply j i) hC' oli'_ok ho'
    (.inl ⟨1, 2, rfl⟩) (.inl ⟨1, _, rfl⟩) (q := vector 1 2) ?_ ?_).1 _ (.inl rfl)
  · rfl
  · rw [← hv]; rfl

example : ∃ s' o', soec ((2 : ℝ) • periclase) (3 * 3585) = .ok s' ∧ seismic ((2 : ℝ) • periclase) (3 * 3585) = .ok o' ∧
    Soec.phaseVelocity num s' 1 2 0 = Real.sqrt (2 / 3) * Soec.phaseVelocity num mgo 1 2 0 ∧
    (step num o' (.read .relPhaseVelocity) (step num o' (.spherical 1 2) {}).2).1 =
      (step num mgo' (.read .relPhaseVelocity) (step num mgo' (.spherical 1 2) {}).2).1 := by
  obtain ⟨s', hs'⟩ := ((C122_directional (l := 2) (m := 3) (by norm_num) periclase 3585).1).1 ⟨_, mgo_ok⟩
  obtain ⟨o', ho'⟩ := seismic_of_det (soec_ok hs').1 (3 * 3585)
  exact ⟨s', o', hs', ho', C122_elastic num eigh (by norm_num) (by norm_num) periclase_symm mgo_ok hs' 1 2 0,
    (C122_waves num eigh pinv (by norm_num) (by norm_num) periclase_symm (by norm_num) mgo'_ok ho'
      (.inl ⟨1, 2, rfl⟩)).1⟩

example : ∃ s s', soec (isotropic 100 50) 3000 = .ok s ∧ soec (isotropic 120 60) 2900 = .ok s' ∧
    Soec.phaseVelocity num s 1 2 0 ≤ Soec.phaseVelocity num s' 1 2 0 := by
  have h : (isotropic 100 50).PosDef := isotropic_posDef (by norm_num) (by norm_num)
  have h' : (isotropic 120 60).PosDef := isotropic_posDef (by norm_num) (by norm_num)
  obtain ⟨s, hs⟩ := soec_of_det (posDef_det h) 3000
  obtain ⟨s', hs'⟩ := soec_of_det (posDef_det h') 2900
  obtain ⟨o, ho⟩ := seismic_of_det (posDef_det h) 3000
  obtain ⟨o', ho'⟩ := seismic_of_det (posDef_det h') 2900
  exact ⟨s, s', hs, hs', (C129_waves num eigh h h' (stiffer_isotropic (by norm_num) (by norm_num)) (by norm_num)
    (by norm_num) hs hs' ho ho' 1 2 {} {}).1 0⟩

/-! ### Scans and figures -/

example := C43_ends 180 720 (by norm_num) (by norm_num)
example := C43_mesh num mgo' 4 5 (by norm_num) (by norm_num) {} _ table_ok 1 3 4 (by norm_num) (by norm_num)
example := C43_single num mgo' 1 720 (.inl ⟨rfl, by norm_num⟩) {}

theorem iso'_velocity (p : Fin 3) : iso'.isotropicVelocity p ≠ 0 := by
  obtain ⟨s, hs⟩ := soec_of_det (posDef_det iso_posDef) 3200
  obtain ⟨-, -, hiso, -⟩ := C38_isotropic num eigh 160 80 3200 (by norm_num) (by norm_num) (by norm_num) s hs iso' iso'_ok 0 0
  rw [hiso]
  fin_cases p
  · show Real.sqrt _ / 1000 ≠ 0
    positivity
  · show Real.sqrt _ / 1000 ≠ 0
    positivity
  · show Real.sqrt _ / 1000 ≠ 0
    positivity

example := C65_figures_partial num iso' iso'_velocity 4 5 (by norm_num) (by norm_num) {} _ isoTable_ok 2
  c!"phase velocity" (by simp [datasets]) 1
example := C65_polarization_violated num eigh pinv iso' iso'_ok 4 5 (by norm_num) (by norm_num) {} _ isoTable_ok 1
example := C65_header_violated num iso' 4 5 (by norm_num) (by norm_num) {} _ isoTable_ok 1 2 3 (by norm_num) (by norm_num)
example := C132_label_violated num iso' iso'_velocity 4 5 (by norm_num) (by norm_num) {} _ isoTable_ok .eqar c!"mgo"
example := C132_ratios num mgo' 4 5 (by norm_num) (by norm_num) {} _ table_ok .stereo c!"mgo"
example := C132_file_violated num mgo' 4 5 (by norm_num) (by norm_num) {} _ table_ok c!"mgo"
example := C132_spheres num iso' iso'_velocity 4 5 (by norm_num) (by norm_num) {} _ isoTable_ok c!"mgo" c!"phase velocity"
  c!"Vp" c!"v_p \\: (km \\: s^{-1})" true (by simp [catalogue]) (by simp [symbols])
example := C132_names num eigh _ periclase_posDef _ (by norm_num) _ mgo'_ok 1 2 (Soec.phaseVelocity num mgo 1 2) (fun p => by
  refine ⟨fun _ => ⟨_, (C37_velocities num eigh _ periclase_posDef _ (by norm_num) _ mgo_ok _ mgo'_ok 1 2).2.2 {}, rfl⟩, ?_⟩
  simp)

/-! ### Projections -/

example := C64_disc .eqar 1 2 (by norm_num) (by linarith [Real.two_le_pi])
example := C64_azimuth .stereo 1 2 (by norm_num) (by linarith [Real.two_le_pi])
example := C64_radius_increases .eqar (1 / 2) 1 2 3 (by norm_num) (by norm_num) (by linarith [Real.two_le_pi])
example := C64_conformal 1 2 (by norm_num) (by linarith [Real.two_le_pi])
example := C64_equal_area (Set.Ioc (Real.pi / 6) (Real.pi / 3) ×ˢ Set.Ico 0 (Real.pi / 2))
  (measurableSet_Ioc.prod measurableSet_Ico) (by
    have hpi := Real.pi_pos
    rintro ⟨u, v⟩ ⟨hu, hv⟩
    simp only [Set.mem_Ioc, Set.mem_Ico] at hu hv
    exact ⟨⟨by linarith [hu.1], by linarith [hu.2]⟩, hv.1, by linarith [hv.2]⟩)

end Verif.Seismic.Cases
