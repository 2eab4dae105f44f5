/-
Property C157: the reported waves are solutions of the equation of motion, and their energy travels with the group velocity.
-/
import Mathlib.Analysis.SpecialFunctions.Trigonometric.Deriv
import Verif.Seismic.MotionSpec
import Verif.Seismic.Group
import Verif.Seismic.Derivative

noncomputable section

namespace Verif.Seismic
open Verif.Py Verif.Elastic Verif.Elastic.Spec Spec

variable {c : T4} {rho k v : ℝ} {e n : V3}

theorem dot_update (n x : V3) (j : Fin 3) (s : ℝ) : dot n (Function.update x j s) = dot n x + n j * (s - x j) := by
  simp only [dot, Fin.sum_univ_three]
  fin_cases j <;> simp [Function.update] <;> ring

theorem phase_deriv (n x : V3) (k v t : ℝ) (j : Fin 3) :
    HasDerivAt (fun s => k * (dot n (Function.update x j s) - v * t)) (k * n j) (x j) := by
  simp only [dot_update]
  have h : HasDerivAt (fun s : ℝ => s - x j) 1 (x j) := (hasDerivAt_id (x j)).sub_const (x j)
  have := ((h.const_mul (n j)).const_add (dot n x)).sub_const (v * t) |>.const_mul k
  simpa using this

theorem phase_time (n x : V3) (k v t : ℝ) : HasDerivAt (fun s => k * (dot n x - v * s)) (-(k * v)) t := by
  have := (((hasDerivAt_id t).const_mul v).const_sub (dot n x)).const_mul k
  simpa using this

theorem wave_partial (e n : V3) (k v t : ℝ) (x : V3) (i l : Fin 3) :
    partialAt (fun y => planeWave e n k v y t i) x l = -(e i * n l) * (k * Real.sin (k * (dot n x - v * t))) := by
  have h := ((phase_deriv n x k v t l).cos).const_mul (e i)
  have e' : Function.update x l (x l) = x := Function.update_eq_self l x
  rw [e'] at h
  unfold partialAt planeWave
  rw [h.deriv]
  ring

theorem wave_velocity (e n : V3) (k v t : ℝ) (x : V3) (i : Fin 3) :
    velocityOf (planeWave e n k v) x t i = e i * (k * v) * Real.sin (k * (dot n x - v * t)) := by
  have h := ((phase_time n x k v t).cos).const_mul (e i)
  unfold velocityOf planeWave
  rw [h.deriv]
  ring

theorem wave_stress (c : T4) (e n : V3) (k v t : ℝ) (x : V3) (i j : Fin 3) :
    stressOf c (planeWave e n k v) x t i j =
      -(∑ a, ∑ l, c i j a l * (e a * n l)) * (k * Real.sin (k * (dot n x - v * t))) := by
  unfold stressOf
  simp only [wave_partial, neg_mul, Finset.sum_mul, ← Finset.sum_neg_distrib]
  exact Finset.sum_congr rfl fun a _ => Finset.sum_congr rfl fun l _ => by ring

/-- The two sides of the equation of motion, for a plane wave. -/
theorem wave_sides (c : T4) (rho : ℝ) (e n : V3) (k v : ℝ) (hr : rho ≠ 0) (x : V3) (t : ℝ) (i : Fin 3) :
    deriv (fun s => velocityOf (planeWave e n k v) x s i) t = -(k ^ 2 * Real.cos (k * (dot n x - v * t))) * (v ^ 2 * e i) ∧
    ∑ j, partialAt (fun y => stressOf c (planeWave e n k v) y t i j) x j =
      -(k ^ 2 * Real.cos (k * (dot n x - v * t))) * (rho * ∑ a, acoustic c rho n i a * e a) := by
  have h1 : HasDerivAt (fun s => velocityOf (planeWave e n k v) x s i)
      (e i * (k * v) * (Real.cos (k * (dot n x - v * t)) * -(k * v))) t := by
    simp only [wave_velocity]
    exact ((phase_time n x k v t).sin).const_mul _
  have h2 : ∀ j, partialAt (fun y => stressOf c (planeWave e n k v) y t i j) x j =
      -(∑ a, ∑ l, c i j a l * (e a * n l)) * (k * (Real.cos (k * (dot n x - v * t)) * (k * n j))) := by
    intro j
    unfold partialAt
    simp only [wave_stress]
    have h := (((phase_deriv n x k v t j).sin).const_mul k).const_mul (-(∑ a, ∑ l, c i j a l * (e a * n l)))
    rw [Function.update_eq_self] at h
    exact h.deriv
  have key : ∑ j, n j * ∑ a, ∑ l, c i j a l * (e a * n l) = rho * ∑ a, acoustic c rho n i a * e a := by
    simp only [acoustic, Matrix.of_apply, Fin.sum_univ_three]
    field_simp
    ring
  have : ∑ j, -(∑ a, ∑ l, c i j a l * (e a * n l)) * (k * (Real.cos (k * (dot n x - v * t)) * (k * n j))) =
      -(k ^ 2 * Real.cos (k * (dot n x - v * t))) * ∑ j, n j * ∑ a, ∑ l, c i j a l * (e a * n l) := by
    rw [Finset.mul_sum]
    exact Finset.sum_congr rfl fun j _ => by ring
  constructor
  · rw [h1.deriv]
    ring
  · simp only [h2]
    rw [this, key]

theorem wave_motion (hr : rho ≠ 0) (he : Eigen (acoustic c rho n) (v ^ 2) e) : ObeysMotion c rho (planeWave e n k v) := by
  intro x t i
  obtain ⟨h1, h2⟩ := wave_sides c rho e n k v hr x t i
  rw [h1, h2, he i]
  ring

theorem wave_motion_only (hr : rho ≠ 0) (hk : k ≠ 0) (h : ObeysMotion c rho (planeWave e n k v)) :
    Eigen (acoustic c rho n) (v ^ 2) e := by
  intro i
  have hh := h 0 0 i
  obtain ⟨h1, h2⟩ := wave_sides c rho e n k v hr 0 0 i
  rw [h1, h2] at hh
  have h0 : Real.cos (k * (dot n 0 - v * 0)) = 1 := by simp [dot]
  rw [h0] at hh
  have hn : -(k ^ 2 * 1) ≠ 0 := by simpa using hk
  have : rho * -(k ^ 2 * 1) ≠ 0 := mul_ne_zero hr hn
  apply mul_left_cancel₀ this
  linarith

/-- The energy of a plane wave. -/
theorem wave_density (hr : rho ≠ 0) (hu : UnitVector e) (he : Eigen (acoustic c rho n) (v ^ 2) e) (x : V3) (t : ℝ) :
    energyDensity c rho (planeWave e n k v) x t = rho * (k * v * Real.sin (k * (dot n x - v * t))) ^ 2 := by
  have hq := eigen_quad he hu
  unfold energyDensity
  simp only [wave_velocity, wave_stress, wave_partial]
  simp only [UnitVector, dot] at hu
  set S := Real.sin (k * (dot n x - v * t)) with hS
  have a1 : ∑ i, (e i * (k * v) * S) ^ 2 = (k * v * S) ^ 2 := by
    calc ∑ i, (e i * (k * v) * S) ^ 2 = (k * v * S) ^ 2 * ∑ i, e i * e i := by
          rw [Finset.mul_sum]; exact Finset.sum_congr rfl fun i _ => by ring
      _ = _ := by rw [hu, mul_one]
  have a2 : ∑ i, ∑ j, -(∑ a, ∑ l, c i j a l * (e a * n l)) * (k * S) * (-(e i * n j) * (k * S)) =
      (k * S) ^ 2 * (rho * v ^ 2) := by
    rw [← hq]
    simp only [acoustic, Matrix.of_apply, Fin.sum_univ_three]
    field_simp
    ring
  rw [a1, a2]
  ring

/-- The flow of energy of a plane wave. -/
theorem wave_flux (x : V3) (t : ℝ) (j : Fin 3) :
    energyFlux c (planeWave e n k v) x t j =
      (∑ i, e i * ∑ a, ∑ l, c i j a l * (e a * n l)) * (k ^ 2 * v * Real.sin (k * (dot n x - v * t)) ^ 2) := by
  unfold energyFlux
  simp only [wave_velocity, wave_stress]
  rw [Finset.sum_mul, ← Finset.sum_neg_distrib]
  exact Finset.sum_congr rfl fun i _ => by ring

theorem tensor_minor (C : M6) (i j k l : Fin 3) : cTensor C i j k l = cTensor C j i k l ∧ cTensor C i j k l = cTensor C i j l k := by
  simp only [cTensor]
  rw [vm_comm i j, vm_comm k l]
  exact ⟨rfl, rfl⟩

theorem tensor_major {C : M6} (hC : ∀ i j, C i j = C j i) (i j k l : Fin 3) : cTensor C i j k l = cTensor C k l i j := by
  simp only [cTensor]
  rw [hC]

/-- The gradient of an eigenvalue of the Christoffel matrix. -/
theorem gradient_flux {C : M6} (hC : ∀ i j, C i j = C j i) {density : ℝ} {o : Seismic} (ho : seismic C density = .ok o) (q e : V3)
    (j : Fin 3) : dotProduct e ((gradChristoffel o.Cmat q j).mulVec e) =
      2 * ((1000 / density) * ∑ i, e i * ∑ a, ∑ l, cTensor C i j a l * (e a * q l)) := by
  obtain ⟨-, ho'⟩ := seismic_ok ho
  rw [ho']
  have s1 : ∀ a b c d, cTensor C a b c d = cTensor C a b d c := fun a b c d => (tensor_minor C a b c d).2
  have s2 : ∀ a b c d, cTensor C a c b d = cTensor C d b a c := fun a b c d => by
    rw [tensor_major hC, (tensor_minor C b d a c).1]
  have e1 : dotProduct e ((gradChristoffel (fun i j k l => cTensor C i j k l * (1000 / density)) q j).mulVec e) =
      (1000 / density) * (∑ a, ∑ d, ∑ l, e a * e d * q l * cTensor C a j l d + ∑ a, ∑ d, ∑ l, e a * e d * q l * cTensor C a l j d) := by
    simp only [dotProduct, Matrix.mulVec, gradChristoffel, Matrix.of_apply, Fin.sum_univ_three]
    ring
  have e2 : ∑ a, ∑ d, ∑ l, e a * e d * q l * cTensor C a j l d = ∑ i, e i * ∑ a, ∑ l, cTensor C i j a l * (e a * q l) := by
    refine Finset.sum_congr rfl fun a _ => ?_
    rw [Finset.mul_sum]
    refine Finset.sum_congr rfl fun d _ => ?_
    rw [Finset.mul_sum]
    refine Finset.sum_congr rfl fun l _ => ?_
    rw [s1 a j l d]
    ring
  have e3 : ∑ a, ∑ d, ∑ l, e a * e d * q l * cTensor C a l j d = ∑ i, e i * ∑ a, ∑ l, cTensor C i j a l * (e a * q l) := by
    rw [Finset.sum_comm]
    refine Finset.sum_congr rfl fun a _ => ?_
    rw [Finset.mul_sum]
    refine Finset.sum_congr rfl fun d _ => ?_
    rw [Finset.mul_sum]
    refine Finset.sum_congr rfl fun l _ => ?_
    rw [s2 d j l a]
    ring
  rw [e1, e2, e3]
  ring

/-- C157: for every symmetric stiffness matrix and positive density, every direction and every wave to which a positive phase
velocity is reported, the plane wave of any wave number with the reported polarisation and phase velocity along that direction
obeys the equation of motion of the crystal, and everywhere and at all times its energy flows with the reported group velocity.
(The factors 1000 and 10^9 express km/s and GPa in SI units.) -/
theorem C157_motion (num : Numerics) (hn : EighCorrect num) (C : M6) (hC : ∀ i j, C i j = C j i) (density : ℝ)
    (hr : 0 < density) (o : Seismic) (ho : seismic C density = .ok o) (setting : Op)
    (hset : (∃ theta phi, setting = .spherical theta phi) ∨ ∃ v, v ≠ 0 ∧ setting = .cartesian v) (st : State) :
    ∃ (q pv : V3) (pol gv : M3),
      (step num o (.read .q) (step num o setting st).2).1 = .ok (.vec q) ∧
      (step num o (.read .phaseVelocity) (step num o setting st).2).1 = .ok (.vec pv) ∧
      (step num o (.read .eigenvec) (step num o setting st).2).1 = .ok (.mat pol) ∧
      (step num o (.read .groupVelocity) (step num o setting st).2).1 = .ok (.mat gv) ∧
      UnitVector q ∧ Frame pol ∧
      ∀ i, 0 < pv i → ∀ k : ℝ, ∀ u : Field, u = planeWave (pol i) q k (1000 * pv i) →
        ObeysMotion (fun i j k l => 10 ^ 9 * cTensor C i j k l) density u ∧
        (∀ x t j, energyFlux (fun i j k l => 10 ^ 9 * cTensor C i j k l) u x t j =
          energyDensity (fun i j k l => 10 ^ 9 * cTensor C i j k l) density u x t * (1000 * gv i j)) ∧
        (k ≠ 0 → ∃ x t, 0 < energyDensity (fun i j k l => 10 ^ 9 * cTensor C i j k l) density u x t) := by
  obtain ⟨d, hd, hq⟩ := dir_of_setting hset
  have g := set_good (num := num) (o := o) hd st
  obtain ⟨-, -, hf, he⟩ := sortedEigh_spec hn (fun a b => christoffel_symm hC ho d.q a b)
  refine ⟨d.q, d.phase num o, d.eigenvec num o, (d.group num o).velocity, step_read g _, step_read g _, step_read g _,
    step_read g _, hq, hf, fun i hpos k u hu => ?_⟩
  have hun : UnitVector (d.eigenvec num o i) := by
    have := hf i i
    rwa [if_pos rfl] at this
  set w := d.eigenval num o i with hw
  have hp : d.phase num o i = Real.sign w * Real.sqrt |w| := rfl
  have hwpos : 0 < w := by
    rcases lt_trichotomy w 0 with h | h | h
    · rw [hp, Real.sign_of_neg h] at hpos
      nlinarith [Real.sqrt_nonneg |w|]
    · rw [hp, h] at hpos; simp at hpos
    · exact h
  have hsq : d.phase num o i ^ 2 = w := by
    rw [hp, Real.sign_of_pos hwpos, one_mul, abs_of_pos hwpos, Real.sq_sqrt hwpos.le]
  have hE : Eigen (acoustic (fun i j k l => 10 ^ 9 * cTensor C i j k l) density d.q) ((1000 * d.phase num o i) ^ 2)
      (d.eigenvec num o i) := by
    intro a
    have h := he i a
    have hM : d.M o = (1 / 10 ^ 6 : ℝ) • acoustic (fun i j k m => 10 ^ 9 * cTensor C i j k m) density d.q :=
      christoffel_eq ho hr.ne' d.q
    change ∑ b, d.M o a b * d.eigenvec num o i b = w * d.eigenvec num o i a at h
    rw [hM] at h
    simp only [Matrix.smul_apply, smul_eq_mul, mul_assoc, ← Finset.mul_sum] at h
    rw [mul_pow, hsq, mul_assoc, ← h]
    norm_num
    ring_nf
  subst hu
  refine ⟨wave_motion hr.ne' hE, fun x t j => ?_, fun hk => ?_⟩
  · rw [wave_flux, wave_density hr.ne' hun hE]
    have hg : (d.group num o).velocity i j =
        dotProduct (d.eigenvec num o i) ((gradChristoffel o.Cmat d.q j).mulVec (d.eigenvec num o i)) / (2 * d.phase num o i) := rfl
    rw [hg, gradient_flux hC ho]
    have hsum : ∑ a, d.eigenvec num o i a * ∑ b, ∑ l, 10 ^ 9 * cTensor C a j b l * (d.eigenvec num o i b * d.q l) =
        10 ^ 9 * ∑ a, d.eigenvec num o i a * ∑ b, ∑ l, cTensor C a j b l * (d.eigenvec num o i b * d.q l) := by
      simp only [Finset.mul_sum]
      exact Finset.sum_congr rfl fun a _ => Finset.sum_congr rfl fun b _ => Finset.sum_congr rfl fun l _ => by ring
    rw [hsum]
    generalize ∑ a, d.eigenvec num o i a * ∑ b, ∑ l, cTensor C a j b l * (d.eigenvec num o i b * d.q l) = F
    field_simp
    ring
  · refine ⟨0, -(Real.pi / 2) / (k * (1000 * d.phase num o i)), ?_⟩
    rw [wave_density hr.ne' hun hE]
    have : k * (dot d.q 0 - 1000 * d.phase num o i * (-(Real.pi / 2) / (k * (1000 * d.phase num o i)))) = Real.pi / 2 := by
      simp only [dot, Pi.zero_apply, mul_zero, Finset.sum_const_zero, zero_sub]
      field_simp
    rw [this, Real.sin_pi_div_two]
    positivity

/-- C157, the other way round: no other plane wave travels along the direction.  Every plane wave along it that obeys the equation
of motion with a positive speed has one of the three reported phase velocities, and its displacement is at right angles to the
polarisations of the waves of different speed. -/
theorem C157_only (num : Numerics) (hn : EighCorrect num) (C : M6) (hC : ∀ i j, C i j = C j i) (density : ℝ)
    (hr : 0 < density) (o : Seismic) (ho : seismic C density = .ok o) (setting : Op)
    (hset : (∃ theta phi, setting = .spherical theta phi) ∨ ∃ v, v ≠ 0 ∧ setting = .cartesian v) (st : State) :
    ∃ (q pv : V3) (pol : M3),
      (step num o (.read .q) (step num o setting st).2).1 = .ok (.vec q) ∧
      (step num o (.read .phaseVelocity) (step num o setting st).2).1 = .ok (.vec pv) ∧
      (step num o (.read .eigenvec) (step num o setting st).2).1 = .ok (.mat pol) ∧
      ∀ (e : V3) (k v : ℝ), e ≠ 0 → k ≠ 0 → 0 < v →
        ObeysMotion (fun i j k l => 10 ^ 9 * cTensor C i j k l) density (planeWave e q k v) →
        (∃ i, v = 1000 * pv i) ∧ ∀ i, v ≠ 1000 * pv i → dot (pol i) e = 0 := by
  obtain ⟨d, hd, hq⟩ := dir_of_setting hset
  have g := set_good (num := num) (o := o) hd st
  obtain ⟨-, -, hf, he⟩ := sortedEigh_spec hn (fun a b => christoffel_symm hC ho d.q a b)
  refine ⟨d.q, d.phase num o, d.eigenvec num o, step_read g _, step_read g _, step_read g _, fun e k v he0 hk hv hm => ?_⟩
  have hE := wave_motion_only hr.ne' hk hm
  have hM : d.M o = (1 / 10 ^ 6 : ℝ) • acoustic (fun i j k m => 10 ^ 9 * cTensor C i j k m) density d.q :=
    christoffel_eq ho hr.ne' d.q
  have hE' : Eigen (d.M o) (v ^ 2 / 10 ^ 6) e := by
    intro a
    rw [hM]
    simp only [Matrix.smul_apply, smul_eq_mul, mul_assoc, ← Finset.mul_sum]
    rw [hE a]
    ring
  have hc : ∀ i, (d.eigenval num o i - v ^ 2 / 10 ^ 6) * dot (d.eigenvec num o i) e = 0 := fun i => eigen_component hf he hE' i
  have hval : ∀ i, dot (d.eigenvec num o i) e ≠ 0 → v = 1000 * d.phase num o i := by
    intro i hi
    have h := (mul_eq_zero.1 (hc i)).resolve_right hi
    have hw : d.eigenval num o i = v ^ 2 / 10 ^ 6 := by linarith
    have hp : d.phase num o i = Real.sign (d.eigenval num o i) * Real.sqrt |d.eigenval num o i| := rfl
    have hpos : 0 < v ^ 2 / 10 ^ 6 := by positivity
    rw [hp, hw, Real.sign_of_pos hpos, abs_of_pos hpos, show v ^ 2 / 10 ^ 6 = (v / 1000) ^ 2 by ring,
      Real.sqrt_sq (by positivity)]
    ring
  refine ⟨?_, fun i hi => ?_⟩
  · by_contra hno
    push Not at hno
    have hz : ∀ i, dot (d.eigenvec num o i) e = 0 := fun i => by
      by_contra hi
      exact hno i (hval i hi)
    apply he0
    rw [frame_expand hf e]
    change ∑ j, dot (d.eigenvec num o j) e • d.eigenvec num o j = 0
    simp [hz]
  · by_contra h
    exact hi (hval i h)

end Verif.Seismic
