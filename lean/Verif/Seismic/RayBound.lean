/-
Property C174: energy does not outrun the fastest wave of its direction.
-/
import Verif.Seismic.Motion
import Verif.Seismic.SumRules
import Verif.Seismic.Stiffer
import Verif.Seismic.Projector

namespace Verif.Seismic
open Verif.Py Verif.Elastic Verif.Elastic.Spec Verif.Seismic.Spec

/-! ### Lemmas -/

theorem quad_symm {C : M6} (hC : ∀ i j, C i j = C j i) (a b : Fin 6 → ℝ) : quad C a b = quad C b a := by
  unfold quad
  rw [Finset.sum_comm]
  refine Finset.sum_congr rfl fun i _ => Finset.sum_congr rfl fun j _ => ?_
  rw [hC]
  ring

theorem quad_combine (C : M6) (a b : Fin 6 → ℝ) (s t : ℝ) :
    quad C (fun i => s * a i + t * b i) (fun i => s * a i + t * b i) =
      s ^ 2 * quad C a a + s * t * (quad C a b + quad C b a) + t ^ 2 * quad C b b := by
  simp only [quad, Finset.mul_sum, ← Finset.sum_add_distrib]
  refine Finset.sum_congr rfl fun i _ => Finset.sum_congr rfl fun j _ => ?_
  ring

theorem quad_nonneg {C : M6} (hC : C.PosDef) (a : Fin 6 → ℝ) : 0 ≤ quad C a a := by
  by_cases hz : a = 0
  · rw [hz]
    simp [quad]
  · exact (quad_posDef hC hz).le

/-- The inequality of Cauchy and Schwarz for the elastic energy. -/
theorem quad_cauchy {C : M6} (hC : C.PosDef) (a b : Fin 6 → ℝ) (hb : 0 < quad C b b) :
    quad C a b ^ 2 ≤ quad C a a * quad C b b := by
  have h := quad_nonneg hC fun i => quad C b b * a i + (-quad C a b) * b i
  rw [quad_combine, quad_symm (posDef_entries hC) b a] at h
  have : 0 ≤ quad C b b * (quad C a a * quad C b b - quad C a b ^ 2) := by linarith
  have := nonneg_of_mul_nonneg_right this hb
  linarith

/-- The strain of a wave with displacement `e` and direction `x`. -/
noncomputable def waveStrain (x e : V3) : Fin 6 → ℝ := (divop x).transpose.mulVec e

theorem flux_quad (C : M6) (x q e : V3) :
    ∑ j, x j * ∑ i, e i * ∑ a, ∑ l, cTensor C i j a l * (e a * q l) = quad C (waveStrain x e) (waveStrain q e) := by
  simp only [quad, waveStrain, divop, cTensor, vm, Matrix.mulVec, dotProduct, Matrix.transpose_apply,
    Matrix.of_apply, Fin.sum_univ_three, Fin.sum_univ_six, Matrix.cons_val]
  ring

theorem christoffel_quad {C : M6} {density : ℝ} {o : Seismic} (ho : seismic C density = .ok o) (hr : density ≠ 0) (q e : V3) :
    dot e ((christoffel o.Cmat q).mulVec e) = 1000 / density * quad C (waveStrain q e) (waveStrain q e) := by
  have h := acoustic_quad C density q e
  rw [← quad_eq] at h
  have e1 : dot e ((christoffel o.Cmat q).mulVec e) =
      1 / 10 ^ 6 * ∑ i, e i * ∑ k, acoustic (fun i j k m => 10 ^ 9 * cTensor C i j k m) density q i k * e k := by
    rw [christoffel_eq ho hr]
    simp only [dot, Matrix.mulVec, dotProduct, Matrix.smul_apply, smul_eq_mul, Finset.mul_sum]
    refine Finset.sum_congr rfl fun i _ => Finset.sum_congr rfl fun k _ => ?_
    ring
  rw [e1, h]
  unfold waveStrain
  ring

theorem waveStrain_smul (c : ℝ) (x e : V3) : waveStrain (fun j => c * x j) e = fun i => c * waveStrain x e i := by
  funext i
  fin_cases i <;> simp [waveStrain, divop, Matrix.mulVec, dotProduct, Fin.sum_univ_three] <;> ring

theorem quad_scale (C : M6) (c : ℝ) (a : Fin 6 → ℝ) : quad C (fun i => c * a i) (fun i => c * a i) = c ^ 2 * quad C a a := by
  have := quad_combine C a a c 0
  simpa using this

/-- The square of the group velocity of a wave is at most the energy of its polarisation along the ray. -/
theorem ray_energy {num : Numerics} (hn : EighCorrect num) {C : M6} (hC : C.PosDef) {density : ℝ} (hr : 0 < density) {o : Seismic}
    (ho : seismic C density = .ok o) {d : Dir} (hq : UnitVector d.q) (i : Fin 3) (hpos : 0 < d.phase num o i) :
    dot ((d.group num o).velocity i) ((d.group num o).velocity i) ^ 2 ≤
      dot (d.eigenvec num o i) ((christoffel o.Cmat ((d.group num o).velocity i)).mulVec (d.eigenvec num o i)) := by
  have hsym := posDef_entries hC
  obtain ⟨-, -, hf, he⟩ := sortedEigh_spec hn (fun a b => christoffel_symm hsym ho d.q a b)
  have hun : UnitVector (d.eigenvec num o i) := by
    have := hf i i
    rwa [if_pos rfl] at this
  set w := d.eigenval num o i with hw
  have hp : d.phase num o i = Real.sign w * Real.sqrt |w| := rfl
  have hwpos : 0 < w := by
    rcases lt_trichotomy w 0 with h | h | h
    · rw [hp, Real.sign_of_neg h] at hpos
      nlinarith [Real.sqrt_nonneg |w|]
    · rw [hp, h] at hpos; simp at hpos
    · exact h
  have hsq : d.phase num o i ^ 2 = w := by
    rw [hp, Real.sign_of_pos hwpos, one_mul, abs_of_pos hwpos, Real.sq_sqrt hwpos.le]
  set g := (d.group num o).velocity i with hg
  set e := d.eigenvec num o i with hee
  set v := d.phase num o i with hv
  have hqq : 1000 / density * quad C (waveStrain d.q e) (waveStrain d.q e) = v ^ 2 := by
    rw [← christoffel_quad ho hr.ne', hsq]
    exact eigen_quad (he i) hun
  have hd : 0 < 1000 / density := by positivity
  have hbq : 0 < quad C (waveStrain d.q e) (waveStrain d.q e) := quad_posDef hC (divop_ne hq hun)
  have hgj : ∀ j, g j = 1000 / density * (∑ a, e a * ∑ b, ∑ l, cTensor C a j b l * (e b * d.q l)) / v := by
    intro j
    have : g j = dotProduct e ((gradChristoffel o.Cmat d.q j).mulVec e) / (2 * v) := rfl
    rw [this, gradient_flux hsym ho]
    field_simp
  have hgg : dot g g = 1000 / density * quad C (waveStrain g e) (waveStrain d.q e) / v := by
    rw [← flux_quad]
    have : dot g g = ∑ j, g j * (1000 / density * (∑ a, e a * ∑ b, ∑ l, cTensor C a j b l * (e b * d.q l)) / v) :=
      Finset.sum_congr rfl fun j _ => by rw [← hgj]
    rw [this, Finset.mul_sum, Finset.sum_div]
    refine Finset.sum_congr rfl fun j _ => ?_
    ring
  rw [christoffel_quad ho hr.ne', hgg]
  have hc := quad_cauchy hC (waveStrain g e) (waveStrain d.q e) hbq
  have : (1000 / density * quad C (waveStrain g e) (waveStrain d.q e) / v) ^ 2 =
      (1000 / density) ^ 2 * quad C (waveStrain g e) (waveStrain d.q e) ^ 2 / v ^ 2 := by ring
  rw [this, div_le_iff₀ (by positivity), ← hqq]
  have := mul_le_mul_of_nonneg_left hc (sq_nonneg (1000 / density))
  linarith

/-! ### C174 -/

/-- C174: in a stable crystal the group velocity of each wave is at least its phase velocity and at most the phase velocity of the
fastest wave along the ray, as the calculator reports it when its direction is set to the group velocity. -/
theorem C174_ray (num : Numerics) (hn : EighCorrect num) (C : M6) (hC : C.PosDef) (density : ℝ) (hr : 0 < density) (o : Seismic)
    (ho : seismic C density = .ok o) (setting : Op)
    (hset : (∃ theta phi, setting = .spherical theta phi) ∨ ∃ v, v ≠ 0 ∧ setting = .cartesian v) (st st' : State) :
    ∃ (pv ga : V3) (gv : M3),
      (step num o (.read .phaseVelocity) (step num o setting st).2).1 = .ok (.vec pv) ∧
      (step num o (.read .groupVelocity) (step num o setting st).2).1 = .ok (.mat gv) ∧
      (step num o (.read .groupAbs) (step num o setting st).2).1 = .ok (.vec ga) ∧
      ∀ i, 0 < pv i ∧ pv i ≤ ga i ∧ ga i = Real.sqrt (dot (gv i) (gv i)) ∧ gv i ≠ 0 ∧
        ∃ pv', (step num o (.read .phaseVelocity) (step num o (.cartesian (gv i)) st').2).1 = .ok (.vec pv') ∧ ga i ≤ pv' 2 := by
  obtain ⟨d, hd, hq⟩ := dir_of_setting hset
  have g := set_good (num := num) (o := o) hd st
  obtain ⟨q, pv, ga, pf, gv, r1, r2, r3, r4, -, -, key⟩ := C39_projection_partial num hn C (posDef_entries hC) density o ho setting
    hset st
  have e2 : pv = d.phase num o := by
    have := (step_read g .phaseVelocity).symm.trans r2
    simpa [Dir.value, eq_comm] using this
  have e3 : gv = (d.group num o).velocity := by
    have := (step_read g .groupVelocity).symm.trans r3
    simpa [Dir.value, eq_comm] using this
  have pos : ∀ d : Dir, UnitVector d.q → ∀ i, 0 < d.phase num o i ∧ d.phase num o i ^ 2 = d.eigenval num o i := by
    intro d hq i
    obtain ⟨-, -, hf, he⟩ := sortedEigh_spec hn (fun a b => christoffel_symm (posDef_entries hC) ho d.q a b)
    have hun : UnitVector (d.eigenvec num o i) := by
      have := hf i i
      rwa [if_pos rfl] at this
    have hw : 0 < d.eigenval num o i := by
      have h1 := eigen_quad (he i) hun
      have h2 := christoffel_quad ho hr.ne' d.q (d.eigenvec num o i)
      have h3 : d.eigenval num o i = 1000 / density * quad C (waveStrain d.q (d.eigenvec num o i)) (waveStrain d.q (d.eigenvec num o i)) :=
        h1.symm.trans h2
      rw [h3]
      have := quad_posDef hC (divop_ne hq hun)
      exact mul_pos (by positivity) this
    have hp : d.phase num o i = Real.sqrt (d.eigenval num o i) := by
      have : d.phase num o i = Real.sign (d.eigenval num o i) * Real.sqrt |d.eigenval num o i| := rfl
      rw [this, Real.sign_of_pos hw, one_mul, abs_of_pos hw]
    exact ⟨by rw [hp]; exact Real.sqrt_pos.2 hw, by rw [hp, Real.sq_sqrt hw.le]⟩
  refine ⟨pv, ga, gv, r2, r3, r4, fun i => ?_⟩
  have hpi : 0 < pv i := by rw [e2]; exact (pos d hq i).1
  obtain ⟨k1, k2, k3, -⟩ := key i hpi
  have hga : 0 < ga i := hpi.trans_le k2
  have hne : gv i ≠ 0 := by
    intro h
    rw [h] at k3
    simp [dot] at k3
    linarith
  refine ⟨hpi, k2, k3, hne, ?_⟩
  obtain ⟨d', hd', hq'⟩ := dir_of_setting (setting := .cartesian (gv i)) (.inr ⟨_, hne, rfl⟩)
  have g' := set_good (num := num) (o := o) hd' st'
  refine ⟨d'.phase num o, step_read g' .phaseVelocity, ?_⟩
  have hnorm : ga i = norm (gv i) := by rw [k3, ← norm_sq, Real.sqrt_sq (norm_nonneg _)]
  have hdq : d'.q = fun j => gv i j / norm (gv i) := by
    simp only [Op.dir, Option.some.injEq] at hd'
    rw [← hd']
  have hray := ray_energy hn hC hr ho hq i (e2 ▸ hpi)
  rw [← e3] at hray
  have hstrain : waveStrain (gv i) (d.eigenvec num o i) = fun l => norm (gv i) * waveStrain d'.q (d.eigenvec num o i) l := by
    rw [← waveStrain_smul, hdq]
    congr 1
    funext j
    rw [mul_div_cancel₀]
    rw [← hnorm]
    exact hga.ne'
  rw [christoffel_quad ho hr.ne', hstrain, quad_scale, ← norm_sq, ← hnorm] at hray
  have hfr : UnitVector (d.eigenvec num o i) := by
    obtain ⟨-, -, hf, -⟩ := sortedEigh_spec hn (fun a b => christoffel_symm (posDef_entries hC) ho d.q a b)
    have := hf i i
    rwa [if_pos rfl] at this
  have hmax : dot (d.eigenvec num o i) ((christoffel o.Cmat d'.q).mulVec (d.eigenvec num o i)) ≤ d'.eigenval num o 2 := by
    obtain ⟨s1, s2, hf, he⟩ := sortedEigh_spec hn (fun a b => christoffel_symm (posDef_entries hC) ho d'.q a b)
    exact (spectrum_bounds ⟨s1, s2⟩ hf he _ hfr).2
  rw [christoffel_quad ho hr.ne', ← (pos d' hq' 2).2] at hmax
  have hsq : ga i ^ 2 ≤ d'.phase num o 2 ^ 2 := by
    refine le_trans ?_ hmax
    refine le_of_mul_le_mul_left ?_ (by positivity : 0 < ga i ^ 2)
    linarith
  exact le_of_sq_le_sq hsq (pos d' hq' 2).1.le

/-- C174: in a stable crystal each group velocity is at most the velocity of the longitudinal wave in some direction of the angles,
so it obeys the bound of the Voigt average. -/
theorem C174_bound (num : Numerics) (hn : EighCorrect num) (C : M6) (hC : C.PosDef) (density : ℝ) (hr : 0 < density) (s : Soec)
    (hs : soec C density = .ok s) (o : Seismic) (ho : seismic C density = .ok o) (setting : Op)
    (hset : (∃ theta phi, setting = .spherical theta phi) ∨ ∃ v, v ≠ 0 ∧ setting = .cartesian v) (st : State) :
    ∃ ga : V3, (step num o (.read .groupAbs) (step num o setting st).2).1 = .ok (.vec ga) ∧
      ∀ i, 0 < ga i ∧
        (∃ theta phi, ga i ≤ Soec.longitudinalWave num s (theta, phi)) ∧
        density * (1000 * ga i) ^ 2 ≤ 10 ^ 9 * (3 * s.averages.voigt.K + 10 * s.averages.voigt.G) := by
  obtain ⟨pv, ga, gv, -, -, r3, key⟩ := C174_ray num hn C hC density hr o ho setting hset st st
  refine ⟨ga, r3, fun i => ?_⟩
  obtain ⟨h1, h2, -, hne, pv', hp, hle⟩ := key i
  have hga : 0 < ga i := h1.trans_le h2
  obtain ⟨d', hd', hq'⟩ := dir_of_setting (setting := .cartesian (gv i)) (.inr ⟨_, hne, rfl⟩)
  obtain ⟨t, p, -, -, hv⟩ := exists_vector hq'
  have e1 : pv' = d'.phase num o := by
    have := (step_read (set_good (num := num) (o := o) hd' st) .phaseVelocity).symm.trans hp
    simpa [Dir.value, eq_comm] using this
  have e2 : Soec.phaseVelocity num s t p = d'.phase num o := by
    have h3 := (C37_velocities num hn C hC density hr s hs o ho t p).2.2 st
    have hd2 : (Op.spherical t p).dir = some ⟨seismicVector t p, t, p⟩ := rfl
    have h4 := (step_read (set_good (num := num) (o := o) hd2 st) .phaseVelocity).symm.trans h3
    have h5 : Soec.phaseVelocity num s t p = Dir.phase num o ⟨seismicVector t p, t, p⟩ := by
      simpa [Dir.value, eq_comm] using h4
    rw [h5]
    unfold Dir.phase Dir.eigenval Dir.M
    rw [hv, seismicVector_eq]
  have hlong : ga i ≤ Soec.longitudinalWave num s (t, p) := by
    have : Soec.longitudinalWave num s (t, p) = pv' 2 := by
      rw [e1, ← e2]
      rfl
    rw [this]
    exact hle
  refine ⟨hga, ⟨t, p, hlong⟩, le_trans ?_ (C130_bound num hn C hC density hr s hs (t, p))⟩
  refine mul_le_mul_of_nonneg_left ?_ hr.le
  exact pow_le_pow_left₀ (by positivity) (by linarith) 2

end Verif.Seismic
