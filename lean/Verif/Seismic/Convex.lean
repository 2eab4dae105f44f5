/-
Property C180: how phase velocities change from one direction to another.
-/
import Verif.Seismic.RayBound
import Verif.Seismic.BinaryLemmas
import Verif.Tac

namespace Verif.Seismic
open Verif.Py Verif.Elastic Verif.Elastic.Spec Verif.Seismic.Spec

/-! ### Lemmas -/

theorem quad_split {C : M6} (hC : C.PosDef) (a b : Fin 6 → ℝ) {t : ℝ} (ht : 0 < t) :
    quad C (fun i => a i + b i) (fun i => a i + b i) ≤ (1 + t) * quad C a a + (1 + 1 / t) * quad C b b := by
  have h1 := quad_combine C a b 1 1
  have h2 := quad_nonneg hC fun i => t * a i + (-1) * b i
  rw [quad_combine] at h2
  simp only [one_mul, one_pow] at h1
  rw [h1]
  have h3 : 0 ≤ (t ^ 2 * quad C a a + t * -1 * (quad C a b + quad C b a) + (-1) ^ 2 * quad C b b) / t := div_nonneg h2 ht.le
  have e : (t ^ 2 * quad C a a + t * -1 * (quad C a b + quad C b a) + (-1) ^ 2 * quad C b b) / t =
      t * quad C a a - (quad C a b + quad C b a) + 1 / t * quad C b b := by
    field_simp
    ring
  rw [e] at h3
  linarith

theorem waveStrain_add (x y e : V3) : waveStrain (fun j => x j + y j) e = fun i => waveStrain x e i + waveStrain y e i := by
  funext i
  fin_cases i <;> simp [waveStrain, divop, Matrix.mulVec, dotProduct, Fin.sum_univ_three] <;> ring

/-- In a stable crystal the squares of the phase velocities are the eigenvalues. -/
theorem phase_sq {num : Numerics} (hn : EighCorrect num) {C : M6} (hC : C.PosDef) {density : ℝ} (hr : 0 < density) {o : Seismic}
    (ho : seismic C density = .ok o) {d : Dir} (hq : UnitVector d.q) (i : Fin 3) :
    0 < d.phase num o i ∧ d.phase num o i ^ 2 = d.eigenval num o i := by
  obtain ⟨-, -, hf, he⟩ := sortedEigh_spec hn (fun a b => christoffel_symm (posDef_entries hC) ho d.q a b)
  have hun : UnitVector (d.eigenvec num o i) := by
    have := hf i i
    rwa [if_pos rfl] at this
  have hw : 0 < d.eigenval num o i := by
    have h1 := eigen_quad (he i) hun
    have h2 := christoffel_quad ho hr.ne' d.q (d.eigenvec num o i)
    have h3 : d.eigenval num o i = 1000 / density * quad C (waveStrain d.q (d.eigenvec num o i)) (waveStrain d.q (d.eigenvec num o i)) :=
      h1.symm.trans h2
    rw [h3]
    have := quad_posDef hC (divop_ne hq hun)
    exact mul_pos (by positivity) this
  have hp : d.phase num o i = Real.sqrt (d.eigenval num o i) := by
    have : d.phase num o i = Real.sign (d.eigenval num o i) * Real.sqrt |d.eigenval num o i| := rfl
    rw [this, Real.sign_of_pos hw, one_mul, abs_of_pos hw]
  exact ⟨by rw [hp]; exact Real.sqrt_pos.2 hw, by rw [hp, Real.sq_sqrt hw.le]⟩

/-- The largest eigenvalue bounds the quadratic form. -/
theorem form_le {M : M3} {w : V3} (h : Spectrum M w) (y : V3) : dot y (M.mulVec y) ≤ w 2 * dot y y := by
  obtain ⟨h1, h2, e, hf, he⟩ := h
  rw [quadratic_frame hf he]
  have hp := frame_parseval hf y
  rw [← hp, Finset.mul_sum]
  refine Finset.sum_le_sum fun i _ => mul_le_mul_of_nonneg_right ?_ (sq_nonneg _)
  fin_cases i <;> simp <;> linarith

theorem phase_triangle {num : Numerics} (hn : EighCorrect num) {C : M6} (hC : C.PosDef) {density : ℝ} (hr : 0 < density) {o : Seismic}
    (ho : seismic C density = .ok o) {d d' e : Dir} (hd : UnitVector d.q) (hd' : UnitVector d'.q) (he : UnitVector e.q)
    {a b c : ℝ} (ha : 0 < a) (hb : 0 < b) (hc : 0 < c) (hsum : ∀ j, c * e.q j = a * d.q j + b * d'.q j) (i : Fin 3) :
    c * e.phase num o i ≤ a * d.phase num o i + b * d'.phase num o 2 := by
  have hsym := posDef_entries hC
  have hdp : 0 < 1000 / density := by positivity
  have sp : ∀ d : Dir, Spectrum (christoffel o.Cmat d.q) (d.eigenval num o) := fun d =>
    sortedEigh_spectrum hn fun a b => christoffel_symm hsym ho d.q a b
  obtain ⟨p1, q1⟩ := phase_sq hn hC hr ho hd i
  obtain ⟨p2, q2⟩ := phase_sq hn hC hr ho hd' 2
  obtain ⟨p3, q3⟩ := phase_sq hn hC hr ho he i
  set t := b * d'.phase num o 2 / (a * d.phase num o i) with ht
  have tp : 0 < t := by positivity
  have key := spectrum_mono (spectrum_smul (pow_pos hc 2) (sp e))
    (Rounded.spectrum_shift (spectrum_smul (show 0 < (1 + t) * a ^ 2 by positivity) (sp d)) ((1 + 1 / t) * b ^ 2 * d'.eigenval num o 2))
    (fun y => ?_) i
  · rw [← q1, ← q2, ← q3] at key
    have e1 : (1 + t) * a ^ 2 * d.phase num o i ^ 2 + (1 + 1 / t) * b ^ 2 * d'.phase num o 2 ^ 2 =
        (a * d.phase num o i + b * d'.phase num o 2) ^ 2 := by
      rw [ht]
      generalize d.phase num o i = x at *
      generalize d'.phase num o 2 = z at *
      field_simp
      ring
    rw [e1, ← mul_pow] at key
    exact le_of_sq_le_sq key (by positivity)
  · have f1 : dot y ((c ^ 2 • christoffel o.Cmat e.q).mulVec y) = c ^ 2 * dot y ((christoffel o.Cmat e.q).mulVec y) := by
      simp only [dot, Matrix.smul_mulVec, Pi.smul_apply, smul_eq_mul, Finset.mul_sum]
      exact Finset.sum_congr rfl fun i _ => by ring
    have f2 : ∀ p r : ℝ, dot y ((Matrix.of fun i j => (p • christoffel o.Cmat d.q) i j + if i = j then r else 0).mulVec y) =
        p * dot y ((christoffel o.Cmat d.q).mulVec y) + r * dot y y := by
      intro p r
      simp [dot, Matrix.mulVec, dotProduct, Fin.sum_univ_three]
      ring
    rw [f1, f2, christoffel_quad ho hr.ne', christoffel_quad ho hr.ne']
    have h2 := form_le (sp d') y
    rw [christoffel_quad ho hr.ne'] at h2
    have s3 : c ^ 2 * quad C (waveStrain e.q y) (waveStrain e.q y) =
        quad C (fun i => waveStrain (fun j => a * d.q j) y i + waveStrain (fun j => b * d'.q j) y i)
          (fun i => waveStrain (fun j => a * d.q j) y i + waveStrain (fun j => b * d'.q j) y i) := by
      rw [← quad_scale, ← waveStrain_smul, ← waveStrain_add]
      simp only [hsum]
    have s4 := quad_split hC (waveStrain (fun j => a * d.q j) y) (waveStrain (fun j => b * d'.q j) y) tp
    rw [← s3, waveStrain_smul, waveStrain_smul, quad_scale, quad_scale] at s4
    have s5 := mul_le_mul_of_nonneg_left s4 hdp.le
    have s6 := mul_le_mul_of_nonneg_left h2 (show 0 ≤ (1 + 1 / t) * b ^ 2 by positivity)
    linarith

/-! ### C180 -/

/-- C180: the phase velocity of each wave, multiplied by the length of the vector that sets the direction, grows by at most that of
the fastest wave of the vector added. For the fastest wave itself this says that its slowness surface is convex. -/
theorem C180_triangle (num : Numerics) (hn : EighCorrect num) (C : M6) (hC : C.PosDef) (density : ℝ) (hr : 0 < density) (o : Seismic)
    (ho : seismic C density = .ok o) (u v : V3) (hu : u ≠ 0) (hv : v ≠ 0) (huv : u + v ≠ 0) (st st' st'' : State) :
    ∃ pu pv puv : V3,
      (step num o (.read .phaseVelocity) (step num o (.cartesian u) st).2).1 = .ok (.vec pu) ∧
      (step num o (.read .phaseVelocity) (step num o (.cartesian v) st').2).1 = .ok (.vec pv) ∧
      (step num o (.read .phaseVelocity) (step num o (.cartesian (u + v)) st'').2).1 = .ok (.vec puv) ∧
      ∀ i, Real.sqrt (dot (u + v) (u + v)) * puv i ≤ Real.sqrt (dot u u) * pu i + Real.sqrt (dot v v) * pv 2 := by
  have root : ∀ x : V3, Real.sqrt (dot x x) = norm x := fun x => by rw [← norm_sq, Real.sqrt_sq (norm_nonneg _)]
  have np : ∀ {x : V3}, x ≠ 0 → 0 < norm x := fun {x} hx => by
    rw [← root]
    exact Real.sqrt_pos.2 (dot_self_pos' hx)
  have dirs : ∀ {x : V3}, x ≠ 0 → ∀ st, ∃ d : Dir, UnitVector d.q ∧ (∀ j, norm x * d.q j = x j) ∧
      (step num o (.read .phaseVelocity) (step num o (.cartesian x) st).2).1 = .ok (.vec (d.phase num o)) := by
    intro x hx st
    obtain ⟨d, hd, hq⟩ := dir_of_setting (setting := .cartesian x) (.inr ⟨_, hx, rfl⟩)
    refine ⟨d, hq, fun j => ?_, step_read (set_good (num := num) (o := o) hd st) .phaseVelocity⟩
    have hdq : d.q = fun j => x j / norm x := by
      simp only [Op.dir, Option.some.injEq] at hd
      rw [← hd]
    rw [hdq]
    exact mul_div_cancel₀ _ (np hx).ne'
  obtain ⟨d, q1, e1, r1⟩ := dirs hu st
  obtain ⟨d', q2, e2, r2⟩ := dirs hv st'
  obtain ⟨e, q3, e3, r3⟩ := dirs huv st''
  refine ⟨_, _, _, r1, r2, r3, fun i => ?_⟩
  rw [root, root, root]
  refine phase_triangle hn hC hr ho q1 q2 q3 (np hu) (np hv) (np huv) (fun j => ?_) i
  rw [e1, e2, e3]
  rfl

/-- C180: between two directions no phase velocity changes by more than the distance of the directions times a velocity that the
Voigt averages give. -/
theorem C180_lipschitz (num : Numerics) (hn : EighCorrect num) (C : M6) (hC : C.PosDef) (density : ℝ) (hr : 0 < density) (s : Soec)
    (hs : soec C density = .ok s) (x y : ℝ × ℝ) (i : Fin 3) :
    density * (1000 * (Soec.phaseVelocity num s x.1 x.2 i - Soec.phaseVelocity num s y.1 y.2 i)) ^ 2 ≤
      10 ^ 9 * (3 * s.averages.voigt.K + 10 * s.averages.voigt.G) *
        ∑ j, (vector x.1 x.2 j - vector y.1 y.2 j) ^ 2 := by
  obtain ⟨o, ho⟩ : ∃ o, seismic C density = .ok o := by
    simp [seismic, posDef_det hC]
  have ph : ∀ t p, Soec.phaseVelocity num s t p = Dir.phase num o ⟨vector t p, t, p⟩ := by
    intro t p
    have h3 := (C37_velocities num hn C hC density hr s hs o ho t p).2.2 {}
    have hd2 : (Op.spherical t p).dir = some ⟨seismicVector t p, t, p⟩ := rfl
    have h4 := (step_read (set_good (num := num) (o := o) hd2 {}) .phaseVelocity).symm.trans h3
    have h5 : Soec.phaseVelocity num s t p = Dir.phase num o ⟨seismicVector t p, t, p⟩ := by
      simpa [Dir.value, eq_comm] using h4
    rw [h5, seismicVector_eq]
  by_cases hz : vector x.1 x.2 = vector y.1 y.2
  · have : Soec.phaseVelocity num s x.1 x.2 i = Soec.phaseVelocity num s y.1 y.2 i := by
      rw [ph, ph]
      unfold Dir.phase Dir.eigenval Dir.M
      rw [hz]
    rw [this, hz]
    simp
  -- the direction of the difference
  set D : V3 := fun j => vector x.1 x.2 j - vector y.1 y.2 j with hD
  have hDne : D ≠ 0 := fun h => hz (funext fun j => sub_eq_zero.1 (congrFun h j))
  obtain ⟨d, hd, hq⟩ := dir_of_setting (setting := .cartesian D) (.inr ⟨_, hDne, rfl⟩)
  have hdq : d.q = fun j => D j / norm D := by
    simp only [Op.dir, Option.some.injEq] at hd
    rw [← hd]
  have nD : 0 < norm D := by
    have : Real.sqrt (dot D D) = norm D := by rw [← norm_sq, Real.sqrt_sq (norm_nonneg _)]
    rw [← this]
    exact Real.sqrt_pos.2 (dot_self_pos' hDne)
  obtain ⟨t, p, -, -, hv⟩ := exists_vector hq
  have hfast : d.phase num o 2 = Soec.longitudinalWave num s (t, p) := by
    have : Soec.longitudinalWave num s (t, p) = Soec.phaseVelocity num s t p 2 := rfl
    rw [this, ph]
    unfold Dir.phase Dir.eigenval Dir.M
    rw [hv]
  have hbound := C130_bound num hn C hC density hr s hs (t, p)
  rw [← hfast] at hbound
  have ux := vector_unit x.1 x.2
  have uy := vector_unit y.1 y.2
  have step1 : Soec.phaseVelocity num s x.1 x.2 i ≤ Soec.phaseVelocity num s y.1 y.2 i + norm D * d.phase num o 2 := by
    rw [ph, ph]
    have := phase_triangle hn hC hr ho (d := ⟨vector y.1 y.2, y.1, y.2⟩) (d' := d) (e := ⟨vector x.1 x.2, x.1, x.2⟩) uy hq ux
      one_pos nD one_pos (fun j => by
        rw [hdq]
        simp only [one_mul]
        rw [mul_div_cancel₀ _ nD.ne', hD]
        simp) i
    simpa using this
  have step2 : Soec.phaseVelocity num s y.1 y.2 i ≤ Soec.phaseVelocity num s x.1 x.2 i + norm D * d.phase num o 2 := by
    rw [ph, ph]
    have un : UnitVector (fun j => -d.q j) := by
      simpa [UnitVector, dot] using hq
    have := phase_triangle hn hC hr ho (d := ⟨vector x.1 x.2, x.1, x.2⟩) (d' := ⟨fun j => -d.q j, 0, 0⟩)
      (e := ⟨vector y.1 y.2, y.1, y.2⟩) ux un uy one_pos nD one_pos (fun j => by
        rw [hdq]
        simp only [one_mul, mul_neg]
        rw [mul_div_cancel₀ _ nD.ne', hD]
        simp) i
    have even : Dir.phase num o ⟨fun j => -d.q j, 0, 0⟩ 2 = d.phase num o 2 := by
      have : christoffel o.Cmat (fun j => -d.q j) = christoffel o.Cmat d.q := by
        funext a b
        simp [christoffel]
      unfold Dir.phase Dir.eigenval Dir.M
      rw [this]
    rw [even] at this
    simpa using this
  have habs : (Soec.phaseVelocity num s x.1 x.2 i - Soec.phaseVelocity num s y.1 y.2 i) ^ 2 ≤ (norm D * d.phase num o 2) ^ 2 :=
    sq_le_sq' (by linarith) (by linarith)
  have hN : norm D ^ 2 = ∑ j, (vector x.1 x.2 j - vector y.1 y.2 j) ^ 2 := by
    rw [norm_sq]
    exact Finset.sum_congr rfl fun j _ => (sq _).symm
  rw [← hN]
  calc density * (1000 * (Soec.phaseVelocity num s x.1 x.2 i - Soec.phaseVelocity num s y.1 y.2 i)) ^ 2
      = density * 1000 ^ 2 * (Soec.phaseVelocity num s x.1 x.2 i - Soec.phaseVelocity num s y.1 y.2 i) ^ 2 := by ring
    _ ≤ density * 1000 ^ 2 * (norm D * d.phase num o 2) ^ 2 := mul_le_mul_of_nonneg_left habs (by positivity)
    _ = density * (1000 * d.phase num o 2) ^ 2 * norm D ^ 2 := by ring
    _ ≤ _ := mul_le_mul_of_nonneg_right hbound (sq_nonneg _)

end Verif.Seismic
