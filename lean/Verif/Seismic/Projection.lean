/-
Property C64: the plane projections of the hemisphere.
-/
import Mathlib.Analysis.SpecialFunctions.PolarCoord
import Mathlib.MeasureTheory.Function.Jacobian
import Mathlib.Analysis.SpecialFunctions.Trigonometric.ArctanDeriv
import Mathlib.Analysis.SpecialFunctions.Trigonometric.Angle
import Verif.Seismic.Model
import Verif.Tac

namespace Verif.Seismic

/-- The distance of the image from the centre of the figure. -/
noncomputable def Projection.radius (p : Projection) (u : ℝ) : ℝ :=
  match p with
  | .stereo => Real.tan (0.5 * u)
  | .eqar => Real.sqrt 2 * Real.sin (0.5 * u)

theorem project_eq (p : Projection) (u v : ℝ) :
    p.project u v = (p.radius u * Real.cos v, p.radius u * Real.sin v) := by
  cases p <;> rfl

theorem half_mem {u : ℝ} (h0 : 0 ≤ u) (h1 : u ≤ Real.pi / 2) :
    0 ≤ 0.5 * u ∧ 0.5 * u ≤ Real.pi / 4 := by
  constructor <;> norm_num <;> linarith

theorem radius_nonneg (p : Projection) {u : ℝ} (h0 : 0 ≤ u) (h1 : u ≤ Real.pi / 2) :
    0 ≤ p.radius u := by
  obtain ⟨a, b⟩ := half_mem h0 h1
  have hpi := Real.pi_pos
  cases p
  · exact mul_nonneg (Real.sqrt_nonneg _) (Real.sin_nonneg_of_nonneg_of_le_pi a (by linarith))
  · exact Real.tan_nonneg_of_nonneg_of_le_pi_div_two a (by linarith)

theorem radius_strictMono (p : Projection) :
    StrictMonoOn p.radius (Set.Icc 0 (Real.pi / 2)) := by
  intro a ha b hb hab
  have hpi := Real.pi_pos
  obtain ⟨a0, a1⟩ := half_mem ha.1 ha.2
  obtain ⟨b0, b1⟩ := half_mem hb.1 hb.2
  have hlt : 0.5 * a < 0.5 * b := by linarith
  cases p
  · exact mul_lt_mul_of_pos_left (Real.strictMonoOn_sin ⟨by linarith, by linarith⟩
      ⟨by linarith, by linarith⟩ hlt) (by positivity)
  · exact Real.tan_lt_tan_of_nonneg_of_lt_pi_div_two a0 (by linarith) hlt

theorem radius_zero (p : Projection) : p.radius 0 = 0 := by
  cases p <;> simp [Projection.radius]

theorem radius_rim (p : Projection) : p.radius (Real.pi / 2) = 1 := by
  have h : 0.5 * (Real.pi / 2) = Real.pi / 4 := by ring
  cases p
  · simp only [Projection.radius, h, Real.sin_pi_div_four]
    have := Real.mul_self_sqrt (show (0 : ℝ) ≤ 2 by norm_num)
    linarith
  · simp only [Projection.radius, h, Real.tan_pi_div_four]

theorem radius_le (p : Projection) {u : ℝ} (h0 : 0 ≤ u) (h1 : u ≤ Real.pi / 2) :
    p.radius u ≤ 1 := by
  rw [← radius_rim p]
  exact (radius_strictMono p).monotoneOn ⟨h0, h1⟩ ⟨by have := Real.pi_pos; positivity, le_rfl⟩ h1

theorem project_sq (p : Projection) (u v : ℝ) :
    (p.project u v).1 ^ 2 + (p.project u v).2 ^ 2 = p.radius u ^ 2 := by
  rw [project_eq]
  have := Real.sin_sq_add_cos_sq v
  linear_combination p.radius u ^ 2 * this

/-- C64: both projections map the upper hemisphere into the unit disc, the pole to the centre and
the equator to the rim. -/
theorem C64_disc (p : Projection) (u v : ℝ) (h0 : 0 ≤ u) (h1 : u ≤ Real.pi / 2) :
    (p.project u v).1 ^ 2 + (p.project u v).2 ^ 2 ≤ 1 ∧
    ((p.project u v).1 ^ 2 + (p.project u v).2 ^ 2 = 1 ↔ u = Real.pi / 2) ∧
    ((p.project u v).1 ^ 2 + (p.project u v).2 ^ 2 = 0 ↔ u = 0) := by
  rw [project_sq]
  have hn := radius_nonneg p h0 h1
  have hl := radius_le p h0 h1
  have hpi := Real.pi_pos
  have inj := (radius_strictMono p).injOn
  refine ⟨by nlinarith, ⟨fun h => ?_, fun h => by rw [h, radius_rim]; norm_num⟩,
    ⟨fun h => ?_, fun h => by rw [h, radius_zero]; norm_num⟩⟩
  · have h1' : p.radius u = 1 := by nlinarith
    rw [← radius_rim p] at h1'
    exact inj ⟨h0, h1⟩ ⟨by positivity, le_rfl⟩ h1'
  · have h1' : p.radius u = 0 := pow_eq_zero_iff two_ne_zero |>.1 h
    rw [← radius_zero p] at h1'
    exact inj ⟨h0, h1⟩ ⟨le_rfl, by positivity⟩ h1'

/-- C64: the azimuth is kept: the image lies on the half-line that makes the angle `v` with the `x`
axis. -/
theorem C64_azimuth (p : Projection) (u v : ℝ) (h0 : 0 ≤ u) (h1 : u ≤ Real.pi / 2) :
    ∃ r, 0 ≤ r ∧ r = Real.sqrt ((p.project u v).1 ^ 2 + (p.project u v).2 ^ 2) ∧
      p.project u v = (r * Real.cos v, r * Real.sin v) :=
  ⟨p.radius u, radius_nonneg p h0 h1,
    by rw [project_sq, Real.sqrt_sq (radius_nonneg p h0 h1)], project_eq p u v⟩

/-- C64: directions farther from the pole are drawn farther from the centre. -/
theorem C64_radius_increases (p : Projection) (u u' v v' : ℝ) (h0 : 0 ≤ u) (h : u < u')
    (h1 : u' ≤ Real.pi / 2) :
    (p.project u v).1 ^ 2 + (p.project u v).2 ^ 2 <
      (p.project u' v').1 ^ 2 + (p.project u' v').2 ^ 2 := by
  rw [project_sq, project_sq]
  exact pow_lt_pow_left₀ (radius_strictMono p ⟨h0, by linarith⟩ ⟨by linarith, h1⟩ h)
    (radius_nonneg p h0 (by linarith)) two_ne_zero

theorem angle_unique {v v' : ℝ} (h : 0 ≤ v ∧ v < 2 * Real.pi) (h' : 0 ≤ v' ∧ v' < 2 * Real.pi)
    (hc : Real.cos v = Real.cos v') (hs : Real.sin v = Real.sin v') : v = v' := by
  have := Real.Angle.cos_sin_inj hc hs
  obtain ⟨k, hk⟩ := Real.Angle.angle_eq_iff_two_pi_dvd_sub.1 this
  have hpi := Real.pi_pos
  have k1 : (k : ℝ) < 1 := by
    by_contra hge
    push Not at hge
    nlinarith
  have k2 : (-1 : ℝ) < k := by
    by_contra hge
    push Not at hge
    nlinarith
  have : k = 0 := by
    have a : k < 1 := by exact_mod_cast k1
    have b : -1 < k := by exact_mod_cast k2
    omega
  rw [this] at hk
  simp at hk
  linarith

/-- C64: no two directions of the upper hemisphere are drawn at the same point. -/
theorem C64_injective (p : Projection) :
    Set.InjOn (fun a : ℝ × ℝ => p.project a.1 a.2)
      (Set.Ioc 0 (Real.pi / 2) ×ˢ Set.Ico 0 (2 * Real.pi)) := by
  rintro ⟨u, v⟩ ⟨hu, hv⟩ ⟨u', v'⟩ ⟨hu', hv'⟩ h
  simp only at hu hv hu' hv' h
  have hr : p.radius u = p.radius u' := by
    have h2 : p.radius u ^ 2 = p.radius u' ^ 2 := by rw [← project_sq p u v, h, project_sq]
    exact (pow_left_inj₀ (radius_nonneg p hu.1.le hu.2) (radius_nonneg p hu'.1.le hu'.2)
      two_ne_zero).1 h2
  have hu2 : u = u' :=
    (radius_strictMono p).injOn ⟨hu.1.le, hu.2⟩ ⟨hu'.1.le, hu'.2⟩ hr
  subst hu2
  have hpos : 0 < p.radius u := by
    rw [← radius_zero p]
    exact radius_strictMono p ⟨le_rfl, by have := Real.pi_pos; positivity⟩ ⟨hu.1.le, hu.2⟩ hu.1
  rw [project_eq, project_eq, Prod.mk.injEq] at h
  have : v = v' := angle_unique hv hv' (mul_left_cancel₀ hpos.ne' h.1)
    (mul_left_cancel₀ hpos.ne' h.2)
  rw [this]

/-! ### Area -/

/-- The derivative of the equal-area projection. -/
noncomputable def eqarDeriv (a : ℝ × ℝ) : ℝ × ℝ →L[ℝ] ℝ × ℝ :=
  (Matrix.toLin (.finTwoProd ℝ) (.finTwoProd ℝ)
    !![Real.sqrt 2 / 2 * Real.cos (0.5 * a.1) * Real.cos a.2,
       -(Real.sqrt 2 * Real.sin (0.5 * a.1) * Real.sin a.2);
       Real.sqrt 2 / 2 * Real.cos (0.5 * a.1) * Real.sin a.2,
       Real.sqrt 2 * Real.sin (0.5 * a.1) * Real.cos a.2]).toContinuousLinearMap

theorem hasFDerivAt_eqar (a : ℝ × ℝ) :
    HasFDerivAt (fun a : ℝ × ℝ => Projection.eqar.project a.1 a.2) (eqarDeriv a) a := by
  have hr : HasDerivAt (fun u : ℝ => Real.sqrt 2 * Real.sin (0.5 * u))
      (Real.sqrt 2 / 2 * Real.cos (0.5 * a.1)) a.1 := by
    have h1 : HasDerivAt (fun u : ℝ => 0.5 * u) 0.5 a.1 := by
      simpa using (hasDerivAt_id a.1).const_mul (0.5 : ℝ)
    refine (h1.sin.const_mul (Real.sqrt 2)).congr_deriv ?_
    ring
  have hf : HasFDerivAt (Prod.fst : ℝ × ℝ → ℝ) (ContinuousLinearMap.fst ℝ ℝ ℝ) a :=
    hasFDerivAt_fst
  have hg : HasFDerivAt (Prod.snd : ℝ × ℝ → ℝ) (ContinuousLinearMap.snd ℝ ℝ ℝ) a :=
    hasFDerivAt_snd
  have hr' := hr.comp_hasFDerivAt a hf
  have hc := (Real.hasDerivAt_cos a.2).comp_hasFDerivAt a hg
  have hs := (Real.hasDerivAt_sin a.2).comp_hasFDerivAt a hg
  have h := (hr'.mul hc).prodMk (hr'.mul hs)
  have e : (fun a : ℝ × ℝ => Projection.eqar.project a.1 a.2) = fun a : ℝ × ℝ =>
      (((fun u : ℝ => Real.sqrt 2 * Real.sin (0.5 * u)) ∘ Prod.fst) a * (Real.cos ∘ Prod.snd) a,
       ((fun u : ℝ => Real.sqrt 2 * Real.sin (0.5 * u)) ∘ Prod.fst) a * (Real.sin ∘ Prod.snd) a) := by
    funext a
    rfl
  rw [e]
  refine h.congr_fderiv ?_
  unfold eqarDeriv
  rw [Matrix.toLin_finTwoProd_toContinuousLinearMap]
  refine ContinuousLinearMap.ext fun x => ?_
  simp only [ContinuousLinearMap.prod_apply, ContinuousLinearMap.add_apply,
    ContinuousLinearMap.smul_apply, ContinuousLinearMap.coe_fst', ContinuousLinearMap.coe_snd',
    Function.comp_apply, smul_eq_mul]
  refine Prod.ext ?_ ?_ <;> simp only <;> ring

theorem det_eqar (a : ℝ × ℝ) : (eqarDeriv a).det = Real.sin a.1 / 2 := by
  unfold eqarDeriv
  simp only [LinearMap.det_toContinuousLinearMap, LinearMap.det_toLin, Matrix.det_fin_two_of,
    sub_neg_eq_add]
  have h2 : Real.sin a.1 = 2 * Real.sin (0.5 * a.1) * Real.cos (0.5 * a.1) := by
    rw [← Real.sin_two_mul]
    congr 1
    ring
  have hs := Real.mul_self_sqrt (show (0 : ℝ) ≤ 2 by norm_num)
  have ht := Real.sin_sq_add_cos_sq a.2
  rw [h2]
  linear_combination (Real.cos (0.5 * a.1) * Real.sin (0.5 * a.1) / 2 *
    (Real.cos a.2 ^ 2 + Real.sin a.2 ^ 2)) * hs +
    Real.cos (0.5 * a.1) * Real.sin (0.5 * a.1) * ht

open MeasureTheory in
/-- C64: the equal-area projection preserves area: every region of the upper hemisphere, given by
its polar angles and azimuths, is drawn as a figure whose area is one half of the area of the region
on the unit sphere (`∫∫ sin u du dv`).  The factor is the ratio of the disc to the hemisphere. -/
theorem C64_equal_area (A : Set (ℝ × ℝ)) (hA : MeasurableSet A)
    (hsub : A ⊆ Set.Ioc 0 (Real.pi / 2) ×ˢ Set.Ico 0 (2 * Real.pi)) :
    volume ((fun a : ℝ × ℝ => Projection.eqar.project a.1 a.2) '' A) =
      ∫⁻ a in A, ENNReal.ofReal (Real.sin a.1 / 2) := by
  rw [← lintegral_abs_det_fderiv_eq_addHaar_image volume hA
    (fun a _ => (hasFDerivAt_eqar a).hasFDerivWithinAt) ((C64_injective .eqar).mono hsub)]
  refine setLIntegral_congr_fun hA fun a ha => ?_
  have hpi := Real.pi_pos
  have h := (hsub ha).1
  simp only [det_eqar]
  rw [abs_of_nonneg]
  have := Real.sin_nonneg_of_nonneg_of_le_pi h.1.le (by linarith [h.2])
  positivity

/-- C64: the stereographic projection preserves angles: the two coordinate directions of the sphere
are drawn at right angles, and at every point both are scaled by the same factor (the azimuth
direction has length `sin u` on the sphere). -/
theorem C64_conformal (u v : ℝ) (h0 : 0 ≤ u) (h1 : u ≤ Real.pi / 2) :
    ∃ xu yu xv yv : ℝ,
      HasDerivAt (fun t => (Projection.stereo.project t v).1) xu u ∧
      HasDerivAt (fun t => (Projection.stereo.project t v).2) yu u ∧
      HasDerivAt (fun t => (Projection.stereo.project u t).1) xv v ∧
      HasDerivAt (fun t => (Projection.stereo.project u t).2) yv v ∧
      xu * xv + yu * yv = 0 ∧
      xv ^ 2 + yv ^ 2 = Real.sin u ^ 2 * (xu ^ 2 + yu ^ 2) ∧ 0 < xu ^ 2 + yu ^ 2 := by
  have hpi := Real.pi_pos
  obtain ⟨a, b⟩ := half_mem h0 h1
  have hc : 0 < Real.cos (0.5 * u) :=
    Real.cos_pos_of_mem_Ioo ⟨by linarith, by linarith⟩
  have ht : HasDerivAt (fun t : ℝ => Real.tan (0.5 * t)) (1 / Real.cos (0.5 * u) ^ 2 * 0.5) u := by
    have h1 : HasDerivAt (fun u : ℝ => 0.5 * u) 0.5 u := by
      simpa using (hasDerivAt_id u).const_mul (0.5 : ℝ)
    exact (Real.hasDerivAt_tan hc.ne').comp u h1
  have hsc := Real.sin_sq_add_cos_sq v
  have h2 : Real.sin u = 2 * Real.sin (0.5 * u) * Real.cos (0.5 * u) := by
    rw [← Real.sin_two_mul]
    congr 1
    ring
  refine ⟨_, _, _, _, ht.mul_const (Real.cos v), ht.mul_const (Real.sin v),
    (Real.hasDerivAt_cos v).const_mul _, (Real.hasDerivAt_sin v).const_mul _, by ring, ?_, ?_⟩
  · rw [h2, Real.tan_eq_sin_div_cos]
    have e1 : (Real.sin (0.5 * u) / Real.cos (0.5 * u) * -Real.sin v) ^ 2 +
        (Real.sin (0.5 * u) / Real.cos (0.5 * u) * Real.cos v) ^ 2 =
        (Real.sin (0.5 * u) / Real.cos (0.5 * u)) ^ 2 := by
      linear_combination (Real.sin (0.5 * u) / Real.cos (0.5 * u)) ^ 2 * hsc
    have e2 : (1 / Real.cos (0.5 * u) ^ 2 * 0.5 * Real.cos v) ^ 2 +
        (1 / Real.cos (0.5 * u) ^ 2 * 0.5 * Real.sin v) ^ 2 =
        (1 / Real.cos (0.5 * u) ^ 2 * 0.5) ^ 2 := by
      linear_combination (1 / Real.cos (0.5 * u) ^ 2 * 0.5) ^ 2 * hsc
    rw [e1, e2]
    field_simp
    norm_num
    ring
  · have e2 : (1 / Real.cos (0.5 * u) ^ 2 * 0.5 * Real.cos v) ^ 2 +
        (1 / Real.cos (0.5 * u) ^ 2 * 0.5 * Real.sin v) ^ 2 =
        (1 / Real.cos (0.5 * u) ^ 2 * 0.5) ^ 2 := by
      linear_combination (1 / Real.cos (0.5 * u) ^ 2 * 0.5) ^ 2 * hsc
    rw [e2]
    positivity

/-- A quarter of the hemisphere between two parallels meets the hypotheses. -/
example : MeasurableSet (Set.Ioc (Real.pi / 6) (Real.pi / 3) ×ˢ Set.Ico 0 (Real.pi / 2)) ∧
    Set.Ioc (Real.pi / 6) (Real.pi / 3) ×ˢ Set.Ico (0 : ℝ) (Real.pi / 2) ⊆
      Set.Ioc 0 (Real.pi / 2) ×ˢ Set.Ico 0 (2 * Real.pi) := by
  have hpi := Real.pi_pos
  refine ⟨measurableSet_Ioc.prod measurableSet_Ico, ?_⟩
  rintro ⟨u, v⟩ ⟨hu, hv⟩
  simp only [Set.mem_Ioc, Set.mem_Ico] at hu hv
  exact ⟨⟨by linarith [hu.1], by linarith [hu.2]⟩, hv.1, by linarith [hv.2]⟩

end Verif.Seismic
