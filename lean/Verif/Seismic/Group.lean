/-
Properties C39 (group velocity), C42 (angles of a direction) and C62 (cofactors).
-/
import Verif.Seismic.Waves

namespace Verif.Seismic
open Verif.Py Verif.Elastic Verif.Elastic.Spec Spec

/-! ### Rounding -/

theorem rint_near (x : ℝ) : |(rint x : ℝ) - x| ≤ 1 / 2 := by
  have h0 : 0 ≤ x - ⌊x⌋ := sub_nonneg.2 (Int.floor_le x)
  have h1 : x - ⌊x⌋ < 1 := by linarith [Int.lt_floor_add_one x]
  unfold rint
  rw [abs_le]
  split_ifs with ha hb hc
  · constructor <;> linarith
  · push_cast; constructor <;> linarith
  · constructor <;> linarith
  · push_cast; constructor <;> linarith

theorem around10_near (x : ℝ) : |around10 x - x| ≤ 1 / (2 * 10 ^ 10) := by
  have h := rint_near (x * 10 ^ 10)
  unfold around10
  rw [abs_le] at h ⊢
  constructor
  · rw [le_sub_iff_add_le, le_div_iff₀ (by norm_num)]
    linarith [h.1]
  · rw [sub_le_iff_le_add, div_le_iff₀ (by norm_num)]
    linarith [h.2]

theorem around10_le {x : ℝ} (h : |x| ≤ 1) : |around10 x| ≤ 1 := by
  have hn := rint_near (x * 10 ^ 10)
  rw [abs_le] at hn h
  unfold around10
  generalize rint (x * 10 ^ 10) = r at hn ⊢
  have hu : (r : ℝ) < ((10 ^ 10 + 1 : ℤ) : ℝ) := by push_cast; linarith [hn.2, h.2]
  have hl : ((-10 ^ 10 - 1 : ℤ) : ℝ) < (r : ℝ) := by push_cast; linarith [hn.1, h.1]
  rw [Int.cast_lt] at hu hl
  have hu' : (r : ℝ) ≤ 10 ^ 10 := by
    have : r ≤ 10 ^ 10 := by omega
    exact_mod_cast this
  have hl' : -10 ^ 10 ≤ (r : ℝ) := by
    have : -10 ^ 10 ≤ r := by omega
    exact_mod_cast this
  rw [abs_le]
  constructor
  · rw [le_div_iff₀ (by norm_num)]; linarith
  · rw [div_le_iff₀ (by norm_num)]; linarith

/-! ### Vectors -/

theorem norm_sq (v : V3) : norm v ^ 2 = dot v v := by
  unfold norm dot
  rw [Real.sq_sqrt (Finset.sum_nonneg fun i _ => sq_nonneg _)]
  exact Finset.sum_congr rfl fun i _ => sq _

theorem norm_nonneg (v : V3) : 0 ≤ norm v := Real.sqrt_nonneg _

theorem cauchy (a b : V3) : dot a b ^ 2 ≤ dot a a * dot b b := by
  simp only [dot, Fin.sum_univ_three]
  nlinarith [sq_nonneg (a 0 * b 1 - a 1 * b 0), sq_nonneg (a 0 * b 2 - a 2 * b 0),
    sq_nonneg (a 1 * b 2 - a 2 * b 1)]

theorem norm_pos {v : V3} (h : v ≠ 0) : 0 < norm v := by
  refine lt_of_le_of_ne (norm_nonneg v) fun h0 => h ?_
  have hs := norm_sq v
  rw [← h0] at hs
  simp only [dot, Fin.sum_univ_three] at hs
  have a0 := mul_self_nonneg (v 0)
  have a1 := mul_self_nonneg (v 1)
  have a2 := mul_self_nonneg (v 2)
  have z0 : v 0 = 0 := mul_self_eq_zero.1 (by linarith)
  have z1 : v 1 = 0 := mul_self_eq_zero.1 (by linarith)
  have z2 : v 2 = 0 := mul_self_eq_zero.1 (by linarith)
  funext i
  fin_cases i
  · exact z0
  · exact z1
  · exact z2

theorem normalised_unit {v : V3} (h : v ≠ 0) : UnitVector fun i => v i / norm v := by
  have hp := norm_pos h
  have hs := norm_sq v
  simp only [UnitVector, dot, Fin.sum_univ_three] at hs ⊢
  field_simp
  linarith

/-- The direction of a setting operation is a unit vector. -/
theorem dir_unit {setting : Op} {d : Dir} (hd : setting.dir = some d)
    (h0 : ∀ v, setting = .cartesian v → v ≠ 0) : UnitVector d.q := by
  cases setting <;> simp only [Op.dir, Option.some.injEq, reduceCtorEq] at hd
  · subst hd; exact vector_unit _ _
  · subst hd; exact normalised_unit (h0 _ rfl)

theorem dir_of_setting {setting : Op}
    (h : (∃ theta phi, setting = .spherical theta phi) ∨ ∃ v, v ≠ 0 ∧ setting = .cartesian v) :
    ∃ d, setting.dir = some d ∧ UnitVector d.q := by
  rcases h with ⟨t, p, rfl⟩ | ⟨v, hv, rfl⟩
  · exact ⟨_, rfl, vector_unit _ _⟩
  · exact ⟨_, rfl, normalised_unit hv⟩

/-! ### The gradient -/

/-- Euler's relation: the Christoffel matrix is homogeneous of degree two. -/
theorem euler (c : T4) (q : V3) (a d : Fin 3) :
    ∑ j, q j * gradChristoffel c q j a d = 2 * christoffel c q a d := by
  simp only [gradChristoffel, christoffel, Matrix.of_apply, Fin.sum_univ_three]
  ring

theorem christoffel_symm {C : M6} (hC : ∀ i j, C i j = C j i) {rho : ℝ} {o : Seismic}
    (ho : seismic C rho = .ok o) (q : V3) (a d : Fin 3) :
    christoffel o.Cmat q a d = christoffel o.Cmat q d a := by
  obtain ⟨-, ho'⟩ := seismic_ok ho
  rw [ho']
  simp only [christoffel, Matrix.of_apply, Finset.mul_sum]
  rw [Finset.sum_comm]
  refine Finset.sum_congr rfl fun x _ => Finset.sum_congr rfl fun y _ => ?_
  rw [show cTensor C a y x d = cTensor C d x y a by
    simp only [cTensor]; rw [hC, vm_comm x d, vm_comm a y]]
  ring

theorem group_projection {num : Numerics} {o : Seismic} {d : Dir} (i : Fin 3)
    (hu : UnitVector (d.eigenvec num o i))
    (he : Eigen (d.M o) (d.eigenval num o i) (d.eigenvec num o i)) :
    dot d.q ((d.group num o).gradEig i) = 2 * d.eigenval num o i := by
  have hq := eigen_quad he hu
  have e := euler o.Cmat d.q
  have h : dot d.q ((d.group num o).gradEig i) =
      ∑ a, d.eigenvec num o i a * ∑ b, (∑ j, d.q j * gradChristoffel o.Cmat d.q j a b) *
        d.eigenvec num o i b := by
    simp only [dot, Dir.group, groupOf, Matrix.of_apply, dotProduct, Matrix.mulVec, Dir.gradM,
      Fin.sum_univ_three]
    ring
  rw [h, ← hq]
  simp only [e, Dir.M, Fin.sum_univ_three]
  ring

/-- C39, for waves with positive phase velocity: the projection of the group velocity on the
direction is the phase velocity, the group velocity is at least as fast, its reported modulus is its
length, and the reported power-flow angle is, up to the rounding to ten decimals made by the code,
the angle whose cosine is the ratio of the two speeds.  (For negative phase velocities, which an
unstable medium gives, see `C39_negative_violated`; for zero ones the code divides by zero.) -/
theorem C39_projection_partial (num : Numerics) (hn : EighCorrect num) (C : M6)
    (hC : ∀ i j, C i j = C j i) (density : ℝ) (o : Seismic) (ho : seismic C density = .ok o)
    (setting : Op)
    (hset : (∃ theta phi, setting = .spherical theta phi) ∨ ∃ v, v ≠ 0 ∧ setting = .cartesian v)
    (st : State) :
    ∃ (q pv ga pf : V3) (gv : M3),
      (step num o (.read .q) (step num o setting st).2).1 = .ok (.vec q) ∧
      (step num o (.read .phaseVelocity) (step num o setting st).2).1 = .ok (.vec pv) ∧
      (step num o (.read .groupVelocity) (step num o setting st).2).1 = .ok (.mat gv) ∧
      (step num o (.read .groupAbs) (step num o setting st).2).1 = .ok (.vec ga) ∧
      (step num o (.read .powerflow) (step num o setting st).2).1 = .ok (.vec pf) ∧
      UnitVector q ∧
      ∀ i, 0 < pv i →
        dot q (gv i) = pv i ∧ pv i ≤ ga i ∧ ga i = Real.sqrt (dot (gv i) (gv i)) ∧
        |Real.cos (pf i) - pv i / ga i| ≤ 1 / (2 * 10 ^ 10) ∧ 0 ≤ pf i ∧ pf i ≤ Real.pi := by
  obtain ⟨d, hd, hq⟩ := dir_of_setting hset
  have g := set_good (num := num) (o := o) hd st
  refine ⟨d.q, d.phase num o, (d.group num o).abs, (d.group num o).powerflow,
    (d.group num o).velocity, step_read g _, step_read g _, step_read g _, step_read g _,
    step_read g _, hq, fun i hpos => ?_⟩
  obtain ⟨-, -, hf, he⟩ := sortedEigh_spec hn (fun a b => christoffel_symm hC ho d.q a b)
  have hu : UnitVector (d.eigenvec num o i) := by
    have := hf i i
    rwa [if_pos rfl] at this
  have hproj := group_projection i hu (he i)
  set w := d.eigenval num o i with hw
  have hp : d.phase num o i = Real.sign w * Real.sqrt |w| := rfl
  have hwpos : 0 < w := by
    rcases lt_trichotomy w 0 with h | h | h
    · rw [hp, Real.sign_of_neg h] at hpos
      nlinarith [Real.sqrt_nonneg |w|]
    · rw [hp, h] at hpos; simp at hpos
    · exact h
  have hps : d.phase num o i = Real.sqrt w := by
    rw [hp, Real.sign_of_pos hwpos, one_mul, abs_of_pos hwpos]
  have hsq : d.phase num o i ^ 2 = w := by rw [hps, Real.sq_sqrt hwpos.le]
  have hpr : dot d.q ((d.group num o).velocity i) = d.phase num o i := by
    have : dot d.q ((d.group num o).velocity i) =
        dot d.q ((d.group num o).gradEig i) / (2 * d.phase num o i) := by
      simp only [dot, Dir.group, groupOf, Matrix.of_apply, Fin.sum_univ_three]
      ring
    rw [this, hproj, div_eq_iff (by positivity)]
    linarith
  have habs : (d.group num o).abs i = norm ((d.group num o).velocity i) := rfl
  have hle : d.phase num o i ≤ (d.group num o).abs i := by
    have hc := cauchy d.q ((d.group num o).velocity i)
    rw [hpr, show dot d.q d.q = 1 from hq, one_mul, ← norm_sq] at hc
    rw [habs]
    exact le_of_sq_le_sq hc (norm_nonneg _)
  have hgpos : 0 < (d.group num o).abs i := hpos.trans_le hle
  have hdir : dotProduct ((d.group num o).dir i) d.q =
      d.phase num o i / (d.group num o).abs i := by
    rw [← hpr]
    have : ∀ j, (d.group num o).dir i j =
        (d.group num o).velocity i j / (d.group num o).abs i := fun j => rfl
    simp only [dotProduct, dot, this, Fin.sum_univ_three]
    ring
  have hpf : (d.group num o).powerflow i =
      Real.arccos (around10 (dotProduct ((d.group num o).dir i) d.q)) := rfl
  refine ⟨hpr, hle, ?_, ?_, ?_, ?_⟩
  · rw [habs, ← norm_sq, Real.sqrt_sq (norm_nonneg _)]
  · rw [hpf, hdir]
    have h1 : |d.phase num o i / (d.group num o).abs i| ≤ 1 := by
      rw [abs_of_pos (div_pos hpos hgpos), div_le_one hgpos]
      exact hle
    have h2 := abs_le.1 (around10_le h1)
    rw [Real.cos_arccos h2.1 h2.2]
    exact around10_near _
  · exact Real.arccos_nonneg _
  · exact Real.arccos_le_pi _

/-- C39 is violated for unstable media: a wave with a negative eigenvalue is given a negative phase
velocity, and the projection of its group velocity is the opposite of that number.  Such media are
accepted by the constructor. -/
theorem C39_negative_violated (num : Numerics) (hn : EighCorrect num) :
    (∀ (C : M6) (_ : ∀ i j, C i j = C j i) (density : ℝ) (o : Seismic)
      (_ : seismic C density = .ok o) (theta phi : ℝ) (st : State),
      ∃ (q pv : V3) (gv : M3),
        (step num o (.read .q) (step num o (.spherical theta phi) st).2).1 = .ok (.vec q) ∧
        (step num o (.read .phaseVelocity) (step num o (.spherical theta phi) st).2).1 =
          .ok (.vec pv) ∧
        (step num o (.read .groupVelocity) (step num o (.spherical theta phi) st).2).1 =
          .ok (.mat gv) ∧
        ∀ i, pv i < 0 → dot q (gv i) = -pv i ∧ dot q (gv i) ≠ pv i) ∧
    ∃ (C : M6) (density : ℝ) (o : Seismic), (∀ i j, C i j = C j i) ∧ 0 < density ∧
      seismic C density = .ok o ∧ ∀ theta phi st, ∃ pv : V3,
        (step num o (.read .phaseVelocity) (step num o (.spherical theta phi) st).2).1 =
          .ok (.vec pv) ∧ pv 0 < 0 := by
  constructor
  · intro C hC density o ho theta phi st
    set d : Dir := ⟨seismicVector theta phi, theta, phi⟩ with hd
    have g := set_good (num := num) (o := o) (op := .spherical theta phi) (d := d) rfl st
    refine ⟨d.q, d.phase num o, (d.group num o).velocity, step_read g _, step_read g _,
      step_read g _, fun i hneg => ?_⟩
    obtain ⟨-, -, hf, he⟩ := sortedEigh_spec hn (fun a b => christoffel_symm hC ho d.q a b)
    have hu : UnitVector (d.eigenvec num o i) := by
      have := hf i i
      rwa [if_pos rfl] at this
    have hproj := group_projection i hu (he i)
    set w := d.eigenval num o i with hw
    have hp : d.phase num o i = Real.sign w * Real.sqrt |w| := rfl
    have hwneg : w < 0 := by
      rcases lt_trichotomy w 0 with h | h | h
      · exact h
      · rw [hp, h] at hneg; simp at hneg
      · rw [hp, Real.sign_of_pos h] at hneg
        nlinarith [Real.sqrt_nonneg |w|]
    have hps : d.phase num o i = -Real.sqrt (-w) := by
      rw [hp, Real.sign_of_neg hwneg, abs_of_neg hwneg]; ring
    have hsq : d.phase num o i ^ 2 = -w := by rw [hps, neg_sq, Real.sq_sqrt (by linarith)]
    have hpr : dot d.q ((d.group num o).velocity i) = -d.phase num o i := by
      have : dot d.q ((d.group num o).velocity i) =
          dot d.q ((d.group num o).gradEig i) / (2 * d.phase num o i) := by
        simp only [dot, Dir.group, groupOf, Matrix.of_apply, Fin.sum_univ_three]
        ring
      rw [this, hproj, div_eq_iff (by linarith)]
      linarith
    exact ⟨hpr, by rw [hpr]; linarith⟩
  · have hdet : (isotropic 1 (-1)).det ≠ 0 := iso_det (by norm_num) (by norm_num)
    have hsym : ∀ i j, isotropic 1 (-1) i j = isotropic 1 (-1) j i :=
      fun i j => (isotropic_symm 1 (-1)).apply j i
    obtain ⟨o, ho⟩ : ∃ o, seismic (isotropic 1 (-1)) 1000 = .ok o := ⟨_, if_neg hdet⟩
    refine ⟨isotropic 1 (-1), 1000, o, hsym, by norm_num, ho,
      fun theta phi st => ⟨_, step_read (set_good (d := ⟨seismicVector theta phi, theta, phi⟩) rfl st) _, ?_⟩⟩
    have hM := christoffel_eq ho (by norm_num) (vector theta phi)
    have hsp := spectrum_unique (sortedEigh_spectrum hn
      (fun a b => christoffel_symm hsym ho (vector theta phi) a b))
      (hM ▸ spectrum_smul (by norm_num) (iso_spectrum (by norm_num) (by norm_num) theta phi))
    show Real.sign ((sortedEigh num (christoffel o.Cmat (vector theta phi))).1 0) *
      Real.sqrt |(sortedEigh num (christoffel o.Cmat (vector theta phi))).1 0| < 0
    rw [hsp]
    simp only [Matrix.cons_val]
    rw [Real.sign_of_neg (by norm_num)]
    have : 0 < Real.sqrt |1 / 10 ^ 6 * (10 ^ 9 * -1 / 1000)| :=
      Real.sqrt_pos.2 (by norm_num)
    linarith

/-! ### Angles -/

/-- The angles stored for a unit vector, as computed by the code. -/
theorem angles_swap {q : V3} (hq : UnitVector q) :
    vector (arctan2 (Real.sqrt (q 1 ^ 2 + q 0 ^ 2)) (q 2)) (arctan2 (q 0) (q 1)) =
      ![q 1, q 0, q 2] ∧
    0 ≤ arctan2 (Real.sqrt (q 1 ^ 2 + q 0 ^ 2)) (q 2) ∧
    arctan2 (Real.sqrt (q 1 ^ 2 + q 0 ^ 2)) (q 2) ≤ Real.pi := by
  simp only [UnitVector, dot, Fin.sum_univ_three] at hq
  set r := Real.sqrt (q 1 ^ 2 + q 0 ^ 2) with hr
  have hr0 : 0 ≤ r := Real.sqrt_nonneg _
  have hr2 : r ^ 2 = q 1 ^ 2 + q 0 ^ 2 := Real.sq_sqrt (by positivity)
  have n1 : ‖(⟨q 2, r⟩ : ℂ)‖ = 1 := by
    rw [Complex.norm_def, Complex.normSq_mk, Real.sqrt_eq_one]
    nlinarith
  have h1ne : (⟨q 2, r⟩ : ℂ) ≠ 0 := by
    intro h
    rw [h, norm_zero] at n1
    norm_num at n1
  have c1 : Real.cos (arctan2 r (q 2)) = q 2 := by
    unfold arctan2
    rw [Complex.cos_arg h1ne, n1, div_one]
  have s1 : Real.sin (arctan2 r (q 2)) = r := by
    unfold arctan2
    rw [Complex.sin_arg, n1, div_one]
  have n2 : ‖(⟨q 1, q 0⟩ : ℂ)‖ = r := by
    rw [Complex.norm_def, Complex.normSq_mk, hr]
    congr 1
    ring
  have hxy : r * Real.cos (arctan2 (q 0) (q 1)) = q 1 ∧ r * Real.sin (arctan2 (q 0) (q 1)) = q 0 := by
    by_cases h : (⟨q 1, q 0⟩ : ℂ) = 0
    · have hr' : r = 0 := by rw [← n2, h, norm_zero]
      have a := congrArg Complex.re h
      have b := congrArg Complex.im h
      simp only [Complex.zero_re, Complex.zero_im] at a b
      rw [hr', zero_mul, zero_mul, a, b]
      exact ⟨rfl, rfl⟩
    · have hr' : r ≠ 0 := by rw [← n2]; exact norm_ne_zero_iff.2 h
      unfold arctan2
      rw [Complex.cos_arg h, Complex.sin_arg, n2]
      exact ⟨mul_div_cancel₀ _ hr', mul_div_cancel₀ _ hr'⟩
  refine ⟨?_, ?_, ?_⟩
  · funext i
    simp only [vector, s1, c1, hxy.1, hxy.2]
  · exact Complex.arg_nonneg_iff.2 hr0
  · exact Complex.arg_le_pi _

/-- C42, the part that holds: the polar angle is right.  After setting a direction by components,
the stored `theta` lies in `[0, π]` and its cosine is the z component of the stored direction, which
is the unit vector along the given one; the same for the group directions.  Missing: the azimuth. -/
theorem C42_theta_partial (num : Numerics) (o : Seismic) (v : V3) (hv : v ≠ 0) (st : State) :
    ∃ (q : V3) (theta phi : ℝ),
      (step num o (.read .q) (step num o (.cartesian v) st).2).1 = .ok (.vec q) ∧
      (step num o (.read .theta) (step num o (.cartesian v) st).2).1 = .ok (.num theta) ∧
      (step num o (.read .phi) (step num o (.cartesian v) st).2).1 = .ok (.num phi) ∧
      UnitVector q ∧ (∃ c, 0 < c ∧ ∀ i, v i = c * q i) ∧
      0 ≤ theta ∧ theta ≤ Real.pi ∧ Real.cos theta = q 2 ∧
      (q 0 = q 1 → seismicVector theta phi = q) := by
  have g := set_good (num := num) (o := o) (op := .cartesian v) rfl st
  have hu := normalised_unit hv
  obtain ⟨h1, h2, h3⟩ := angles_swap hu
  refine ⟨_, _, _, step_read g _, step_read g _, step_read g _, hu,
    ⟨norm v, norm_pos hv, fun i => (mul_div_cancel₀ _ (norm_pos hv).ne').symm⟩, h2, h3,
    congrFun h1 2, fun h => ?_⟩
  rw [seismicVector_eq]
  refine h1.trans ?_
  funext i
  fin_cases i
  · exact h.symm
  · exact h
  · rfl

/-- C42 is violated: the azimuth is computed with the arguments of `arctan2` exchanged, so feeding
the stored angles back gives the direction with its x and y components exchanged; it is the
direction itself only if they are equal.  Example: the x axis is stored with the angles of the y
axis. -/
theorem C42_azimuth_violated (num : Numerics) (o : Seismic) :
    (∀ (v : V3), v ≠ 0 → ∀ st : State, ∃ (q : V3) (theta phi : ℝ),
      (step num o (.read .q) (step num o (.cartesian v) st).2).1 = .ok (.vec q) ∧
      (step num o (.read .theta) (step num o (.cartesian v) st).2).1 = .ok (.num theta) ∧
      (step num o (.read .phi) (step num o (.cartesian v) st).2).1 = .ok (.num phi) ∧
      seismicVector theta phi = ![q 1, q 0, q 2] ∧ (seismicVector theta phi = q ↔ v 0 = v 1)) ∧
    ∀ st : State, ∃ (q : V3) (theta phi : ℝ),
      (step num o (.read .q) (step num o (.cartesian ![1, 0, 0]) st).2).1 = .ok (.vec q) ∧
      (step num o (.read .theta) (step num o (.cartesian ![1, 0, 0]) st).2).1 = .ok (.num theta) ∧
      (step num o (.read .phi) (step num o (.cartesian ![1, 0, 0]) st).2).1 = .ok (.num phi) ∧
      q = ![1, 0, 0] ∧ seismicVector theta phi = ![0, 1, 0] := by
  have main : ∀ (v : V3), v ≠ 0 → ∀ st : State, ∃ (q : V3) (theta phi : ℝ),
      (step num o (.read .q) (step num o (.cartesian v) st).2).1 = .ok (.vec q) ∧
      (step num o (.read .theta) (step num o (.cartesian v) st).2).1 = .ok (.num theta) ∧
      (step num o (.read .phi) (step num o (.cartesian v) st).2).1 = .ok (.num phi) ∧
      (q = fun i => v i / norm v) ∧ seismicVector theta phi = ![q 1, q 0, q 2] := by
    intro v hv st
    have g := set_good (num := num) (o := o) (op := .cartesian v) rfl st
    exact ⟨_, _, _, step_read g _, step_read g _, step_read g _, rfl,
      (angles_swap (normalised_unit hv)).1⟩
  constructor
  · intro v hv st
    obtain ⟨q, t, p, h1, h2, h3, hq, h4⟩ := main v hv st
    refine ⟨q, t, p, h1, h2, h3, h4, ?_⟩
    rw [h4]
    have hn := (norm_pos hv).ne'
    constructor
    · intro h
      have h0 : q 1 = q 0 := congrFun h 0
      rw [hq] at h0
      have := (div_left_inj' hn).1 h0
      exact this.symm
    · intro h
      have h0 : q 0 = q 1 := by rw [hq]; exact congrArg (· / norm v) h
      funext i
      fin_cases i
      · exact h0.symm
      · exact h0
      · rfl
  · intro st
    have hne : (![1, 0, 0] : V3) ≠ 0 := fun h => by simpa using congrFun h 0
    obtain ⟨q, t, p, h1, h2, h3, hq, h4⟩ := main ![1, 0, 0] hne st
    have hnorm : norm ![1, 0, 0] = 1 := by simp [norm, Fin.sum_univ_three]
    have hq' : q = ![1, 0, 0] := by
      rw [hq, hnorm]
      funext i
      rw [div_one]
    refine ⟨q, t, p, h1, h2, h3, hq', ?_⟩
    rw [h4, hq']
    rfl

/-- C42 for the group velocities: whenever a group velocity is not zero, its polar angle lies in
`[0, π]` and its cosine is the z component of the group direction; the direction of the two stored
angles is the group direction with its x and y components exchanged, so the azimuth is right only if
they are equal. -/
theorem C42_group_partial (num : Numerics) (o : Seismic) (setting : Op)
    (hset : (∃ theta phi, setting = .spherical theta phi) ∨ ∃ v, v ≠ 0 ∧ setting = .cartesian v)
    (st : State) :
    ∃ (gv dir : M3) (theta phi : V3),
      (step num o (.read .groupVelocity) (step num o setting st).2).1 = .ok (.mat gv) ∧
      (step num o (.read .groupDir) (step num o setting st).2).1 = .ok (.mat dir) ∧
      (step num o (.read .groupTheta) (step num o setting st).2).1 = .ok (.vec theta) ∧
      (step num o (.read .groupPhi) (step num o setting st).2).1 = .ok (.vec phi) ∧
      ∀ i, gv i ≠ 0 →
        UnitVector (dir i) ∧ (∃ c, 0 < c ∧ ∀ j, gv i j = c * dir i j) ∧
        0 ≤ theta i ∧ theta i ≤ Real.pi ∧ Real.cos (theta i) = dir i 2 ∧
        seismicVector (theta i) (phi i) = ![dir i 1, dir i 0, dir i 2] := by
  obtain ⟨d, hd, -⟩ := dir_of_setting hset
  have g := set_good (num := num) (o := o) hd st
  refine ⟨_, _, _, _, step_read g _, step_read g _, step_read g _, step_read g _, fun i hi => ?_⟩
  have hu := normalised_unit hi
  obtain ⟨h1, h2, h3⟩ := angles_swap hu
  refine ⟨hu, ⟨norm ((d.group num o).velocity i), norm_pos hi,
    fun j => (mul_div_cancel₀ _ (norm_pos hi).ne').symm⟩, h2, h3, congrFun h1 2, ?_⟩
  rw [seismicVector_eq]
  exact h1

/-! ### Cofactors -/

/-- C62: the cofactor matrix consists of the signed minors, on both code paths, and therefore
`A · cof(A)ᵀ = det(A) · I`. -/
theorem C62_cofactor_partial (A : M3) :
    cofactor A =
      !![A 1 1 * A 2 2 - A 1 2 * A 2 1, -(A 1 0 * A 2 2 - A 1 2 * A 2 0),
           A 1 0 * A 2 1 - A 1 1 * A 2 0;
         -(A 0 1 * A 2 2 - A 0 2 * A 2 1), A 0 0 * A 2 2 - A 0 2 * A 2 0,
           -(A 0 0 * A 2 1 - A 0 1 * A 2 0);
         A 0 1 * A 1 2 - A 0 2 * A 1 1, -(A 0 0 * A 1 2 - A 0 2 * A 1 0),
           A 0 0 * A 1 1 - A 0 1 * A 1 0] ∧
    A * (cofactor A).transpose = A.det • (1 : M3) := by
  have h1 : cofactor A = A.adjugate.transpose := by
    unfold cofactor
    split
    · rename_i h
      rw [Matrix.inv_def, Matrix.transpose_smul, smul_smul, Ring.inverse_eq_inv',
        mul_inv_cancel₀ h, one_smul]
    · rw [Matrix.adjugate_fin_three]
      ext i j
      fin_cases i <;> fin_cases j <;> simp [Matrix.transpose_apply] <;> ring
  constructor
  · rw [h1, Matrix.adjugate_fin_three]
    ext i j
    fin_cases i <;> fin_cases j <;> simp [Matrix.transpose_apply] <;> ring
  · rw [h1, Matrix.transpose_transpose, Matrix.mul_adjugate]

/-- Both paths are taken. -/
example : (1 : M3).det ≠ 0 ∧ (0 : M3).det = 0 := by simp

/-- C62 is violated by the compiled helper of the same name: it never returns a matrix. -/
theorem C62_compiled_violated (A : M3) : ∀ B, fastCofactor A ≠ some B := by
  intro B h
  cases h

end Verif.Seismic
