/-
C125: the waves have the symmetry of the crystal, and their velocities along the axes and diagonals.
-/
import Verif.Elastic.Classes
import Verif.Seismic.Rotation

namespace Verif.Seismic.Spec
open Verif.Seismic Verif.Elastic Verif.Elastic.Spec

/-- The waves along two directions have the same velocities, absolute and relative; and where the velocity of a wave is
not that of another one, also the same group speed, power flow angle and enhancement factor. -/
def SameWaves (num : Numerics) (o : Seismic) (x x' : ℝ × ℝ) : Prop := ∀ st st' : State,
  (∀ p, p = .phaseVelocity ∨ p = .relPhaseVelocity →
    (step num o (.read p) (step num o (.spherical x'.1 x'.2) st').2).1 =
      (step num o (.read p) (step num o (.spherical x.1 x.2) st).2).1) ∧
  ∀ p, p = .groupAbs ∨ p = .relGroupVelocity ∨ p = .powerflow ∨ p = .enhancement → ∃ pv v v' : V3,
    (step num o (.read .phaseVelocity) (step num o (.spherical x.1 x.2) st).2).1 = .ok (.vec pv) ∧
    (step num o (.read p) (step num o (.spherical x.1 x.2) st).2).1 = .ok (.vec v) ∧
    (step num o (.read p) (step num o (.spherical x'.1 x'.2) st').2).1 = .ok (.vec v') ∧
    ∀ i, (∀ j, j ≠ i → pv j ≠ pv i) → v' i = v i

end Verif.Seismic.Spec

namespace Verif.Seismic
open Verif.Py Verif.Elastic Verif.Elastic.Spec Verif.Seismic.Spec

theorem sameWaves_of_turned (num : Numerics) (hn : EighCorrect num) (hp : PinvCorrect num) {R : Fin 3 → Fin 3 → ℝ}
    (hR : Orthogonal R) {C : M6} (hsym : ∀ i j, C i j = C j i) (h : Turned R C C) {density : ℝ} {o : Seismic}
    (ho : seismic C density = .ok o) {x x' : ℝ × ℝ} (hv : vector x'.1 x'.2 = turn R (vector x.1 x.2)) :
    SameWaves num o x x' := by
  intro st st'
  have hq : ∀ (y : ℝ × ℝ) (st : State), (step num o (.read .q) (step num o (.spherical y.1 y.2) st).2).1 =
      .ok (.vec (vector y.1 y.2)) := fun y st => by
    have := step_read (set_good (num := num) (o := o) (op := .spherical y.1 y.2) rfl st) .q
    exact this
  have hq' := hq x' st'
  rw [hv] at hq'
  obtain ⟨h1, pv, ga, ga', rg, rg', pf, pf', en, en', e, e', gv, gv', a1, -, -, -, -, a2, a3, a4, a5, a6, a7, a8, a9,
    key⟩ := C117_waves num hn hp hR hsym h ho ho (.inl ⟨_, _, rfl⟩) (.inl ⟨_, _, rfl⟩) (hq x st) hq'
  refine ⟨h1, ?_⟩
  rintro p (rfl | rfl | rfl | rfl)
  · exact ⟨pv, ga, ga', a1, a2, a3, fun i hi => (key i hi).2.2.1⟩
  · exact ⟨pv, rg, rg', a1, a4, a5, fun i hi => (key i hi).2.2.2.1⟩
  · exact ⟨pv, pf, pf', a1, a6, a7, fun i hi => (key i hi).2.2.2.2.1⟩
  · exact ⟨pv, en, en', a1, a8, a9, fun i hi => (key i hi).2.2.2.2.2⟩

/-- C125, waves about an axis: the waves in a hexagonal crystal do not depend on the azimuth; those in a tetragonal crystal
repeat every quarter of a turn about z, and those in a trigonal crystal every third of a turn. -/
theorem C125_waves_axis (num : Numerics) (hn : EighCorrect num) (hp : PinvCorrect num) {C : M6} {α : ℝ} (h : Repeat C α)
    {density : ℝ} {o : Seismic} (ho : seismic C density = .ok o) (theta phi : ℝ) :
    SameWaves num o (theta, phi) (theta, phi + α) :=
  sameWaves_of_turned num hn hp (aboutZ_orthogonal (Real.cos_sq_add_sin_sq α)) (repeat_symm h) (repeat_turned h) ho
    (vector_aboutZ _ _ _)

/-- C125, waves in orthorhombic crystals: they depend only on the sizes of the components of the direction. -/
theorem C125_waves_orthorhombic (num : Numerics) (hn : EighCorrect num) (hp : PinvCorrect num) {C : M6}
    (hC : Orthorhombic C) {density : ℝ} {o : Seismic} (ho : seismic C density = .ok o) {x x' : ℝ × ℝ}
    (h : SignsOnly (vector x.1 x.2) (vector x'.1 x'.2)) : SameWaves num o x x' := by
  obtain ⟨g, hg, e⟩ := signsOnly_turn h
  exact sameWaves_of_turned num hn hp (exchange_orthogonal (Equiv.refl _) hg) (fun i j => hC.1.apply j i)
    (orthorhombic_turned hC hg) ho e

/-- C125, waves in cubic crystals: they depend only on the sizes of the components of the direction, in any order. -/
theorem C125_waves_cubic (num : Numerics) (hn : EighCorrect num) (hp : PinvCorrect num) {C : M6}
    (hC : Cubic C) {density : ℝ} {o : Seismic} (ho : seismic C density = .ok o) {x x' : ℝ × ℝ}
    (h : OrderAndSigns (vector x.1 x.2) (vector x'.1 x'.2)) : SameWaves num o x x' := by
  obtain ⟨π, g, hg, e⟩ := orderAndSigns_turn h
  exact sameWaves_of_turned num hn hp (exchange_orthogonal π hg) (fun i j => hC.1.apply j i) (cubic_turned hC π hg) ho e

/-! ### Velocities along axes and diagonals -/

/-- Eigenvectors in any order determine the spectrum. -/
theorem spectrum_of_frame {M : M3} {w d : V3} (hw : Spectrum M w) {e : Fin 3 → V3} (hf : Frame e)
    (he : ∀ i, Eigen M (d i) (e i)) : ∃ π : Equiv.Perm (Fin 3), w = d ∘ π := by
  refine ⟨Tuple.sort d, spectrum_unique hw ?_⟩
  have hmono : Monotone (d ∘ Tuple.sort d) := Tuple.monotone_sort d
  refine ⟨hmono (by decide), hmono (by decide), fun i => e (Tuple.sort d i), fun i j => ?_, fun i => he _⟩
  rw [hf]
  simp only [EmbeddingLike.apply_eq_iff_eq]

/-- Velocities from the eigenvalues of the stiffness part of the Christoffel matrix. -/
theorem velocities_of_frame (num : Numerics) (hn : EighCorrect num) {C : M6} (hC : C.PosDef) {density : ℝ}
    (hr : 0 < density) {s : Soec} (hs : soec C density = .ok s) {o : Seismic} (ho : seismic C density = .ok o)
    (theta phi : ℝ) {e : Fin 3 → V3} (hf : Frame e) {d : V3}
    (he : ∀ i, Eigen (acoustic (cTensor C) 1 (vector theta phi)) (d i) (e i)) :
    ∃ π : Equiv.Perm (Fin 3), Soec.phaseVelocity num s theta phi = (fun i => Real.sqrt (1000 * d i / density)) ∘ π ∧
      ∀ st, (step num o (.read .phaseVelocity) (step num o (.spherical theta phi) st).2).1 =
        .ok (.vec ((fun i => Real.sqrt (1000 * d i / density)) ∘ π)) := by
  obtain ⟨⟨hV, hS⟩, -, hread⟩ := C37_velocities num hn C hC density hr s hs o ho theta phi
  have he' : ∀ i, Eigen (acoustic (fun i j k l => 10 ^ 9 * cTensor C i j k l) density (vector theta phi))
      (10 ^ 9 * d i / density) (e i) := by
    intro i k
    have := he i k
    simp only [acoustic, Matrix.of_apply, div_one] at this ⊢
    have h2 : ∀ j, (∑ j₁, ∑ l, 10 ^ 9 * cTensor C k j₁ j l * vector theta phi j₁ * vector theta phi l) / density * e i j =
        10 ^ 9 / density * ((∑ j₁, ∑ l, cTensor C k j₁ j l * vector theta phi j₁ * vector theta phi l) * e i j) := by
      intro j
      have : ∑ j₁, ∑ l, 10 ^ 9 * cTensor C k j₁ j l * vector theta phi j₁ * vector theta phi l =
          10 ^ 9 * ∑ j₁, ∑ l, cTensor C k j₁ j l * vector theta phi j₁ * vector theta phi l := by
        simp only [Finset.mul_sum, mul_assoc]
      rw [this]
      ring
    rw [Finset.sum_congr rfl fun j _ => h2 j, ← Finset.mul_sum, this]
    ring
  obtain ⟨π, hπ⟩ := spectrum_of_frame hS hf he'
  have hv : Soec.phaseVelocity num s theta phi = (fun i => Real.sqrt (1000 * d i / density)) ∘ π := by
    funext i
    have := congrFun hπ i
    simp only [Function.comp_apply] at this ⊢
    rw [show 1000 * d (π i) / density = Soec.phaseVelocity num s theta phi i ^ 2 by
      have h6 : (10:ℝ) ^ 6 ≠ 0 := by norm_num
      refine mul_left_cancel₀ h6 ?_
      linear_combination -this, Real.sqrt_sq (hV i)]
  refine ⟨π, hv, fun st => ?_⟩
  rw [hread st, hv]

/-- The Christoffel matrix of a crystal without coupling. -/
theorem acoustic_uncoupled {C : M6} (hs : C.IsSymm) (hu : Uncoupled C) (n : V3) : acoustic (cTensor C) 1 n =
    !![C 0 0 * n 0 ^ 2 + C 5 5 * n 1 ^ 2 + C 4 4 * n 2 ^ 2, (C 0 1 + C 5 5) * (n 0 * n 1), (C 0 2 + C 4 4) * (n 0 * n 2);
       (C 0 1 + C 5 5) * (n 0 * n 1), C 5 5 * n 0 ^ 2 + C 1 1 * n 1 ^ 2 + C 3 3 * n 2 ^ 2, (C 1 2 + C 3 3) * (n 1 * n 2);
       (C 0 2 + C 4 4) * (n 0 * n 2), (C 1 2 + C 3 3) * (n 1 * n 2), C 4 4 * n 0 ^ 2 + C 3 3 * n 1 ^ 2 + C 2 2 * n 2 ^ 2] := by
  have z : ∀ i j : Fin 6, i ≠ j → (3 ≤ i.val ∨ 3 ≤ j.val) → C i j = 0 := hu
  have h : ∀ i j, C i j = C j i := fun i j => hs.apply j i
  ext i k
  fin_cases i <;> fin_cases k <;>
    simp [acoustic, Fin.sum_univ_three, cTensor, vm, h 1 0, h 2 0, h 2 1,
      z 0 3 (by decide) (by decide), z 0 4 (by decide) (by decide), z 0 5 (by decide) (by decide),
      z 1 3 (by decide) (by decide), z 1 4 (by decide) (by decide), z 1 5 (by decide) (by decide),
      z 2 3 (by decide) (by decide), z 2 4 (by decide) (by decide), z 2 5 (by decide) (by decide),
      z 3 4 (by decide) (by decide), z 3 5 (by decide) (by decide), z 4 5 (by decide) (by decide),
      z 3 0 (by decide) (by decide), z 4 0 (by decide) (by decide), z 5 0 (by decide) (by decide),
      z 3 1 (by decide) (by decide), z 4 1 (by decide) (by decide), z 5 1 (by decide) (by decide),
      z 3 2 (by decide) (by decide), z 4 2 (by decide) (by decide), z 5 2 (by decide) (by decide),
      z 4 3 (by decide) (by decide), z 5 3 (by decide) (by decide), z 5 4 (by decide) (by decide)] <;> ring

theorem frame_axes : Frame axis := by
  intro i j
  fin_cases i <;> fin_cases j <;> simp [dot, axis]

/-- C125, velocities along the axes of a crystal without coupling (orthorhombic, tetragonal of high symmetry, hexagonal,
cubic): the longitudinal wave along axis `k` has the velocity `√(Ckk/ρ)`, and the shear waves those of the two shear moduli
of the planes that contain the axis.  Stiffness in GPa, density in kg/m³, velocities in km/s. -/
theorem C125_velocities_axis (num : Numerics) (hn : EighCorrect num) {C : M6} (hO : Orthorhombic C) (hC : C.PosDef)
    {density : ℝ} (hr : 0 < density) {s : Soec} (hs : soec C density = .ok s) {o : Seismic}
    (ho : seismic C density = .ok o) {theta phi : ℝ} (k : Fin 3) (hk : ∀ i, i ≠ k → vector theta phi i = 0) :
    ∃ π : Equiv.Perm (Fin 3), Soec.phaseVelocity num s theta phi = (fun i => Real.sqrt (1000 *
        (![![C 0 0, C 5 5, C 4 4], ![C 5 5, C 1 1, C 3 3], ![C 4 4, C 3 3, C 2 2]] : Fin 3 → V3) k i / density)) ∘ π ∧
      ∀ st, (step num o (.read .phaseVelocity) (step num o (.spherical theta phi) st).2).1 =
        .ok (.vec ((fun i => Real.sqrt (1000 *
        (![![C 0 0, C 5 5, C 4 4], ![C 5 5, C 1 1, C 3 3], ![C 4 4, C 3 3, C 2 2]] : Fin 3 → V3) k i / density)) ∘ π)) := by
  refine velocities_of_frame num hn hC hr hs ho theta phi frame_axes fun i j => ?_
  rw [acoustic_uncoupled hO.1 hO.2]
  have hu : ∑ i, vector theta phi i * vector theta phi i = 1 := vector_unit theta phi
  rw [Fin.sum_univ_three] at hu
  generalize vector theta phi = n at hk hu ⊢
  rw [Fin.sum_univ_three]
  fin_cases k
  · have h1 := hk 1 (by decide)
    have h2 := hk 2 (by decide)
    rw [h1, h2] at hu
    have hu' : n 0 ^ 2 = 1 := by linarith
    fin_cases i <;> fin_cases j <;> simp [axis, h1, h2, hu']
  · have h1 := hk 0 (by decide)
    have h2 := hk 2 (by decide)
    rw [h1, h2] at hu
    have hu' : n 1 ^ 2 = 1 := by linarith
    fin_cases i <;> fin_cases j <;> simp [axis, h1, h2, hu']
  · have h1 := hk 0 (by decide)
    have h2 := hk 1 (by decide)
    rw [h1, h2] at hu
    have hu' : n 2 ^ 2 = 1 := by linarith
    fin_cases i <;> fin_cases j <;> simp [axis, h1, h2, hu']

theorem same_velocities (num : Numerics) (hn : EighCorrect num) {C : M6} (hC : Cubic C) {density : ℝ} {s : Soec}
    (hs : soec C density = .ok s) {x x' : ℝ × ℝ} (h : OrderAndSigns (vector x.1 x.2) (vector x'.1 x'.2)) :
    Soec.phaseVelocity num s x'.1 x'.2 = Soec.phaseVelocity num s x.1 x.2 := by
  obtain ⟨π, g, hg, e⟩ := orderAndSigns_turn h
  exact C117_elastic num hn (exchange_orthogonal π hg) (fun i j => hC.1.apply j i) (cubic_turned hC π hg) hs hs e

/-- C125, velocities in cubic crystals along the diagonals of the faces: `(C11 + C12 + 2 C44)/2` for the longitudinal wave,
`(C11 - C12)/2` and `C44` for the shear waves. -/
theorem C125_velocities_face (num : Numerics) (hn : EighCorrect num) {C : M6} (hc : Cubic C) (hC : C.PosDef)
    {density : ℝ} (hr : 0 < density) {s : Soec} (hs : soec C density = .ok s) {o : Seismic}
    (ho : seismic C density = .ok o) {theta phi : ℝ}
    (hd : OrderAndSigns ![Real.sqrt 2 / 2, Real.sqrt 2 / 2, 0] (vector theta phi)) :
    ∃ π : Equiv.Perm (Fin 3), Soec.phaseVelocity num s theta phi = (fun i => Real.sqrt (1000 *
        (![(C 0 0 + C 0 1 + 2 * C 3 3) / 2, (C 0 0 - C 0 1) / 2, C 3 3] : V3) i / density)) ∘ π ∧
      ∀ st, (step num o (.read .phaseVelocity) (step num o (.spherical theta phi) st).2).1 =
        .ok (.vec ((fun i => Real.sqrt (1000 *
        (![(C 0 0 + C 0 1 + 2 * C 3 3) / 2, (C 0 0 - C 0 1) / 2, C 3 3] : V3) i / density)) ∘ π)) := by
  have hq : Real.sqrt 2 / 2 * (Real.sqrt 2 / 2) = 1 / 2 := by
    have := Real.mul_self_sqrt (show (0:ℝ) ≤ 2 by norm_num)
    linear_combination this / 4
  have hq2 : (Real.sqrt 2 / 2) ^ 2 = 1 / 2 := by rw [sq, hq]
  have hv : vector (Real.pi / 2) (Real.pi / 4) = ![Real.sqrt 2 / 2, Real.sqrt 2 / 2, 0] := by
    funext i
    fin_cases i <;> simp [vector]
  rw [← hv] at hd
  have hsame := same_velocities num hn hc hs (x := (Real.pi / 2, Real.pi / 4)) (x' := (theta, phi)) hd
  simp only at hsame
  have hf : Frame ![![Real.sqrt 2 / 2, Real.sqrt 2 / 2, 0], ![Real.sqrt 2 / 2, -(Real.sqrt 2 / 2), 0], ![0, 0, 1]] := by
    intro i j
    generalize Real.sqrt 2 / 2 = q at hq
    fin_cases i <;> fin_cases j <;> simp [dot, Fin.sum_univ_three] <;> linarith
  obtain ⟨hsym, hunc, c1, c2, c3, c4, c5, c6⟩ := hc
  obtain ⟨π, h1, -⟩ := velocities_of_frame num hn hC hr hs ho (Real.pi / 2) (Real.pi / 4) hf
    (d := ![(C 0 0 + C 0 1 + 2 * C 3 3) / 2, (C 0 0 - C 0 1) / 2, C 3 3]) (fun i j => by
      rw [hv, acoustic_uncoupled hsym hunc, Fin.sum_univ_three, ← c1, ← c2, ← c3, ← c4, ← c5, ← c6]
      generalize Real.sqrt 2 / 2 = q at hq hq2
      fin_cases i <;> fin_cases j <;> simp [hq, hq2] <;> ring)
  rw [← hsame] at h1
  refine ⟨π, h1, fun st => ?_⟩
  rw [(C37_velocities num hn C hC density hr s hs o ho theta phi).2.2 st, h1]

/-- C125, velocities in cubic crystals along the diagonals of the cube: `(C11 + 2 C12 + 4 C44)/3` for the longitudinal wave,
`(C11 - C12 + C44)/3` for both shear waves. -/
theorem C125_velocities_diagonal (num : Numerics) (hn : EighCorrect num) {C : M6} (hc : Cubic C) (hC : C.PosDef)
    {density : ℝ} (hr : 0 < density) {s : Soec} (hs : soec C density = .ok s) {o : Seismic}
    (ho : seismic C density = .ok o) {theta phi : ℝ}
    (hd : OrderAndSigns (fun _ => 1 / Real.sqrt 3) (vector theta phi)) :
    ∃ π : Equiv.Perm (Fin 3), Soec.phaseVelocity num s theta phi = (fun i => Real.sqrt (1000 *
        (![(C 0 0 + 2 * C 0 1 + 4 * C 3 3) / 3, (C 0 0 - C 0 1 + C 3 3) / 3, (C 0 0 - C 0 1 + C 3 3) / 3] : V3) i /
          density)) ∘ π ∧
      ∀ st, (step num o (.read .phaseVelocity) (step num o (.spherical theta phi) st).2).1 =
        .ok (.vec ((fun i => Real.sqrt (1000 *
        (![(C 0 0 + 2 * C 0 1 + 4 * C 3 3) / 3, (C 0 0 - C 0 1 + C 3 3) / 3, (C 0 0 - C 0 1 + C 3 3) / 3] : V3) i /
          density)) ∘ π)) := by
  have h3 : 1 / Real.sqrt 3 * (1 / Real.sqrt 3) = 1 / 3 := by
    rw [one_div_mul_one_div, Real.mul_self_sqrt (by norm_num)]
  have h2 : 1 / Real.sqrt 2 * (1 / Real.sqrt 2) = 1 / 2 := by
    rw [one_div_mul_one_div, Real.mul_self_sqrt (by norm_num)]
  have h6 : 1 / Real.sqrt 6 * (1 / Real.sqrt 6) = 1 / 6 := by
    rw [one_div_mul_one_div, Real.mul_self_sqrt (by norm_num)]
  generalize 1 / Real.sqrt 3 = x at hd h3
  generalize 1 / Real.sqrt 2 = y at h2
  generalize 1 / Real.sqrt 6 = z at h6
  obtain ⟨t, p, -, -, hv⟩ := exists_vector (a := fun _ => x) (by
    show ∑ i : Fin 3, x * x = 1
    rw [h3]; norm_num)
  rw [hv] at hd
  have hsame := same_velocities num hn hc hs (x := (t, p)) (x' := (theta, phi)) hd
  simp only at hsame
  have hf : Frame ![![x, x, x], ![y, -y, 0], ![z, z, -2 * z]] := by
    intro i j
    fin_cases i <;> fin_cases j <;> simp [dot, Fin.sum_univ_three] <;> linarith
  obtain ⟨hsym, hunc, c1, c2, c3, c4, c5, c6⟩ := hc
  have hx2 : x ^ 2 = 1 / 3 := by rw [sq, h3]
  obtain ⟨π, h1, -⟩ := velocities_of_frame num hn hC hr hs ho t p hf
    (d := ![(C 0 0 + 2 * C 0 1 + 4 * C 3 3) / 3, (C 0 0 - C 0 1 + C 3 3) / 3, (C 0 0 - C 0 1 + C 3 3) / 3])
    (fun i j => by
      rw [← hv, acoustic_uncoupled hsym hunc, Fin.sum_univ_three, ← c1, ← c2, ← c3, ← c4, ← c5, ← c6]
      fin_cases i <;> fin_cases j <;> simp [h3, hx2] <;> ring)
  rw [← hsame] at h1
  refine ⟨π, h1, fun st => ?_⟩
  rw [(C37_velocities num hn C hC density hr s hs o ho theta phi).2.2 st, h1]

/-- C125, principal axis: along the axis of a hexagonal, tetragonal or trigonal crystal both shear waves have the velocity
of `C44`, and the longitudinal wave that of `C33`. -/
theorem C125_velocities_principal (num : Numerics) (hn : EighCorrect num) {C : M6} {α : ℝ} (hc : Repeat C α) (hC : C.PosDef)
    {density : ℝ} (hr : 0 < density) {s : Soec} (hs : soec C density = .ok s) {o : Seismic}
    (ho : seismic C density = .ok o) {theta phi : ℝ} (h0 : vector theta phi 0 = 0) (h1 : vector theta phi 1 = 0) :
    ∃ π : Equiv.Perm (Fin 3), Soec.phaseVelocity num s theta phi = (fun i => Real.sqrt (1000 *
        (![C 3 3, C 3 3, C 2 2] : V3) i / density)) ∘ π ∧
      ∀ st, (step num o (.read .phaseVelocity) (step num o (.spherical theta phi) st).2).1 =
        .ok (.vec ((fun i => Real.sqrt (1000 * (![C 3 3, C 3 3, C 2 2] : V3) i / density)) ∘ π)) := by
  have hsym := repeat_symm hc
  obtain ⟨z1, z2, z3, z4⟩ : C 3 3 = C 4 4 ∧ C 2 3 = 0 ∧ C 2 4 = 0 ∧ C 3 4 = 0 := by
    rcases hc with h | ⟨h, -⟩ | ⟨h, -⟩
    · exact ⟨h.2.2.2.2.1, h.2.1 _ _ (by decide) (.inr (by decide)), h.2.1 _ _ (by decide) (.inr (by decide)),
        h.2.1 _ _ (by decide) (.inr (by decide))⟩
    · obtain ⟨-, -, -, a, -, -, -, -, -, b, c, -, d, -⟩ := h
      exact ⟨a, b, c, d⟩
    · obtain ⟨-, -, -, a, -, -, -, -, -, -, -, b, c, -, d⟩ := h
      exact ⟨a, b, c, d⟩
  refine velocities_of_frame num hn hC hr hs ho theta phi frame_axes fun i j => ?_
  have hu : ∑ i, vector theta phi i * vector theta phi i = 1 := vector_unit theta phi
  rw [Fin.sum_univ_three, h0, h1] at hu
  have hu' : vector theta phi 2 * vector theta phi 2 = 1 := by linarith
  generalize vector theta phi = n at h0 h1 hu'
  fin_cases i <;> fin_cases j <;>
    simp [acoustic, Fin.sum_univ_three, cTensor, vm, axis, h0, h1, mul_assoc, hu', hsym 3 2, hsym 4 2, hsym 4 3, z2, z3, z4,
      ← z1]

/-! ### Witnesses -/

/-- Periclase, with a density of 3580 kg/m³: the waves along the diagonal of the cube. -/
example (num : Numerics) (hn : EighCorrect num) {s : Soec} (hs : soec periclase 3580 = .ok s) {o : Seismic}
    (ho : seismic periclase 3580 = .ok o) {theta phi : ℝ}
    (hd : OrderAndSigns (fun _ => 1 / Real.sqrt 3) (vector theta phi)) :
    ∃ π : Equiv.Perm (Fin 3), Soec.phaseVelocity num s theta phi = (fun i => Real.sqrt (1000 *
        (![1111 / 3, 358 / 3, 358 / 3] : V3) i / 3580)) ∘ π := by
  obtain ⟨π, h, -⟩ := C125_velocities_diagonal num hn periclase_cubic periclase_posDef (by norm_num) hs ho hd
  refine ⟨π, h.trans ?_⟩
  funext i
  simp only [Function.comp_apply]
  congr 3
  generalize π i = j
  fin_cases j <;> simp [periclase, cubic] <;> norm_num

/-- The two objects of the example exist. -/
example : (∃ s, soec periclase 3580 = .ok s) ∧ ∃ o, seismic periclase 3580 = .ok o := by
  have hd : periclase.det ≠ 0 := posDef_det periclase_posDef
  exact ⟨⟨_, if_neg hd⟩, ⟨_, if_neg hd⟩⟩

end Verif.Seismic
