/-
C125: the elastic properties have the symmetry of the crystal.
-/
import Verif.Elastic.ClassesSpec
import Verif.Elastic.RotationProps

namespace Verif.Elastic
open Verif.Py Verif.Elastic.Spec

/-! ### Turns about the third axis -/

/-- The turn about z of given cosine and sine. -/
def aboutZ (c s : ℝ) : Fin 3 → Fin 3 → ℝ := ![![c, -s, 0], ![s, c, 0], ![0, 0, 1]]

theorem aboutZ_orthogonal {c s : ℝ} (h : c ^ 2 + s ^ 2 = 1) : Orthogonal (aboutZ c s) := by
  intro i j
  fin_cases i <;> fin_cases j <;> simp [aboutZ, Fin.sum_univ_three] <;> linarith

theorem turnTensor_aboutZ (c s : ℝ) {t : T2} (ht : Symm t) : turnTensor (aboutZ c s) t =
    ![![c ^ 2 * t 0 0 - 2 * c * s * t 0 1 + s ^ 2 * t 1 1, c * s * (t 0 0 - t 1 1) + (c ^ 2 - s ^ 2) * t 0 1,
        c * t 0 2 - s * t 1 2],
      ![c * s * (t 0 0 - t 1 1) + (c ^ 2 - s ^ 2) * t 0 1, s ^ 2 * t 0 0 + 2 * c * s * t 0 1 + c ^ 2 * t 1 1,
        s * t 0 2 + c * t 1 2],
      ![c * t 0 2 - s * t 1 2, s * t 0 2 + c * t 1 2, t 2 2]] := by
  have h1 := ht 1 0
  have h2 := ht 2 0
  have h3 := ht 2 1
  funext i j
  fin_cases i <;> fin_cases j <;> simp [turnTensor, aboutZ, Fin.sum_univ_three, h1, h2, h3] <;> ring

theorem hooke_upper {C : M6} (hC : C.IsSymm) {ε σ : T2} : Hooke C ε σ ↔ Symm ε ∧ Symm σ ∧
    σ 0 0 = C 0 0 * ε 0 0 + C 0 1 * ε 1 1 + C 0 2 * ε 2 2 + 2 * (C 0 3 * ε 1 2 + C 0 4 * ε 0 2 + C 0 5 * ε 0 1) ∧
    σ 1 1 = C 0 1 * ε 0 0 + C 1 1 * ε 1 1 + C 1 2 * ε 2 2 + 2 * (C 1 3 * ε 1 2 + C 1 4 * ε 0 2 + C 1 5 * ε 0 1) ∧
    σ 2 2 = C 0 2 * ε 0 0 + C 1 2 * ε 1 1 + C 2 2 * ε 2 2 + 2 * (C 2 3 * ε 1 2 + C 2 4 * ε 0 2 + C 2 5 * ε 0 1) ∧
    σ 1 2 = C 0 3 * ε 0 0 + C 1 3 * ε 1 1 + C 2 3 * ε 2 2 + 2 * (C 3 3 * ε 1 2 + C 3 4 * ε 0 2 + C 3 5 * ε 0 1) ∧
    σ 0 2 = C 0 4 * ε 0 0 + C 1 4 * ε 1 1 + C 2 4 * ε 2 2 + 2 * (C 3 4 * ε 1 2 + C 4 4 * ε 0 2 + C 4 5 * ε 0 1) ∧
    σ 0 1 = C 0 5 * ε 0 0 + C 1 5 * ε 1 1 + C 2 5 * ε 2 2 + 2 * (C 3 5 * ε 1 2 + C 4 5 * ε 0 2 + C 5 5 * ε 0 1) := by
  have h : ∀ i j, C i j = C j i := fun i j => hC.apply j i
  unfold Hooke
  refine and_congr_right fun _ => and_congr_right fun _ => ?_
  rw [Fin.forall_fin_succ, Fin.forall_fin_succ, Fin.forall_fin_succ, Fin.forall_fin_succ, Fin.forall_fin_succ,
    Fin.forall_fin_succ]
  simp only [Fin.sum_univ_six, voigtStress, voigtStrain]
  simp [h 1 0, h 2 0, h 2 1, h 3 0, h 3 1, h 3 2, h 4 0, h 4 1, h 4 2, h 4 3, h 5 0, h 5 1, h 5 2, h 5 3, h 5 4]
  constructor
  · rintro ⟨a, b, c, d, e, f⟩
    refine ⟨?_, ?_, ?_, ?_, ?_, ?_⟩ <;> linarith
  · rintro ⟨a, b, c, d, e, f⟩
    refine ⟨?_, ?_, ?_, ?_, ?_, ?_⟩ <;> linarith

theorem hexagonal_turned {C : M6} (hC : Hexagonal C) {c s : ℝ} (h : c ^ 2 + s ^ 2 = 1) : Turned (aboutZ c s) C C := by
  obtain ⟨hs, hu, h1, h2, h3, h4⟩ := hC
  have z : ∀ i j : Fin 6, i ≠ j → 3 ≤ j.val → C i j = 0 := fun i j a b => hu i j a (.inr b)
  intro ε σ hh
  have hε := hh.1
  have hσ := hh.2.1
  rw [hooke_upper hs] at hh ⊢
  refine ⟨symm_turnTensor hε, symm_turnTensor hσ, ?_⟩
  obtain ⟨-, -, e0, e1, e2, e3, e4, e5⟩ := hh
  rw [turnTensor_aboutZ c s hε, turnTensor_aboutZ c s hσ]
  simp only [z 0 3 (by decide) (by decide), z 0 4 (by decide) (by decide), z 0 5 (by decide) (by decide),
    z 1 3 (by decide) (by decide), z 1 4 (by decide) (by decide), z 1 5 (by decide) (by decide),
    z 2 3 (by decide) (by decide), z 2 4 (by decide) (by decide), z 2 5 (by decide) (by decide),
    z 3 4 (by decide) (by decide), z 3 5 (by decide) (by decide), z 4 5 (by decide) (by decide), h4, ← h1, ← h2, ← h3] at e0 e1 e2 e3 e4 e5 ⊢
  simp only [Matrix.cons_val]
  refine ⟨?_, ?_, ?_, ?_, ?_, ?_⟩
  · rw [e0, e1, e5]; linear_combination C 0 2 * ε 2 2 * h
  · rw [e0, e1, e5]; linear_combination C 0 2 * ε 2 2 * h
  · rw [e2]; linear_combination -C 0 2 * (ε 0 0 + ε 1 1) * h
  · rw [e3, e4]; ring
  · rw [e3, e4]; ring
  · rw [e0, e1, e5]; ring

theorem tetragonal_turned {C : M6} (hC : Tetragonal C) : Turned (aboutZ 0 1) C C := by
  obtain ⟨hs, h1, h2, h3, h4, z1, z2, z3, z4, z5, z6, z7, z8, z9, z10⟩ := hC
  intro ε σ hh
  have hε := hh.1
  have hσ := hh.2.1
  rw [hooke_upper hs] at hh ⊢
  refine ⟨symm_turnTensor hε, symm_turnTensor hσ, ?_⟩
  obtain ⟨-, -, e0, e1, e2, e3, e4, e5⟩ := hh
  rw [turnTensor_aboutZ 0 1 hε, turnTensor_aboutZ 0 1 hσ]
  simp only [z1, z2, z3, z4, z5, z6, z7, z8, z9, z10, h4, ← h1, ← h2, ← h3] at e0 e1 e2 e3 e4 e5 ⊢
  simp only [Matrix.cons_val]
  refine ⟨?_, ?_, ?_, ?_, ?_, ?_⟩
  · rw [e0, e1, e5]; ring
  · rw [e0, e1, e5]; ring
  · rw [e2]; ring
  · rw [e3, e4]; ring
  · rw [e3, e4]; ring
  · rw [e0, e1, e5]; ring

theorem trigonal_turned {C : M6} (hC : Trigonal C) {s : ℝ} (h : s ^ 2 = 3 / 4) : Turned (aboutZ (-1 / 2) s) C C := by
  obtain ⟨hs, h1, h2, h3, h4, h5, h6, h7, h8, z1, z2, z3, z4, z5, z6⟩ := hC
  have h7' : C 1 4 = -C 0 4 := by linarith
  have h8' : C 3 5 = -C 0 4 := by linarith
  have h5' : C 1 3 = -C 0 3 := by linarith
  intro ε σ hh
  have hε := hh.1
  have hσ := hh.2.1
  rw [hooke_upper hs] at hh ⊢
  refine ⟨symm_turnTensor hε, symm_turnTensor hσ, ?_⟩
  obtain ⟨-, -, e0, e1, e2, e3, e4, e5⟩ := hh
  rw [turnTensor_aboutZ _ s hε, turnTensor_aboutZ _ s hσ, h]
  simp only [z1, z2, z3, z4, z5, z6, h4, h5', h7', h8', ← h1, ← h2, ← h3, ← h6] at e0 e1 e2 e3 e4 e5 ⊢
  simp only [Matrix.cons_val]
  refine ⟨?_, ?_, ?_, ?_, ?_, ?_⟩
  · rw [e0, e1, e5]; ring
  · rw [e0, e1, e5]; ring
  · rw [e2]; ring
  · rw [e3, e4]; ring
  · rw [e3, e4]; ring
  · rw [e0, e1, e5]; ring

/-- The turn by an angle of repetition is a symmetry operation. -/
theorem repeat_turned {C : M6} {α : ℝ} (h : Repeat C α) : Turned (aboutZ (Real.cos α) (Real.sin α)) C C := by
  rcases h with h | ⟨h, rfl⟩ | ⟨h, rfl⟩
  · exact hexagonal_turned h (Real.cos_sq_add_sin_sq α)
  · rw [Real.cos_pi_div_two, Real.sin_pi_div_two]
    exact tetragonal_turned h
  · have e : 2 * Real.pi / 3 = Real.pi - Real.pi / 3 := by ring
    rw [e, Real.cos_pi_sub, Real.sin_pi_sub, Real.cos_pi_div_three, Real.sin_pi_div_three,
      show -(1 / 2 : ℝ) = -1 / 2 by norm_num]
    exact trigonal_turned h (by rw [div_pow, Real.sq_sqrt (by norm_num)]; norm_num)

theorem vector_aboutZ (theta phi α : ℝ) :
    vector theta (phi + α) = turn (aboutZ (Real.cos α) (Real.sin α)) (vector theta phi) := by
  funext i
  fin_cases i <;> simp [vector, turn, aboutZ, Fin.sum_univ_three, Real.cos_add, Real.sin_add] <;> ring

theorem vectorChi_aboutZ (theta phi chi α : ℝ) :
    vectorChi theta (phi + α) chi = turn (aboutZ (Real.cos α) (Real.sin α)) (vectorChi theta phi chi) := by
  funext i
  fin_cases i <;> simp [vectorChi, turn, aboutZ, Fin.sum_univ_three, Real.cos_add, Real.sin_add] <;> ring

theorem repeat_symm {C : M6} {α : ℝ} (h : Repeat C α) (i j : Fin 6) : C i j = C j i := by
  rcases h with h | ⟨h, -⟩ | ⟨h, -⟩ <;> exact h.1.apply j i

/-- C125, axes: the elastic properties of a hexagonal crystal do not depend on the azimuth; those of a tetragonal crystal
repeat every quarter of a turn about z, and those of a trigonal crystal every third of a turn. -/
theorem C125_axis {C : M6} {α : ℝ} (h : Repeat C α) {density : ℝ} {s : Soec} (hs : soec C density = .ok s)
    (theta phi chi : ℝ) :
    s.youngModulus (theta, phi + α) = s.youngModulus (theta, phi) ∧
    s.linearCompressibility (theta, phi + α) = s.linearCompressibility (theta, phi) ∧
    s.shearModulus (theta, phi + α, chi) = s.shearModulus (theta, phi, chi) ∧
    s.poissonRatio (theta, phi + α, chi) = s.poissonRatio (theta, phi, chi) := by
  obtain ⟨h1, h2⟩ := C116_symmetry (aboutZ_orthogonal (Real.cos_sq_add_sin_sq α)) (repeat_turned h) hs
  obtain ⟨a, b⟩ := h1 (theta, phi) (theta, phi + α) (vector_aboutZ _ _ _)
  obtain ⟨c, d⟩ := h2 (theta, phi, chi) (theta, phi + α, chi) (vector_aboutZ _ _ _) (vectorChi_aboutZ _ _ _ _)
  exact ⟨a, b, c, d⟩

/-! ### Reflections and exchanges of axes -/

/-- Exchange of the axes with changes of sign. -/
def exchange (π : Fin 3 → Fin 3) (g : Fin 3 → ℝ) : Fin 3 → Fin 3 → ℝ := fun i j => if j = π i then g i else 0

theorem turn_exchange (π : Fin 3 → Fin 3) (g : Fin 3 → ℝ) (a : V3) : turn (exchange π g) a = fun i => g i * a (π i) := by
  funext i
  simp [turn, exchange]

theorem turnTensor_exchange (π : Fin 3 → Fin 3) (g : Fin 3 → ℝ) (t : T2) :
    turnTensor (exchange π g) t = fun i j => g i * g j * t (π i) (π j) := by
  funext i j
  simp only [turnTensor, exchange]
  rw [Finset.sum_eq_single (π i), Finset.sum_eq_single (π j)]
  · simp
  · intro b _ hb; simp [hb]
  · simp
  · intro b _ hb; simp [hb]
  · simp

theorem exchange_orthogonal (π : Equiv.Perm (Fin 3)) {g : Fin 3 → ℝ} (hg : ∀ i, g i = 1 ∨ g i = -1) :
    Orthogonal (exchange π g) := by
  intro i j
  simp only [exchange]
  rw [Finset.sum_eq_single (π.symm i)]
  · have : g (π.symm i) * g (π.symm i) = 1 := by rcases hg (π.symm i) with h | h <;> rw [h] <;> norm_num
    simp only [Equiv.apply_symm_apply, if_true]
    by_cases hij : i = j
    · subst hij; simp [this]
    · simp [hij, Ne.symm hij]
  · intro k _ hk
    have : i ≠ π k := fun h => hk (by rw [h]; simp)
    simp [this]
  · simp

/-- Hooke's law without coupling: normal stresses from normal strains, each shear stress from its shear strain. -/
theorem hooke_uncoupled {C : M6} (hs : C.IsSymm) (hu : Uncoupled C) {ε σ : T2} : Hooke C ε σ ↔ Symm ε ∧ Symm σ ∧
    (∀ i : Fin 3, σ i i = ∑ j : Fin 3, C (Fin.castLE (by decide) i) (Fin.castLE (by decide) j) * ε j j) ∧
    σ 1 2 = 2 * C 3 3 * ε 1 2 ∧ σ 0 2 = 2 * C 4 4 * ε 0 2 ∧ σ 0 1 = 2 * C 5 5 * ε 0 1 := by
  have z : ∀ i j : Fin 6, i ≠ j → 3 ≤ j.val → C i j = 0 := fun i j a b => hu i j a (.inr b)
  have h : ∀ i j, C i j = C j i := fun i j => hs.apply j i
  rw [hooke_upper hs]
  refine and_congr_right fun _ => and_congr_right fun _ => ?_
  simp only [z 0 3 (by decide) (by decide), z 0 4 (by decide) (by decide), z 0 5 (by decide) (by decide),
    z 1 3 (by decide) (by decide), z 1 4 (by decide) (by decide), z 1 5 (by decide) (by decide),
    z 2 3 (by decide) (by decide), z 2 4 (by decide) (by decide), z 2 5 (by decide) (by decide),
    z 3 4 (by decide) (by decide), z 3 5 (by decide) (by decide), z 4 5 (by decide) (by decide)]
  rw [Fin.forall_fin_succ, Fin.forall_fin_succ, Fin.forall_fin_succ]
  simp only [Fin.sum_univ_three]
  have a0 : (Fin.castLE (by decide : 3 ≤ 6) (0 : Fin 3)) = 0 := rfl
  have a1 : (Fin.castLE (by decide : 3 ≤ 6) (1 : Fin 3)) = 1 := rfl
  have a2 : (Fin.castLE (by decide : 3 ≤ 6) (2 : Fin 3)) = 2 := rfl
  simp [a0, a1, a2, h 1 0, h 2 0, h 2 1]
  constructor
  · rintro ⟨a, b, c, d, e, f⟩
    refine ⟨⟨?_, ?_, ?_⟩, ?_, ?_, ?_⟩ <;> linarith
  · rintro ⟨⟨a, b, c⟩, d, e, f⟩
    refine ⟨?_, ?_, ?_, ?_, ?_, ?_⟩ <;> linarith

theorem orthorhombic_turned {C : M6} (hC : Orthorhombic C) {g : Fin 3 → ℝ} (hg : ∀ i, g i = 1 ∨ g i = -1) :
    Turned (exchange id g) C C := by
  have hgg : ∀ i, g i * g i = 1 := fun i => by rcases hg i with h | h <;> rw [h] <;> norm_num
  intro ε σ hh
  have hε := hh.1
  have hσ := hh.2.1
  rw [hooke_uncoupled hC.1 hC.2] at hh ⊢
  refine ⟨symm_turnTensor hε, symm_turnTensor hσ, ?_⟩
  obtain ⟨-, -, e, e3, e4, e5⟩ := hh
  simp only [turnTensor_exchange, id, hgg, one_mul, e3, e4, e5]
  exact ⟨e, by ring, by ring, by ring⟩

theorem hooke_cubic {C : M6} (hC : Cubic C) {ε σ : T2} : Hooke C ε σ ↔ Symm ε ∧ Symm σ ∧
    (∀ i, σ i i = (C 0 0 - C 0 1) * ε i i + C 0 1 * ∑ j, ε j j) ∧ ∀ i j, i ≠ j → σ i j = 2 * C 3 3 * ε i j := by
  obtain ⟨hs, hu, h1, h2, h3, h4, h5, h6⟩ := hC
  have h : ∀ i j, C i j = C j i := fun i j => hs.apply j i
  rw [hooke_uncoupled hs hu]
  refine and_congr_right fun hε => and_congr_right fun hσ => and_congr ?_ ?_
  · have a0 : (Fin.castLE (by decide : 3 ≤ 6) (0 : Fin 3)) = 0 := rfl
    have a1 : (Fin.castLE (by decide : 3 ≤ 6) (1 : Fin 3)) = 1 := rfl
    have a2 : (Fin.castLE (by decide : 3 ≤ 6) (2 : Fin 3)) = 2 := rfl
    refine forall_congr' fun i => ?_
    rw [Fin.sum_univ_three, Fin.sum_univ_three, a0, a1, a2]
    have : C (Fin.castLE (by decide : 3 ≤ 6) i) 0 * ε 0 0 + C (Fin.castLE (by decide : 3 ≤ 6) i) 1 * ε 1 1 +
        C (Fin.castLE (by decide : 3 ≤ 6) i) 2 * ε 2 2 =
        (C 0 0 - C 0 1) * ε i i + C 0 1 * (ε 0 0 + ε 1 1 + ε 2 2) := by
      fin_cases i <;> simp [a0, a1, a2, h 1 0, h 2 0, h 2 1, ← h1, ← h2, ← h3, ← h4] <;> ring
    rw [this]
  · rw [← h5, ← h6]
    constructor
    · rintro ⟨a, b, c⟩ i j hij
      have a' : σ 2 1 = 2 * C 3 3 * ε 2 1 := by rw [hσ 2 1, hε 2 1, a]
      have b' : σ 2 0 = 2 * C 3 3 * ε 2 0 := by rw [hσ 2 0, hε 2 0, b]
      have c' : σ 1 0 = 2 * C 3 3 * ε 1 0 := by rw [hσ 1 0, hε 1 0, c]
      fin_cases i <;> fin_cases j <;> first | exact absurd rfl hij | assumption
    · intro k
      exact ⟨k 1 2 (by decide), k 0 2 (by decide), k 0 1 (by decide)⟩

theorem cubic_turned {C : M6} (hC : Cubic C) (π : Equiv.Perm (Fin 3)) {g : Fin 3 → ℝ} (hg : ∀ i, g i = 1 ∨ g i = -1) :
    Turned (exchange π g) C C := by
  have hgg : ∀ i, g i * g i = 1 := fun i => by rcases hg i with h | h <;> rw [h] <;> norm_num
  intro ε σ hh
  have hε := hh.1
  have hσ := hh.2.1
  rw [hooke_cubic hC] at hh ⊢
  refine ⟨symm_turnTensor hε, symm_turnTensor hσ, ?_⟩
  obtain ⟨-, -, e, f⟩ := hh
  simp only [turnTensor_exchange, hgg, one_mul]
  refine ⟨fun i => ?_, fun i j hij => ?_⟩
  · rw [Equiv.sum_comp π fun j => ε j j]
    exact e _
  · rw [f _ _ (π.injective.ne hij)]
    ring

theorem signs {a b : ℝ} (h : b = a ∨ b = -a) : ∃ g : ℝ, (g = 1 ∨ g = -1) ∧ b = g * a := by
  rcases h with rfl | rfl
  · exact ⟨1, .inl rfl, by ring⟩
  · exact ⟨-1, .inr rfl, by ring⟩

theorem signsOnly_turn {a b : V3} (h : SignsOnly a b) : ∃ g : Fin 3 → ℝ, (∀ i, g i = 1 ∨ g i = -1) ∧
    b = turn (exchange id g) a := by
  choose g hg e using fun i => signs (h i)
  exact ⟨g, hg, by rw [turn_exchange]; exact funext e⟩

theorem orderAndSigns_turn {a b : V3} (h : OrderAndSigns a b) : ∃ (π : Equiv.Perm (Fin 3)) (g : Fin 3 → ℝ),
    (∀ i, g i = 1 ∨ g i = -1) ∧ b = turn (exchange π g) a := by
  obtain ⟨π, h⟩ := h
  choose g hg e using fun i => signs (h i)
  exact ⟨π, g, hg, by rw [turn_exchange]; exact funext e⟩

/-- C125, orthorhombic crystals: Young's modulus and the linear compressibility along a direction depend only on the
sizes of its components. -/
theorem C125_orthorhombic {C : M6} (hC : Orthorhombic C) {density : ℝ} {s : Soec} (hs : soec C density = .ok s)
    {x x' : ℝ × ℝ} (h : SignsOnly (vector x.1 x.2) (vector x'.1 x'.2)) :
    s.youngModulus x' = s.youngModulus x ∧ s.linearCompressibility x' = s.linearCompressibility x := by
  obtain ⟨g, hg, e⟩ := signsOnly_turn h
  exact (C116_symmetry (exchange_orthogonal (Equiv.refl _) hg) (orthorhombic_turned hC hg) hs).1 x x' e

theorem cubic_mulVec {C : M6} (hC : Cubic C) : C.mulVec ![1, 1, 1, 0, 0, 0] = (C 0 0 + 2 * C 0 1) • ![1, 1, 1, 0, 0, 0] := by
  obtain ⟨hs, hu, h1, h2, h3, h4, h5, h6⟩ := hC
  have h : ∀ i j, C i j = C j i := fun i j => hs.apply j i
  have z : ∀ i j : Fin 6, i ≠ j → 3 ≤ i.val → C i j = 0 := fun i j a b => hu i j a (.inl b)
  funext I
  fin_cases I <;> simp [Matrix.mulVec, dotProduct, Fin.sum_univ_six]
  · rw [← h3]; ring
  · rw [h 1 0, ← h1, ← h4]; ring
  · rw [h 2 0, h 2 1, ← h2, ← h3, ← h4]; ring
  · rw [z 3 0 (by decide) (by decide), z 3 1 (by decide) (by decide), z 3 2 (by decide) (by decide)]; ring
  · rw [z 4 0 (by decide) (by decide), z 4 1 (by decide) (by decide), z 4 2 (by decide) (by decide)]; ring
  · rw [z 5 0 (by decide) (by decide), z 5 1 (by decide) (by decide), z 5 2 (by decide) (by decide)]; ring

theorem cubic_mulVec' {C : M6} (hC : Cubic C) : C.mulVec ![1, -1, 0, 0, 0, 0] = (C 0 0 - C 0 1) • ![1, -1, 0, 0, 0, 0] := by
  obtain ⟨hs, hu, h1, h2, h3, h4, h5, h6⟩ := hC
  have h : ∀ i j, C i j = C j i := fun i j => hs.apply j i
  have z : ∀ i j : Fin 6, i ≠ j → 3 ≤ i.val → C i j = 0 := fun i j a b => hu i j a (.inl b)
  funext I
  fin_cases I <;> simp [Matrix.mulVec, dotProduct, Fin.sum_univ_six]
  · ring
  · rw [h 1 0, ← h1]; ring
  · rw [h 2 0, h 2 1, ← h3, ← h4]; ring
  · rw [z 3 0 (by decide) (by decide), z 3 1 (by decide) (by decide)]; ring
  · rw [z 4 0 (by decide) (by decide), z 4 1 (by decide) (by decide)]; ring
  · rw [z 5 0 (by decide) (by decide), z 5 1 (by decide) (by decide)]; ring

theorem cubic_mulVec'' {C : M6} (hC : Cubic C) : C.mulVec ![0, 0, 0, 1, 0, 0] = C 3 3 • ![0, 0, 0, 1, 0, 0] := by
  obtain ⟨hs, hu, -⟩ := hC
  have z : ∀ i : Fin 6, i ≠ 3 → C i 3 = 0 := fun i a => hu i 3 a (.inr (by decide))
  funext I
  fin_cases I <;> simp [Matrix.mulVec, dotProduct, Fin.sum_univ_six, z]

theorem eigen_ne_zero {C : M6} (hd : C.det ≠ 0) {v : Fin 6 → ℝ} (hv : v ≠ 0) {w : ℝ} (h : C.mulVec v = w • v) : w ≠ 0 := by
  rintro rfl
  rw [zero_smul] at h
  exact hd (Matrix.exists_mulVec_eq_zero_iff.1 ⟨v, hv, h⟩)

/-- C125, cubic crystals: Young's modulus along a direction depends only on the sizes of its components, in any order, and
the linear compressibility is the same along every direction, a third of the compressibility. -/
theorem C125_cubic {C : M6} (hC : Cubic C) {density : ℝ} {s : Soec} (hs : soec C density = .ok s) :
    (∀ x x', OrderAndSigns (vector x.1 x.2) (vector x'.1 x'.2) → s.youngModulus x' = s.youngModulus x) ∧
    ∀ x, s.linearCompressibility x = 1000 / (C 0 0 + 2 * C 0 1) := by
  constructor
  · intro x x' h
    obtain ⟨π, g, hg, e⟩ := orderAndSigns_turn h
    exact ((C116_symmetry (exchange_orthogonal π hg) (cubic_turned hC π hg) hs).1 x x' e).1
  · rintro ⟨theta, phi⟩
    have hne := eigen_ne_zero (soec_ok hs).1 (fun h => by simpa using congrFun h 0) (cubic_mulVec hC)
    have hh : Hooke C (fun i j => if i = j then -1 / (C 0 0 + 2 * C 0 1) else 0) (hydrostatic 1) := by
      refine (hooke_cubic hC).2 ⟨fun i j => by simp only [eq_comm], fun i j => by simp only [hydrostatic, eq_comm],
        fun i => ?_, fun i j hij => ?_⟩
      · have : ∀ a b : ℝ, a + 2 * b ≠ 0 → -1 = (a - b) * (-1 / (a + 2 * b)) + b * (3 * (-1 / (a + 2 * b))) := by
          intro a b h
          have : (a - b) * (-1 / (a + 2 * b)) + b * (3 * (-1 / (a + 2 * b))) = -((a + 2 * b) / (a + 2 * b)) := by ring
          rw [this, div_self h]
        simpa [hydrostatic] using this _ _ hne
      · simp [hydrostatic, hij]
    rw [C32_compressibility C density s hs theta phi 1 one_ne_zero _ hh]
    have hu : ∑ i, vector theta phi i * vector theta phi i = 1 := vector_unit theta phi
    rw [Fin.sum_univ_three] at hu
    simp [along, Fin.sum_univ_three]
    field_simp
    linear_combination hu

/-- C125, cubic crystals: Young's modulus along the direction with components `n`, by the formula of Nye,
`1/E = S11 - 2 (S11 - S12 - S44/2) (n1² n2² + n2² n3² + n3² n1²)`, with the compliances of a cubic crystal. -/
theorem C125_cubic_young {C : M6} (hC : Cubic C) (hp : C.PosDef) {density : ℝ} {s : Soec} (hs : soec C density = .ok s)
    (theta phi : ℝ) (S11 S12 S44 : ℝ)
    (h11 : S11 = (C 0 0 + C 0 1) / ((C 0 0 - C 0 1) * (C 0 0 + 2 * C 0 1)))
    (h12 : S12 = -C 0 1 / ((C 0 0 - C 0 1) * (C 0 0 + 2 * C 0 1))) (h44 : S44 = 1 / C 3 3) :
    s.youngModulus (theta, phi) = 1 / (S11 - 2 * (S11 - S12 - S44 / 2) *
      (vector theta phi 0 ^ 2 * vector theta phi 1 ^ 2 + vector theta phi 1 ^ 2 * vector theta phi 2 ^ 2 +
        vector theta phi 2 ^ 2 * vector theta phi 0 ^ 2)) := by
  have hd := (soec_ok hs).1
  have n1 := eigen_ne_zero hd (fun h => by simpa using congrFun h 0) (cubic_mulVec hC)
  have n2 := eigen_ne_zero hd (fun h => by simpa using congrFun h 0) (cubic_mulVec' hC)
  have n3 := eigen_ne_zero hd (fun h => by simpa using congrFun h 3) (cubic_mulVec'' hC)
  set n := vector theta phi with hn
  have hu : ∑ i, n i * n i = 1 := vector_unit theta phi
  rw [Fin.sum_univ_three] at hu
  have s1 : ∀ a b : ℝ, a + 2 * b ≠ 0 → a - b ≠ 0 →
      (a - b) * ((a + b) / ((a - b) * (a + 2 * b)) - -b / ((a - b) * (a + 2 * b))) = 1 := by
    intro a b h h'
    rw [← sub_div, show a + b - -b = a + 2 * b by ring, mul_comm (a - b) (a + 2 * b), div_mul_cancel_left₀ h,
      mul_inv_cancel₀ h']
  have i1 : (C 0 0 - C 0 1) * (S11 - S12) = 1 := by
    rw [h11, h12]
    exact s1 _ _ n1 n2
  have i2 : (C 0 0 - C 0 1) * S12 + C 0 1 * (S11 + 2 * S12) = 0 := by rw [h11, h12]; ring
  have i3 : C 3 3 * S44 = 1 := by rw [h44]; field_simp
  have hh : Hooke C (fun i j => if i = j then (S11 - S12) * n i ^ 2 + S12 else S44 / 2 * (n i * n j)) (uniaxial 1 n) := by
    refine (hooke_cubic hC).2 ⟨fun i j => ?_, fun i j => by simp only [uniaxial]; ring, fun i => ?_, fun i j hij => ?_⟩
    · by_cases h : i = j
      · subst h; rfl
      · simp only [if_neg h, if_neg (Ne.symm h)]; ring
    · simp only [uniaxial, if_true, Fin.sum_univ_three]
      linear_combination -n i ^ 2 * i1 - i2 - C 0 1 * (S11 - S12) * hu
    · simp only [uniaxial, if_neg hij]
      linear_combination -(n i * n j) * i3
  obtain ⟨k1, k2⟩ := C32_young C density s hs theta phi 1 _ hh
  rw [k1 ((k2 hp).2 one_ne_zero), ← hn]
  congr 1
  simp [along, Fin.sum_univ_three]
  have e : n 0 ^ 4 + n 1 ^ 4 + n 2 ^ 4 = 1 - 2 * (n 0 ^ 2 * n 1 ^ 2 + n 1 ^ 2 * n 2 ^ 2 + n 2 ^ 2 * n 0 ^ 2) := by
    linear_combination (n 0 * n 0 + n 1 * n 1 + n 2 * n 2 + 1) * hu
  linear_combination (S11 - S12) * e + S12 * hu

/-! ### Witnesses -/

/-- Magnesium oxide (GPa). -/
def periclase : M6 := cubic 297 95 156

theorem periclase_cubic : Cubic periclase := by
  refine ⟨?_, ?_, rfl, rfl, rfl, rfl, rfl, rfl⟩
  · ext i j; fin_cases i <;> fin_cases j <;> rfl
  · intro i j hij h
    fin_cases i <;> fin_cases j <;> first | rfl | exact absurd rfl hij | exact absurd h (by decide)

theorem periclase_posDef : periclase.PosDef := by
  refine Matrix.PosDef.of_dotProduct_mulVec_pos ?_ fun v hv => ?_
  · rw [Matrix.IsHermitian, Matrix.conjTranspose_eq_transpose_of_trivial]
    exact periclase_cubic.1
  · have e : star v ⬝ᵥ periclase.mulVec v = 202 * (v 0 ^ 2 + v 1 ^ 2 + v 2 ^ 2) + 95 * (v 0 + v 1 + v 2) ^ 2 +
        156 * (v 3 ^ 2 + v 4 ^ 2 + v 5 ^ 2) := by
      simp only [star_trivial, dotProduct, Matrix.mulVec, periclase, cubic, Matrix.of_apply, Fin.sum_univ_six,
        Matrix.cons_val]
      ring
    rw [e]
    obtain ⟨i, hi⟩ : ∃ i, v i ≠ 0 := Function.ne_iff.1 hv
    have hi2 : 0 < v i ^ 2 := by positivity
    have h0 := sq_nonneg (v 0)
    have h1 := sq_nonneg (v 1)
    have h2 := sq_nonneg (v 2)
    have h3 := sq_nonneg (v 3)
    have h4 := sq_nonneg (v 4)
    have h5 := sq_nonneg (v 5)
    have h6 := sq_nonneg (v 0 + v 1 + v 2)
    fin_cases i <;> simp at hi2 <;> linarith

/-- Quartz-like constants: trigonal, neither hexagonal nor tetragonal. -/
def quartzLike : M6 :=
  Matrix.of ![![87, 7, 12, -18, 0, 0], ![7, 87, 12, 18, 0, 0], ![12, 12, 106, 0, 0, 0], ![-18, 18, 0, 58, 0, 0],
    ![0, 0, 0, 0, 58, -18], ![0, 0, 0, 0, -18, 40]]

theorem quartzLike_trigonal : Trigonal quartzLike := by
  refine ⟨?_, rfl, rfl, rfl, ?_, ?_, rfl, ?_, ?_, rfl, rfl, rfl, rfl, rfl, rfl⟩
  · ext i j; fin_cases i <;> fin_cases j <;> rfl
  all_goals simp [quartzLike]
  norm_num

example {density : ℝ} {s : Soec} (hs : soec quartzLike density = .ok s) (theta phi : ℝ) :
    s.youngModulus (theta, phi + 2 * Real.pi / 3) = s.youngModulus (theta, phi) :=
  (C125_axis (.inr (.inr ⟨quartzLike_trigonal, rfl⟩)) hs theta phi 0).1

/-- Periclase along the cube edge. -/
example {density : ℝ} {s : Soec} (hs : soec periclase density = .ok s) :
    s.youngModulus (0, 0) = 202 * 487 / 392 ∧ s.linearCompressibility (1, 2) = 1000 / 487 := by
  constructor
  · rw [C125_cubic_young periclase_cubic periclase_posDef hs 0 0 _ _ _ rfl rfl rfl]
    simp [vector, periclase, cubic]
    norm_num
  · rw [(C125_cubic periclase_cubic hs).2]
    simp [periclase, cubic]
    norm_num

end Verif.Elastic
