/-
Property C182: what an angular scan can miss.
-/
import Verif.Seismic.Convex
import Verif.Seismic.Scan
import Verif.Tac
import Mathlib.Analysis.SpecialFunctions.Trigonometric.Bounds

namespace Verif.Seismic
open Verif.Py Verif.Elastic Verif.Elastic.Spec Verif.Seismic.Spec

/-! ### Lemmas -/

/-- Directions with near angles are near. -/
theorem vector_near (t p t' p' : ℝ) : ∑ j, (vector t p j - vector t' p' j) ^ 2 ≤ (t - t') ^ 2 + (p - p') ^ 2 := by
  have e : ∑ j, (vector t p j - vector t' p' j) ^ 2 =
      2 * (1 - Real.cos (t - t')) + 2 * (Real.sin t * Real.sin t') * (1 - Real.cos (p - p')) := by
    have h1 := Real.sin_sq_add_cos_sq t
    have h2 := Real.sin_sq_add_cos_sq t'
    have h3 := Real.sin_sq_add_cos_sq p
    have h4 := Real.sin_sq_add_cos_sq p'
    simp only [vector, Fin.sum_univ_three, Matrix.cons_val_zero, Matrix.cons_val_one, Matrix.cons_val, Real.cos_sub]
    linear_combination h1 + h2 + Real.sin t ^ 2 * h3 + Real.sin t' ^ 2 * h4
  have c1 := Real.one_sub_sq_div_two_le_cos (x := t - t')
  have c2 := Real.one_sub_sq_div_two_le_cos (x := p - p')
  have c3 := Real.cos_le_one (p - p')
  have s : Real.sin t * Real.sin t' ≤ 1 := by
    nlinarith [Real.sin_sq_add_cos_sq t, Real.sin_sq_add_cos_sq t', sq_nonneg (Real.sin t - Real.sin t'),
      sq_nonneg (Real.cos t), sq_nonneg (Real.cos t')]
  rw [e]
  nlinarith [mul_nonneg (sub_nonneg.2 s) (sub_nonneg.2 c3)]

/-- Every point of an interval is near a point of an even grid on it. -/
theorem grid_near {L x : ℝ} (hL : 0 < L) (h0 : 0 ≤ x) (h1 : x ≤ L) {n : ℕ} (hn : 2 ≤ n) :
    ∃ i, i < n ∧ (x - L * (i / ((n : ℝ) - 1))) ^ 2 ≤ (L / (2 * ((n : ℝ) - 1))) ^ 2 := by
  have hn' : (2 : ℝ) ≤ n := by exact_mod_cast hn
  have hm : (0 : ℝ) < n - 1 := by linarith
  obtain ⟨m, hm'⟩ : ∃ m : ℝ, m = n - 1 := ⟨_, rfl⟩
  rw [← hm'] at hm ⊢
  have y0 : 0 ≤ x / L * m + 1 / 2 := by positivity
  have y1 : x / L * m ≤ m := by
    have : x / L ≤ 1 := (div_le_one hL).2 h1
    nlinarith
  refine ⟨⌊x / L * m + 1 / 2⌋₊, ?_, ?_⟩
  · rw [Nat.floor_lt y0]
    linarith
  · have f1 := Nat.floor_le y0
    have f2 := Nat.lt_floor_add_one (x / L * m + 1 / 2)
    set i : ℝ := (⌊x / L * m + 1 / 2⌋₊ : ℝ)
    have e : x - L * (i / m) = L / m * (x / L * m - i) := by
      field_simp
    have e' : L / (2 * m) = L / m * (1 / 2) := by
      field_simp
    rw [e, e', mul_pow, mul_pow]
    refine mul_le_mul_of_nonneg_left ?_ (sq_nonneg _)
    exact sq_le_sq' (by linarith) (by linarith)

/-- Every direction or its opposite has angles in the range of the scan. -/
theorem angles_in_range (t p : ℝ) : ∃ t' p', 0 ≤ t' ∧ t' ≤ Real.pi / 2 ∧ 0 ≤ p' ∧ p' ≤ 2 * Real.pi ∧
    (vector t p = vector t' p' ∨ vector t p = -vector t' p') := by
  have turn : ∀ t p, ∃ p', 0 ≤ p' ∧ p' ≤ 2 * Real.pi ∧ vector t p = vector t p' := by
    intro t p
    have hp : 0 < 2 * Real.pi := by positivity
    have e : p - ⌊p / (2 * Real.pi)⌋ * (2 * Real.pi) = 2 * Real.pi * Int.fract (p / (2 * Real.pi)) := by
      rw [Int.fract]
      field_simp
    refine ⟨p - ⌊p / (2 * Real.pi)⌋ * (2 * Real.pi), ?_, ?_, ?_⟩
    · rw [e]
      exact mul_nonneg hp.le (Int.fract_nonneg _)
    · rw [e]
      nlinarith [Int.fract_lt_one (p / (2 * Real.pi))]
    · simp only [vector, Real.cos_sub_int_mul_two_pi, Real.sin_sub_int_mul_two_pi]
  obtain ⟨a, b, h0, h1, hv⟩ := exists_vector (vector_unit t p)
  rcases le_total a (Real.pi / 2) with h | h
  · obtain ⟨b', k0, k1, k⟩ := turn a b
    exact ⟨a, b', h0, h, k0, k1, .inl (hv.trans k)⟩
  · obtain ⟨b', k0, k1, k⟩ := turn (Real.pi - a) (b + Real.pi)
    refine ⟨Real.pi - a, b', by linarith, by linarith, k0, k1, .inr ?_⟩
    rw [← k, hv]
    funext j
    fin_cases j <;> simp [vector, Real.sin_pi_sub, Real.cos_pi_sub, Real.cos_add_pi, Real.sin_add_pi]

/-- Opposite directions have the same phase velocities. -/
theorem phaseVelocity_even (num : Numerics) (s : Soec) {t p t' p' : ℝ} (h : vector t p = vector t' p' ∨ vector t p = -vector t' p') :
    Soec.phaseVelocity num s t p = Soec.phaseVelocity num s t' p' := by
  unfold Soec.phaseVelocity
  rcases h with h | h
  · rw [h]
  · have : elasticChristoffel s.C (-vector t' p') = elasticChristoffel s.C (vector t' p') := by
      have hd : ∀ l : V3, divop (-l) = -divop l := by
        intro l
        ext i j
        fin_cases i <;> fin_cases j <;> simp [divop]
      simp [elasticChristoffel, hd]
    rw [h, this]

/-! ### Theorems -/

/-- C182: whatever the direction and the wave, the tables of a scan hold a phase velocity near the one of this direction: it is
the value of a row of the table of this wave, and the difference shrinks in proportion to the steps of the grid. -/
theorem C182_phase (num : Numerics) (hn : EighCorrect num) (C : M6) (hC : C.PosDef) (density : ℝ) (hr : 0 < density) (s : Soec)
    (hs : soec C density = .ok s) (o : Seismic) (ho : seismic C density = .ok o) (ntheta nphi : ℕ) (h1 : 2 ≤ ntheta) (h2 : 2 ≤ nphi)
    (st : State) :
    ∃ t, scan num o ntheta nphi st = .ok t ∧
      ∀ theta phi, ∃ pv, lookAt num o theta phi .phaseVelocity = .ok (.vec pv) ∧
        ∀ p, ∃ row ∈ t.get p,
          density * (1000 * (pv p - row 2)) ^ 2 ≤
            10 ^ 9 * (3 * s.averages.voigt.K + 10 * s.averages.voigt.G) *
              ((Real.pi / (4 * (ntheta - 1))) ^ 2 + (Real.pi / (nphi - 1)) ^ 2) := by
  obtain ⟨t, ht, -, hrow⟩ := C43_rows num o ntheta nphi h1 h2 st
  refine ⟨t, ht, fun theta phi => ?_⟩
  have vel := fun a b => (C37_velocities num hn C hC density hr s hs o ho a b).2.2 {}
  refine ⟨_, vel theta phi, fun p => ?_⟩
  obtain ⟨a, b, a0, a1, b0, b1, hab⟩ := angles_in_range theta phi
  obtain ⟨i, hi, hi'⟩ := grid_near (by positivity : 0 < Real.pi / 2) a0 a1 h1
  obtain ⟨j, hj, hj'⟩ := grid_near (by positivity : 0 < 2 * Real.pi) b0 b1 h2
  obtain ⟨row, hmem, pv, -, -, -, -, -, hpv, -, -, -, -, -, -, -, hval, -⟩ := hrow i hi j hj p
  refine ⟨row, List.mem_of_getElem? hmem, ?_⟩
  have hpv' : pv = Soec.phaseVelocity num s (gridTheta ntheta i) (gridPhi nphi j) := by
    have := hpv.symm.trans (vel (gridTheta ntheta i) (gridPhi nphi j))
    simpa using this
  rw [hval, hpv', phaseVelocity_even num s hab]
  have hK : 0 ≤ 10 ^ 9 * (3 * s.averages.voigt.K + 10 * s.averages.voigt.G) := by
    have := C130_bound num hn C hC density hr s hs (0, 0)
    refine le_trans ?_ this
    positivity
  refine (C180_lipschitz num hn C hC density hr s hs (a, b) (gridTheta ntheta i, gridPhi nphi j) p).trans
    (mul_le_mul_of_nonneg_left ((vector_near _ _ _ _).trans (add_le_add ?_ ?_)) hK)
  · refine hi'.trans (le_of_eq ?_)
    rw [div_div]
    ring_nf
  · refine hj'.trans (le_of_eq ?_)
    rw [mul_div_mul_left _ _ (two_ne_zero)]

end Verif.Seismic
