/- Concrete cases for the theorems about polynomials. -/
import Verif.Poly.Props
import Verif.Poly.Derivative

namespace Verif.Poly.Cases
open Verif.Poly Verif.Poly.Spec Verif.Poly.Tabulated

/-- The energies `V² - 6 V` at the pressure 2: the volume is 2. -/
theorem two {roots} (hr : RootFinder roots) : (2 : ℝ) ∈ findPolynomialMinimum roots [0, -6, 1] (some 2) := by
  rw [mem_findPolynomialMinimum hr]
  simp [polyder, polyval, List.zipIdx]
  norm_num

example : ∃ roots, RootFinder roots ∧ deriv (polyval [(0 : ℝ), -6, 1]) 2 = -2 ∧ 0 < deriv (deriv (polyval [(0 : ℝ), -6, 1])) 2 := by
  obtain ⟨roots, hr⟩ := rootFinder_exists
  exact ⟨roots, hr, (C20_candidates hr _ 2 2).1 (two hr)⟩

example : ∀ᶠ V in nhdsWithin (2 : ℝ) {2}ᶜ, polyval [0, -6, 1] 2 + 2 * 2 < polyval [0, -6, 1] V + 2 * V := by
  obtain ⟨roots, hr⟩ := rootFinder_exists
  exact C20_strict_local_minimum hr _ 2 2 (two hr)

/-- The line `1 + 2 x` through the points (0, 1) and (1, 3). -/
theorem line : ∀ k : Fin 2, value (![1, 2] : Fin 2 → ℝ) ((![0, 1] : Fin 2 → ℝ) k) = (![1, 3] : Fin 2 → ℝ) k := by
  intro k; fin_cases k <;> simp [value, Fin.sum_univ_two]
  norm_num

example : multiR2 ![0, 1] (fun _ : Fin 1 => ![1, 3]) (fun _ : Fin 1 => ![1, 2]) 0 = 1 :=
  C22_exact_fit _ _ _ 0 line ⟨0, 1, by simp⟩

/-- The constant 2 is the least squares constant of the values 1 and 3: its figure is 0. -/
theorem constant : IsLeastSquares (![0, 1] : Fin 2 → ℝ) ![1, 3] (![2] : Fin 1 → ℝ) := by
  intro c'
  simp only [ssres, value, Fin.sum_univ_two]
  simp
  nlinarith [sq_nonneg (c' 0 - 2)]

example := C22_least_squares (nc := 0) ![0, 1] (fun _ : Fin 1 => ![1, 3]) (fun _ : Fin 1 => ![2]) 0 constant ⟨0, 1, by simp⟩

/-- Four points, unevenly spaced. -/
example : derivative ((List.range 4).map fun (i : ℕ) => (i : ℝ) ^ 2) ((List.range 4).map fun (i : ℕ) => -2 * (i : ℝ) ^ 2 + 7) =
    .ok (List.replicate 4 (-2)) :=
  C139_line (by norm_num) (fun i j h _ => by
    have : (i : ℝ) < j := by exact_mod_cast h
    have : (0 : ℝ) ≤ i := by positivity
    nlinarith)
example := C139_parabola (a := 3) (b := -1) (c := 2) (x0 := 1) (h := 1 / 10) (n := 6) (by norm_num) (by norm_num)

end Verif.Poly.Cases
