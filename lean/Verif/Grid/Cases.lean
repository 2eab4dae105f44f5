/- Concrete cases for the theorems about grids: 0 to 10 by 3, 0 to 12 by 3, and five volumes. -/
import Verif.Grid.Props

namespace Verif.Grid.Cases
open Verif.Grid

theorem divides : Divides 0 12 3 := ⟨4, by norm_num⟩

theorem not_divides : ¬ Divides 0 10 3 := by
  rintro ⟨m, hm⟩
  have h : (10 : ℝ) = ((m * 3 : ℕ) : ℝ) := by push_cast; linarith
  have : 10 = m * 3 := by exact_mod_cast h
  omega

example := C17_starts_and_spacing (lo := 0) (hi := 10) (step := 3) (by norm_num) (by norm_num)
example := C17_divides_partial (lo := 0) (hi := 12) (step := 3) (by norm_num) divides
example := C17_bounded_partial (lo := 0) (hi := 10) (step := 3) (by norm_num) (by norm_num)
/-- The grid from 0 to 10 by 3 ends above 10. -/
example : ∃ l, range 0 10 3 = .ok l ∧ ∃ x ∈ l, 10 < x := C17_no_overshoot_violated (by norm_num) (by norm_num) not_divides
example := C18_fine_grid (n := 5) (by norm_num) 0.05 74
/-- Four points are not symmetric. -/
example := mt (C18_symmetric_iff_odd 4 0.05 (by norm_num)).1 (by decide)

end Verif.Grid.Cases
