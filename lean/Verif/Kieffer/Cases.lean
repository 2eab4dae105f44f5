/- Concrete cases for the theorems about Kieffer's model: 300 K, acoustic limits of 10, 12 and 15 THz. -/
import Verif.Kieffer.Props

namespace Verif.Kieffer.Cases
open Verif.Units Verif.Kieffer Verif.Kieffer.Spec

/-- The integral itself. -/
noncomputable def quad : Quad := fun f a b => ∫ x in a..b, f x

theorem quad_exact : Exact quad := fun _ _ _ => rfl

theorem limits : ∀ c ∈ [(1e13 : ℝ), 1.2e13, 1.5e13], lowest codata 300 ≤ c := by
  intro c hc
  have : lowest codata 300 ≤ 1e13 := by norm_num [lowest, codata]
  simp only [List.mem_cons, List.not_mem_nil, or_false] at hc
  rcases hc with rfl | rfl | rfl <;> refine this.trans ?_ <;> norm_num

example := C63_one_mode (c := 1e13) (by norm_num)
example := C63_value_partial (k := codata) quad_exact (T := 300) (by norm_num) limits
example := C63_consistent_partial (k := codata) (c := 1e13) (ν := 1e12) (by norm_num)
example := C63_entropy_violated (k := codata) (c := 1e13) (ν := 1e12) (T := 300) (by norm_num) (by norm_num) (by norm_num) (by
  have h1 := Real.log_two_gt_d9
  have : codata.h * 1e12 / (codata.kB * 300) < 0.5 := by norm_num [codata]
  intro h
  linarith)
example := C63_truncated_violated (k := codata) quad_exact (T := 300) (by norm_num) [1e13, 1.2e13, 1.5e13]
example := C63_bounds (k := codata) quad_exact (T := 300) (by norm_num) limits

end Verif.Kieffer.Cases
