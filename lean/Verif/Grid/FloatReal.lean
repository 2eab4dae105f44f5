/-
The rounding of the grids is the rounding of the other models, hence the one of IEEE 754.
-/
import Verif.Grid.Float
import Verif.StatMech.RoundSpec

namespace Verif.Grid.Binary
open Verif.StatMech (roundBinary nearestEven)

theorem nearest_cast (q : ℚ) : nearestEven (q : ℝ) = nearest q := by
  have hf : ⌊(q : ℝ)⌋ = ⌊q⌋ := Rat.floor_cast q
  unfold nearestEven nearest
  rw [hf]
  have e : (q : ℝ) - (⌊q⌋ : ℝ) = ((q - ⌊q⌋ : ℚ) : ℝ) := by push_cast; rfl
  rw [e]
  have h1 : ((q - ⌊q⌋ : ℚ) : ℝ) < 1 / 2 ↔ q - ⌊q⌋ < 1 / 2 := by
    rw [show (1 / 2 : ℝ) = ((1 / 2 : ℚ) : ℝ) by norm_num, Rat.cast_lt]
  have h2 : (1 / 2 : ℝ) < ((q - ⌊q⌋ : ℚ) : ℝ) ↔ 1 / 2 < q - ⌊q⌋ := by
    rw [show (1 / 2 : ℝ) = ((1 / 2 : ℚ) : ℝ) by norm_num, Rat.cast_lt]
  simp only [h1, h2]

theorem log_cast {q : ℚ} (hq : 0 < q) : Int.log 2 (q : ℝ) = Int.log 2 q := by
  have hr : (0 : ℝ) < q := by exact_mod_cast hq
  refine le_antisymm ?_ ?_
  · rw [← Int.zpow_le_iff_le_log (by norm_num) hq]
    have := Int.zpow_log_le_self (b := 2) (by norm_num) hr
    have e : (((2 : ℕ) : ℝ)) ^ Int.log 2 (q : ℝ) = (((2 : ℕ) ^ Int.log 2 (q : ℝ) : ℚ) : ℝ) := by push_cast; rfl
    rw [e] at this
    exact_mod_cast this
  · rw [← Int.zpow_le_iff_le_log (by norm_num) hr]
    have := Int.zpow_log_le_self (b := 2) (by norm_num) hq
    have e : (((2 : ℕ) : ℝ)) ^ Int.log 2 q = (((2 : ℕ) ^ Int.log 2 q : ℚ) : ℝ) := by push_cast; rfl
    rw [e]
    exact_mod_cast this

/-- C17, the rounding of the grids: the rounded number is the one IEEE 754 prescribes for the real number. -/
theorem C17_rounding (q : ℚ) : ((rnd q : ℚ) : ℝ) = roundBinary q := by
  rcases eq_or_ne q 0 with rfl | hq
  · simp [rnd, nearest, StatMech.roundBinary_zero]
  have hp : 0 < |q| := abs_pos.2 hq
  unfold rnd roundBinary
  have e1 : Int.log 2 |(q : ℝ)| = Int.log 2 |q| := by rw [← Rat.cast_abs]; exact log_cast hp
  simp only [e1]
  have e2 : (q : ℝ) / 2 ^ (Int.log 2 |q| - 52) = ((q / 2 ^ (Int.log 2 |q| - 52) : ℚ) : ℝ) := by push_cast; rfl
  rw [e2, nearest_cast]
  push_cast
  rfl

/-- One tenth is not a number of 53 digits, and no such number is nearer than the rounded one. -/
example (y : ℝ) (hy : StatMech.Spec.Is53 y) : |((1 / 10 : ℚ) : ℝ) - ((rnd (1 / 10) : ℚ) : ℝ)| ≤ |((1 / 10 : ℚ) : ℝ) - y| := by
  rw [C17_rounding]
  exact ((StatMech.C145_rounding _).2 y hy).1

end Verif.Grid.Binary
