/-
Concrete cases of C145: two sampled points with a soft and a stiff mode each, one mode without a positive frequency.
-/
import Verif.StatMech.BinaryProps
import Verif.StatMech.BitwiseProps

noncomputable section

namespace Verif.StatMech
open Spec
open Verif.Units (Consts codata)

/-- Frequencies in Hz. -/
def hertz : List (ℝ × List ℝ) := [(1, [1e13, 2e13]), (3, [5e12, -1e11])]

theorem hertz_ratio : ∀ p ∈ hertz, ∀ ω ∈ p.2, 0 < ω → 1e-9 ≤ ratio codata 300 ω ∧ ratio codata 300 ω ≤ 10 := by
  intro p hp ω hω h
  simp only [hertz, List.mem_cons, List.not_mem_nil, or_false] at hp
  rcases hp with rfl | rfl <;> simp only [List.mem_cons, List.not_mem_nil, or_false] at hω <;>
    rcases hω with rfl | rfl <;> first | (norm_num [ratio, codata]; done) | (norm_num at h)

theorem hertz_weights : ∀ p ∈ hertz, 0 ≤ p.1 := by
  intro p hp
  simp only [hertz, List.mem_cons, List.not_mem_nil, or_false] at hp
  rcases hp with rfl | rfl <;> norm_num

theorem hertz_modes : (modes hertz).length = 4 := by simp [modes, hertz]

example := C145_zero_point binary64 C145_binary64 codata 300 hertz hertz_weights (by rw [hertz_modes]; norm_num)

example := C145_thermal binary64 C145_binary64 codata 300 10 (by norm_num) hertz hertz_weights
  (by rw [hertz_modes]; norm_num) (by norm_num) (by norm_num) fun p hp ω hω h => (hertz_ratio p hp ω hω h).2

example := C145_heat_capacity binary64 C145_binary64 codata 300 10 (by norm_num) hertz hertz_weights
  (by rw [hertz_modes]; norm_num) (by norm_num) (by norm_num) fun p hp ω hω h => (hertz_ratio p hp ω hω h).2

example := C145_entropy_partial binary64 C145_binary64 codata 300 1e-9 (by norm_num) hertz hertz_weights
  (by rw [hertz_modes]; norm_num) le_rfl fun p hp ω hω h =>
    ⟨(hertz_ratio p hp ω hω h).1, (hertz_ratio p hp ω hω h).2.trans (by norm_num)⟩

example := C145_free_energy_partial binary64 C145_binary64 codata 300 1e-9 10 (by norm_num) hertz hertz_weights
  (by rw [hertz_modes]; norm_num) le_rfl (by norm_num) (by norm_num) hertz_ratio

/-- A frequency of 1e-17 THz at 300 K. -/
example : binary64.hoS codata 300 1e-5 = none ∧ binary64.hoF codata 300 1e-5 = none :=
  C145_lost_violated codata 300 1e-5 (by norm_num) (by norm_num) (by norm_num [ratio, codata])

/-- Two temperatures, one point with one mode, the iterations interleaved. -/
example (a : Arith) (f : ℝ → ℝ → Option ℝ) (T : Fin 2 → ℝ) (ω w : ℝ) :=
  C145_schedules a (nb := 1) (nf := 1) (nv := 1) f T (fun _ _ _ => ω) (fun _ => w)
    [.load 0 0, .load 1 0, .store 1 0 (a.numbers.mul (f (T 1) ω) (some w)), .store 0 0 (a.numbers.mul (f (T 0) ω) (some w))]
    (by
      intro i
      fin_cases i <;> simp [Bits.Instr.row, Bits.rowProg, List.finRange, List.filter]) 0 0

end Verif.StatMech
