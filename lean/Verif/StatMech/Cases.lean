/- Concrete cases for the theorems about the harmonic functions: two q-points, three modes, one volume; frequencies in hertz. -/
import Verif.StatMech.Gruneisen
import Verif.StatMech.Einstein

namespace Verif.StatMech.Cases
open Verif.Units Verif.StatMech

/-- Modes between 1 and 4 THz, and an imaginary one at the second q-point. -/
noncomputable def band : Fin 2 → Fin 3 → Fin 1 → ℝ := ![![![1e12], ![2e12], ![4e12]], ![![-1e12], ![2e12], ![3e12]]]

/-- The second q-point stands for three. -/
noncomputable def weights : Fin 2 → ℝ := ![1 / 4, 3 / 4]

theorem weights_nonneg : ∀ j, 0 ≤ weights j := by
  intro j; fin_cases j <;> norm_num [weights]

/-- 0, 300 and 1000 K. -/
noncomputable def temps : Fin 3 → ℝ := ![0, 300, 1000]

example := C08_entropy_is_minus_dF codata band weights 0 (t := 300) (by norm_num)
example := C08_heat_capacity_is_dU codata band weights 0 (t := 300) (by norm_num)
example := C08_heat_capacity_is_T_dS codata band weights 0 (t := 300) (by norm_num)
example := C09_bounds codata temps band weights weights_nonneg 1 (by norm_num [temps]) 0
example := C10_high_temperature codata (fun (_ : Fin 2) (m : Fin 3) (_ : Fin 1) => (1e12 * (m + 1) : ℝ)) weights 0
  (fun j m => by positivity)
example := C11_monotone codata band weights weights_nonneg temps 0 0 2 (by simp [temps]) (by simp [temps])

/-- Two threads, one temperature each, in the order of the program within each thread only. -/
example (f : ℝ → ℝ → ℝ) (T : Fin 2 → ℝ) (b : Fin 1 → Fin 1 → Fin 1 → ℝ) (w : Fin 1 → ℝ) :=
  C12_any_schedule f T b w [.load 0 0, .load 1 0, .store 1 0 (f (T 1) (b 0 0 0) * w 0), .store 0 0 (f (T 0) (b 0 0 0) * w 0)]
    (by intro i; fin_cases i <;> simp [rowProg, Instr.row, List.finRange_succ])

/-- The second q-point split into two copies that share its weight, listed before the first. -/
example := C13_q_points (hoCv codata) temps band weights ![1, 1, 0] ![1 / 4, 1 / 2, 1 / 4]
  (by intro j; fin_cases j <;> simp [weights, Finset.sum_filter, Fin.sum_univ_three]; norm_num) 1 0

/-- Two more imaginary modes. -/
example := C13_imaginary_modes (extra := 2) codata temps band weights (fun _ m _ => -(m : ℝ)) (fun _ _ _ => by simp) 1 0

example := C126_corresponding_states codata temps band weights (l := 2) (by norm_num) 1 0

/-- Two modes with the Grüneisen parameters 1 and 2: `c/V` and `c/V²`, at a volume of 100. -/
theorem modes : ∀ (j : Fin 1) (m : Fin 2), HasDerivAt ((fun (_ : Fin 1) => ![fun v => 1e14 / v, fun v => 1e17 / v ^ 2]) j m)
    (-(fun (_ : Fin 1) => ![1, 2]) j m * (fun (_ : Fin 1) => ![fun v => 1e14 / v, fun v : ℝ => 1e17 / v ^ 2]) j m 100 / 100)
    (100 : ℝ) := by
  intro j m
  fin_cases m
  · have := (hasDerivAt_const (100 : ℝ) (1e14 : ℝ)).div (hasDerivAt_id (100 : ℝ)) (by norm_num)
    refine this.congr_deriv ?_
    norm_num
  · have := (hasDerivAt_const (100 : ℝ) (1e17 : ℝ)).div (hasDerivAt_pow 2 (100 : ℝ)) (by norm_num)
    refine this.congr_deriv ?_
    norm_num

example := C126_pressure codata temps (fun (_ : Fin 1) => ![fun v => 1e14 / v, fun v => 1e17 / v ^ 2]) (fun (_ : Fin 1) => ![1, 2])
  (fun _ => 1) (V := 100) (fun j m => by fin_cases m <;> norm_num) modes 1 (by norm_num [temps])
example := C126_entropy codata temps (fun (_ : Fin 1) => ![fun v => 1e14 / v, fun v => 1e17 / v ^ 2]) (fun (_ : Fin 1) => ![1, 2])
  (fun _ => 1) (V := 100) (fun j m => by fin_cases m <;> norm_num) modes 1 (by norm_num [temps])
example := C126_soft_mode codata temps 1 (by norm_num [temps])

/-- The same two modes at every volume. -/
noncomputable def freq (_ : Fin 1) : Fin 2 → ℝ → ℝ := ![fun v => 1e14 / v, fun v => 1e17 / v ^ 2]

/-- Their Grüneisen parameters. -/
noncomputable def param (_ : Fin 1) : Fin 2 → ℝ := ![1, 2]

theorem freq_pos {v : ℝ} (hv : 0 < v) (j : Fin 1) (m : Fin 2) : 0 < freq j m v := by
  fin_cases m <;> simp only [freq, Fin.zero_eta, Fin.mk_one, Matrix.cons_val] <;> positivity

theorem freq_law {v : ℝ} (hv : 0 < v) (j : Fin 1) (m : Fin 2) :
    HasDerivAt (freq j m) (-param j m * freq j m v / v) v := by
  fin_cases m
  · have := (hasDerivAt_const v (1e14 : ℝ)).div (hasDerivAt_id v) hv.ne'
    refine this.congr_deriv ?_
    simp only [freq, param, Fin.zero_eta, Matrix.cons_val, id]
    field_simp
    ring
  · have := (hasDerivAt_const v (1e17 : ℝ)).div (hasDerivAt_pow 2 v) (by positivity)
    refine this.congr_deriv ?_
    simp only [freq, param, Fin.mk_one, Matrix.cons_val]
    field_simp
    ring

theorem param_lo (j : Fin 1) (m : Fin 2) : 1 ≤ param j m := by
  fin_cases m <;> norm_num [param]
theorem param_hi (j : Fin 1) (m : Fin 2) : param j m ≤ 2 := by
  fin_cases m <;> norm_num [param]

example := C179_between codata freq param (fun _ => 1) (fun _ => by norm_num) (by norm_num) (by norm_num) (V := 100)
  (by norm_num) (freq_pos (by norm_num)) (freq_law (by norm_num)) (t := 300) (by norm_num) param_lo param_hi
/-- Warm: the mean of 1 and 2. -/
example : Filter.Tendsto (Spec.gruneisen codata freq (fun _ => 1) 100) Filter.atTop (nhds (3 / 2)) := by
  have := C179_hot codata freq param (fun _ => 1) (by norm_num) (by norm_num) (V := 100)
    (by norm_num) (freq_pos (by norm_num)) (freq_law (by norm_num))
  norm_num [param, Fin.sum_univ_two] at this
  exact this
/-- Cold: the parameter of the mode with the lower frequency. -/
example : Filter.Tendsto (Spec.gruneisen codata freq (fun _ => 1) 100) (nhdsWithin 0 (Set.Ioi 0)) (nhds 1) := by
  have := C179_cold codata freq param (fun _ => 1) (fun _ => by norm_num) (V := 100)
    (by norm_num) (freq_pos (by norm_num)) (freq_law (by norm_num)) 0 0 (by norm_num)
    (fun j m => by fin_cases m <;> norm_num [freq]) (fun j m => by fin_cases j; fin_cases m <;> norm_num [freq, param])
  simpa [param] using this
example := C179_adiabat codata freq (fun j m _ => param j m) (fun _ => 1) (fun _ => by norm_num) (V := 100) (V' := 110)
  (by norm_num) (by norm_num) (fun j m v hv => freq_pos (by linarith [hv.1]) j m)
  (fun j m v hv => freq_law (by linarith [hv.1]) j m) (fun j m _ _ => param_lo j m) (fun j m _ _ => param_hi j m)
  (t := 300) (by norm_num)

/-- Three modes at each of two q-points with weights 1/4 and 3/4: three modes in all, with a mean frequency of 2.5 THz. -/
noncomputable def mixed : Fin 2 → Fin 3 → Fin 1 → ℝ := ![![![1e12], ![2e12], ![3e12]], ![![2e12], ![2e12], ![4e12]]]
theorem mixed_pos (j : Fin 2) (m : Fin 3) : 0 < mixed j m 0 := by
  fin_cases j <;> fin_cases m <;> norm_num [mixed]
theorem mixed_modes : Spec.modeCount 3 weights = 3 := by
  norm_num [Spec.modeCount, weights, Fin.sum_univ_two]
example : Spec.meanFrequency weights (fun j m => mixed j m 0) = 2.5e12 := by
  rw [Spec.meanFrequency, mixed_modes]
  simp only [Fin.sum_univ_two, Fin.sum_univ_three]
  change (1 / 4 * (1e12 + 2e12 + 3e12) + 3 / 4 * (2e12 + 2e12 + 4e12)) / 3 = (2.5e12 : ℝ)
  norm_num
example := C185_mean codata temps mixed weights weights_nonneg (by rw [mixed_modes]; norm_num) 1 (by norm_num [temps]) 0 mixed_pos
example := C185_geometric codata temps mixed weights weights_nonneg (by rw [mixed_modes]; norm_num) 1 (by norm_num [temps]) 0 mixed_pos

end Verif.StatMech.Cases
