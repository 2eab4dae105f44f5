/-
The quasi-harmonic theorems applied to concrete crystals: one that expands on heating (`exSoft`), one that does not (`exInput`)
and two cells of the latter in other units.
-/
import Verif.QHA.Expansion
import Verif.QHA.Angstrom
import Verif.QHA.Copies
import Verif.QHA.Rigid
import Verif.QHA.GridProps

namespace Verif.QHA.Cases
open Verif.Py Verif.Units Verif.HA Verif.QHA Verif.QHA.Spec Verif.StatMech Verif.Poly.Spec

/-- Some correct external routines. -/
noncomputable def ext : Ext := Classical.choose numerics_exists

theorem num : Numerics ext := Classical.choose_spec numerics_exists

/-! ### The crystal that expands, from 0 to 59 K -/

noncomputable def grid (i : Fin 60) : ℝ := i.val

variable (k : Consts) (sc : Scheme)

/-- Its stiffness and its results. -/
noncomputable def A : ℝ := Classical.choose (exSoft_run k num sc grid)
noncomputable def r : Results 60 1 := Classical.choose (Classical.choose_spec (exSoft_run k num sc grid))

theorem hr : run k ext (exAt sc grid) (exSoft (A k sc)) = .ok (r k sc) :=
  (Classical.choose_spec (Classical.choose_spec (exSoft_run k num sc grid))).1

theorem hV (i : Fin 60) (j : Fin 1) : 3 / 2 ≤ (r k sc).VT i j ∧ (r k sc).VT i j ≤ 5 / 2 :=
  (Classical.choose_spec (Classical.choose_spec (exSoft_run k num sc grid))).2 i j

noncomputable def ha : HA.Results 60 3 := Classical.choose (harmonic_exists k (exAt_of sc grid) (exSoft (A k sc)))

theorem hha : HA.run k (harmonicSettings (exAt sc grid)) (exSoft (A k sc)).toInput = .ok (ha k sc) :=
  Classical.choose_spec (harmonic_exists k (exAt_of sc grid) (exSoft (A k sc)))

/-- The harmonic results at any single temperature. -/
noncomputable def at_ (t : ℝ) : HA.Results 1 3 := Classical.choose (at_exists (k := k) (exAt_of sc grid) (exSoft (A k sc)) t)

theorem hat (t : ℝ) : HA.run k (atKelvin (exAt sc grid) t) (exSoft (A k sc)).toInput = .ok (at_ k sc t) :=
  Classical.choose_spec (at_exists (k := k) (exAt_of sc grid) (exSoft (A k sc)) t)

theorem pos (i : Fin 60) (j : Fin 1) : 0 < (r k sc).VT i j := by have := (hV k sc i j).1; linarith

example := C15_legendre (exAt_of sc grid) (hr k sc) 7 0
example := C15_differences (exAt_of sc grid) (hr k sc) 7 0
example := C15_kernels k (r k sc).VT (r k sc).Utot (r k sc).F (fun _ => 1) (fun _ => 3) 2 (-1) (by norm_num) 7 0
example := C16_degenerate (exAt_of sc grid) (hr k sc) 0 0 (.inl (by simp [exAt, exUnits, TemperatureUnit.kelvin, grid]))
example := C19_quotients (exAt_of sc grid) (hr k sc) (by norm_num) 7 0
example := C68_energies_add_up num (exAt_of sc grid) (hr k sc) (fun _ => ⟨exSoft_injective _, le_refl 3⟩) 7 0
example := C68_freq_interpolates (exAt_of .freq grid) (hr k .freq) rfl 7 0
example := C69_bulk_modulus num (exAt_of .td grid) rfl rfl (by decide : 2 ≤ 4) (hr k .td) (hha k .td) 7 0 (pos k .td 7 0)
example := C137_bulk_modulus_violated num (exAt_of .td grid) rfl rfl rfl (by decide : 2 ≤ 4) (hr codata .td) (hha codata .td)
  7 0 (pos codata .td 7 0)
example := C121_fixed_volume num (exAt_of sc grid) (exSoft_injective _) (le_refl 3) (hat k sc) (t := 300) (by norm_num) 2

/-- From 0 K to 10 K the Gibbs energy falls. -/
example := C121_gibbs num (exAt_of .td grid) rfl rfl (exSoft_injective _) (le_refl 3) (hr k .td) (hat k .td) 0 10 0 (T := grid)
  (fun _ => rfl) (by simp [grid]) (by simp [grid]) (by
    intro t ht V _
    have key : ∀ m : Fin 60, 0 ≤ deriv (deriv (value (ext.polyfit (exSoft (A k .td)).volume ((at_ k .td (grid m)).F 0) 2))) V := by
      intro m
      have h1 := (C20_equilibrium_volume num (exAt_of .td grid) rfl (hr k .td) (hha k .td) m 0).2.2.1
      rw [(harmonic_row (exAt_of .td grid) (hha k .td) m (hat k .td _)).1] at h1
      rw [quadratic_curvature (n := 3) le_rfl _ V ((r k .td).VT m 0)]
      exact h1.le
    rcases ht with rfl | rfl
    · exact key 0
    · exact key 10)

/-- From 0 K to 10 K the volume grows. -/
example : (r k sc).VT 0 0 < (r k sc).VT 10 0 := exSoft_expands num (hr k sc) (hV k sc) 0 10 (by simp [grid]) (by simp [grid])

example := C140_expands num (exAt_of sc grid) rfl (exSoft_injective _) (le_refl 3) (hr k sc) (hat k sc) 0 10 0 (T := grid)
  (fun _ => rfl) (by simp [grid]) (by simp [grid]) (fun _ => rfl) (fun _ => rfl) (.inl (by decide : 2 ≤ 2))

example : (r k sc).VT 0 0 < (r k sc).VT 10 0 :=
  C140_softening num (exAt_of sc grid) rfl rfl (by simp [exSoft]) one_pos one_pos (fun q => by simp [exSoft])
    (fun q b => by simp [exSoft]; norm_num) (hr k sc) 0 10 0
    (by have := hV k sc 0 0; simp [exSoft]; constructor <;> linarith)
    (by simp [exAt, exUnits, TemperatureUnit.kelvin, grid]) (by simp [exAt, exUnits, TemperatureUnit.kelvin, grid])

/-- Inequalities in the thermodynamic scheme at 0 K, where the heat capacity vanishes. -/
example := C16_inequalities_partial (exAt_of .td grid) (hr k .td) 0 0
  (by simp [exAt, exUnits, TemperatureUnit.kelvin, grid]) (pos k .td 0 0).le
  ((C134_ground_state num (exAt_of .td grid) (hr k .td) (fun _ => ⟨exSoft_injective _, le_refl 3⟩) 0 0
    (by simp [exAt, exUnits, TemperatureUnit.kelvin, grid])).2.2.1.ge)
  (C69_bulk_modulus num (exAt_of .td grid) rfl rfl (by decide : 2 ≤ 4) (hr k .td) (hha k .td) 0 0 (pos k .td 0 0)).2.le

example := C16_units_of_KS (k := k) (T := fun _ : Fin 1 => 300) (V := fun _ _ : Fin 1 => 1e-28)
  (KT := fun _ _ => 160) (alpha := fun _ _ => 3e-5) (Cv := fun _ _ => 36) (factor := 1e9) (i := 0) (j := 0)
  (by norm_num) (by norm_num) (by norm_num)

/-! ### The crystal that does not expand -/

variable (nt : ℕ)

noncomputable def ext' : Ext := Classical.choose (witness k nt)
noncomputable def ha' : HA.Results nt 3 := Classical.choose (Classical.choose_spec (witness k nt))
noncomputable def r' : Results nt 1 := Classical.choose (Classical.choose_spec (Classical.choose_spec (witness k nt)))

theorem still : Numerics (ext' k nt) ∧ HA.run k (harmonicSettings (exSettings nt)) exInput.toInput = .ok (ha' k nt) ∧
    run k (ext' k nt) (exSettings nt) exInput = .ok (r' k nt) ∧
    ∀ i j, (r' k nt).VT i j = 2 ∧ (r' k nt).Kp i j = -1 ∧ 0 < (r' k nt).KT i j ∧ 0 < (r' k nt).Cv i j :=
  Classical.choose_spec (Classical.choose_spec (Classical.choose_spec (witness k nt)))

theorem num' : Numerics (ext' k nt) := (still k nt).1
theorem hha' : HA.run k (harmonicSettings (exSettings nt)) exInput.toInput = .ok (ha' k nt) := (still k nt).2.1
theorem hr' : run k (ext' k nt) (exSettings nt) exInput = .ok (r' k nt) := (still k nt).2.2.1
theorem hV' (i : Fin nt) (j : Fin 1) : (r' k nt).VT i j = 2 := ((still k nt).2.2.2 i j).1

example := C19_short_grid (exUnits_of 49) (hr' k 49) (by norm_num) 3 0
example := C19_mean_value (exUnits_of 60) (hr' k 60) (by norm_num) 0 (f := fun _ => 2) (differentiable_const _)
  (fun i => hV' k 60 i 0) (i := 3) (i' := 4) rfl
  (by simp [exUnits, exSettings, TemperatureUnit.kelvin]; norm_num)
example := C16_inequalities_partial (exUnits_of 60) (hr' k 60) 3 0
  (by simp [exUnits, exSettings, TemperatureUnit.kelvin]; norm_num) (by rw [hV']; norm_num)
  ((still k 60).2.2.2 3 0).2.2.2.le ((still k 60).2.2.2 3 0).2.2.1.le
example := C127_volumes (num' k 60) (exUnits_of 60) rfl exInput_injective (le_refl 3) exInput_rigid (hr' k 60) 3 17 0
example := C127_moduli (num' k 60) (exUnits_of 60) rfl exInput_injective (le_refl 3) (by decide : 2 ≤ 4)
  (fun h => by simp [exSettings] at h) exInput_rigid (hr' k 60) 3 17 0 (by rw [hV']; norm_num)
example := C135_input_volume_partial (num' k 60) (exUnits_of 60) exInput_injective rfl (fun _ => rfl) (hr' k 60)
  (fun _ => zero_le_one) (by simp [exInput]) 3 0 1 (by rw [hV']; norm_num [exInput])
  (by simp [exUnits, exSettings, TemperatureUnit.kelvin]; norm_num)

/-- With `--acoustic` nothing is computed. -/
example := C70_acoustic_violated (k := k) (ext := ext) (s := { exSettings 60 with kieffer := true }) (x := exInput) (u := exUnits)
  ⟨rfl, rfl, rfl, rfl, rfl⟩ rfl

/-! ### Two pressures -/

noncomputable def extp : Ext := Classical.choose (exPressures_witness k 5)
noncomputable def hap : HA.Results 5 3 := Classical.choose (Classical.choose_spec (exPressures_witness k 5))
noncomputable def rp : Results 5 2 := Classical.choose (Classical.choose_spec (Classical.choose_spec (exPressures_witness k 5)))

theorem squeezed : Numerics (extp k) ∧ exUnits.Of (exPressures 5) ∧
    HA.run k (harmonicSettings (exPressures 5)) exInput.toInput = .ok (hap k) ∧
    run k (extp k) (exPressures 5) exInput = .ok (rp k) ∧ (exPressures 5).pressure 0 < (exPressures 5).pressure 1 ∧
    (exPressures 5).edeg ≤ 3 :=
  Classical.choose_spec (Classical.choose_spec (Classical.choose_spec (exPressures_witness k 5)))

example := C120_volumes (squeezed k).1 (squeezed k).2.1 rfl (squeezed k).2.2.2.1 (squeezed k).2.2.1 2 0 1
  (squeezed k).2.2.2.2.1 rfl (.inl (squeezed k).2.2.2.2.2)
example := C120_gibbs (squeezed k).1 (squeezed k).2.1 rfl rfl (squeezed k).2.2.2.1 (squeezed k).2.2.1 2 0 1
  (squeezed k).2.2.2.2.1 rfl (.inl (squeezed k).2.2.2.2.2)

/-! ### Two cells in other units, from another zero of energy -/

theorem otherUnits_of : otherUnits.Of (otherSettings nt) := ⟨rfl, rfl, rfl, rfl, rfl⟩

theorem twice (c : ℝ) : ∃ r2, run k (ext' k nt) (otherSettings nt) (twoCells k c) = .ok r2 :=
  (C123_succeeds (num' k nt) (twoCells_copies k c nt) two_pos (exUnits_of nt) (otherUnits_of nt) rfl rfl
    exInput_injective (le_refl 3)).2 ⟨_, hr' k nt⟩

noncomputable def r2 (c : ℝ) : Results nt 1 := Classical.choose (twice k nt c)
theorem hr2 (c : ℝ) : run k (ext' k nt) (otherSettings nt) (twoCells k c) = .ok (r2 k nt c) := Classical.choose_spec (twice k nt c)

noncomputable def ha2 (c : ℝ) : HA.Results nt 3 := Classical.choose (harmonic_exists k (otherUnits_of nt) (twoCells k c))
theorem hha2 (c : ℝ) : HA.run k (harmonicSettings (otherSettings nt)) (twoCells k c).toInput = .ok (ha2 k nt c) :=
  Classical.choose_spec (harmonic_exists k (otherUnits_of nt) (twoCells k c))

example := C123_harmonic (twoCells_copies k 5 60) (exUnits_of 60) (otherUnits_of 60) (hha' k 60) (hha2 k 60 5) 3 1
example := C123_volume (num' k 60) (twoCells_copies k 5 60) two_pos (exUnits_of 60) (otherUnits_of 60) rfl
  exInput_injective (le_refl 3) (by decide : 2 ≤ 3) (hr' k 60) (hr2 k 60 5) 3 0
example := C123_columns (num' k 60) (twoCells_copies k 5 60) two_pos (exUnits_of 60) (otherUnits_of 60) rfl
  exInput_injective (le_refl 3) (fun _ => le_refl 3) (by decide : 2 ≤ 3) (hr' k 60) (hr2 k 60 5) 3 0
example := C123_moduli (num' k 60) (twoCells_copies k 5 60) two_pos (exUnits_of 60) (otherUnits_of 60) rfl
  exInput_injective (le_refl 3) (fun _ => le_refl 3) (by decide : 2 ≤ 3) (hr' k 60) (hr2 k 60 5) 3 0 (by rw [hV']; norm_num)
example := C123_derivative (num' k 60) (twoCells_copies k 5 60) two_pos (exUnits_of 60) (otherUnits_of 60) rfl rfl
  exInput_injective (le_refl 3) (by decide : 2 ≤ 3) (hr' k 60) (hr2 k 60 5) (hha' k 60) 3 0 (by rw [hV']; norm_num) rfl
  (fun V _ => by
    have h1 := (C20_equilibrium_volume (num' k 60) (exUnits_of 60) rfl (hr' k 60) (hha' k 60) 3 0).2.2.1
    rwa [quadratic_curvature (n := (exSettings 60).edeg + 1) (le_refl 3) _ V ((r' k 60).VT 3 0)])

/-! ### Minimisation with an equation of state -/

/-- An equation-of-state fit that only looks at the energies for their zero. -/
noncomputable def exte : Ext := { ext with eosFit := fun {n} _ V F => ![∑ m : Fin n, F m, 1, 4, (∑ m, V m) / n] }

theorem exte_shifts : ShiftsE0 exte := by
  intro n eos V F c i hi
  fin_cases i
  · exact absurd rfl hi
  all_goals rfl

noncomputable def byEos : Settings 60 1 := { exSettings 60 with minimization := .eos }

theorem byEos_of : exUnits.Of byEos := ⟨rfl, rfl, rfl, rfl, rfl⟩

theorem byEos_run : ∃ r, run k exte byEos exInput = .ok r := by
  obtain ⟨ha, hha⟩ := harmonic_exists k byEos_of exInput
  obtain ⟨-, h⟩ := run_cases (ext := exte) byEos_of rfl hha
  obtain ⟨r0, r, hr, -⟩ := h _ ((seqFin_ok _ _).2 fun i => (seqFin_ok _ _).2 fun j => minimize_eos byEos_of rfl _ _ _ _)
  exact ⟨r, hr⟩

noncomputable def re : Results 60 1 := Classical.choose (byEos_run k)
theorem hre : run k exte byEos exInput = .ok (re k) := Classical.choose_spec (byEos_run k)

noncomputable def hae : HA.Results 60 3 := Classical.choose (harmonic_exists k byEos_of exInput)
theorem hhae : HA.run k (harmonicSettings byEos) exInput.toInput = .ok (hae k) :=
  Classical.choose_spec (harmonic_exists k byEos_of exInput)

example := C69_eos_parameters byEos_of rfl (hre k) (hhae k) 3 0
example := C127_volumes_eos exte_shifts byEos_of rfl exInput_rigid (hre k) 3 17 0

/-! ### Other grids (C159) -/

/-- Fifty-five of the sixty temperatures, from 3 K on. -/
noncomputable def part (i : Fin 55) : ℝ := i.val + 3

theorem part_run : ∃ r', run k ext (onGrid (exAt sc grid) part (exAt sc grid).pressure) (exSoft (A k sc)) = .ok r' :=
  C159_subgrid (exAt_of sc grid) (hr k sc) (by norm_num) (by norm_num)
    (fun i' => ⟨⟨i'.val + 3, by omega⟩, by simp [exAt, grid, part]⟩) fun j' => ⟨j', rfl⟩

example := C159_alone (exAt_of sc grid) (hr k sc) 7 0

/-- 7 K is the eighth temperature of the whole grid and the fifth of the part. -/
example : ∃ r', run k ext (onGrid (exAt sc grid) part (exAt sc grid).pressure) (exSoft (A k sc)) = .ok r' ∧
    SameNode (r k sc) 7 0 r' 4 0 ∧ SameExpansion (r k sc) 7 0 r' 4 0 := by
  obtain ⟨r', h⟩ := part_run k sc
  have e : (exAt sc grid).temperature 7 = part 4 := by simp [exAt, grid, part]; norm_num
  refine ⟨r', h, C159_node (exAt_of sc grid) (hr k sc) h e rfl,
    C159_expansion_partial (exAt_of sc grid) (hr k sc) h (by norm_num) (by norm_num) e rfl (by decide) (by decide) ?_⟩
  simp [exAt, grid, part]; norm_num

/-- The last fifty-seven temperatures end with the same two. -/
example : ∃ r', run k ext (onGrid (exAt sc grid) (fun i : Fin 57 => (i.val : ℝ) + 3) (exAt sc grid).pressure)
      (exSoft (A k sc)) = .ok r' ∧ SameExpansion (r k sc) 59 0 r' 56 0 := by
  obtain ⟨r', h⟩ := C159_subgrid (exAt_of sc grid) (hr k sc) (T := fun i : Fin 57 => (i.val : ℝ) + 3)
    (p := (exAt sc grid).pressure) (by norm_num) (by norm_num)
    (fun i' => ⟨⟨i'.val + 3, by omega⟩, by simp [exAt, grid]⟩) fun j' => ⟨j', rfl⟩
  refine ⟨r', h, C159_last_partial (exAt_of sc grid) (hr k sc) h (by norm_num) (by norm_num) (j := 0) (j' := 0) rfl ?_ ?_⟩
  · simp [exAt, grid]; norm_num
  · simp [exAt, grid]; norm_num

/-- A crystal whose static energy and frequencies do not depend on the volume has no equilibrium at any node. -/
theorem flat_fails : run k ext (exAt sc grid) { exInput with U0 := fun _ => 0 } = .error .indexError := by
  obtain ⟨ha, hha, hF, -⟩ := harmonic_run (exAt_of sc grid) { exInput with U0 := fun _ => 0 } (k := k)
  refine (C20_run_succeeds_iff num (exAt_of sc grid) rfl rfl hha).2 fun h => ?_
  obtain ⟨V, -, hpos⟩ := h 0 0
  have hc : ha.F 0 = fun _ => ha.F 0 0 := by
    funext n
    rw [hF]
    simp only [freeEnergy, vibrationalFreeEnergy, kernel_eq, exInput]
  have e : value (ext.polyfit exInput.volume (ha.F 0) 2) = fun _ => ha.F 0 0 := by
    funext v
    rw [hc, fit_const num exInput_injective (le_refl 3)]
    simp [value, Fin.sum_univ_succ]
  have hpos : 0 < deriv (deriv (value (ext.polyfit exInput.volume (ha.F 0) 2))) V := hpos
  rw [e] at hpos
  simp at hpos

example := C159_errors (exAt_of sc grid) (by norm_num) (by norm_num) (flat_fails k sc)

end Verif.QHA.Cases
