/- Concrete cases for the theorems about equations of state. -/
import Verif.EoS.Props
import Verif.EoS.Axial
import Verif.EoS.IdentifyP
import Verif.EoS.Identify
import Verif.EoS.Expansion
import Verif.EoS.Inverse
import Verif.EoS.NormalizeErrors
import Verif.EoS.Stiffer
import Verif.EoS.Units

namespace Verif.EoS.Cases
open Verif.EoS Verif.EoS.Spec

theorem hV0 : 0 < periclase.V0 := by norm_num [periclase]
theorem hK0 : 0 < periclase.K0 := by norm_num [periclase]

theorem stiff (f : Formulation) : Stiffening f (eos f periclase periclase.V0 3 false true).2 :=
  C27_fits f periclase _ 3 false (by norm_num) hK0 (by
    rw [C23_which_Kp]; cases f <;> norm_num [periclase, secondOrderKp])

theorem regular (f : Formulation) : Regular f (eos f periclase periclase.V0 3 false true).2 :=
  stiffening_regular f _ (by
      have := (parsAfter_K0 f periclase 3 false true).1
      change 0 < (parsAfter f periclase 3 false true).K0
      rw [this]; exact hK0) (stiff f)

/-! ### Pressure: periclase, fitted to third order -/

example (f : Formulation) := C23_parameters f periclase 3 false true hV0 hK0 (regular f)
example := C23_truncation periclase 70 true hK0.ne'
example := C24_second_derivative_partial .tait (by simp) periclase 3 false true hV0 hK0 (regular .tait)
example := C24_vinet_violated periclase 3 false true hV0 hK0
example (f : Formulation) := C27_near_equilibrium f periclase 3 false true hV0 hK0 (regular f)
example (f : Formulation) := C27_compression f periclase 3 false true hV0 hK0 (stiff f)
example := C27_all_volumes .tait (.inr rfl) periclase 3 false true hV0 hK0 (stiff .tait)
example := C136_tait periclase 3 false true hV0 hK0 _ rfl (stiff .tait) 100 (by norm_num)

example (f : Formulation) := C177_expansion f periclase 3 false true hV0 hK0 (regular f)
example (f g : Formulation) := C177_agree f g periclase periclase 3 3 false false true true hV0 hK0 rfl rfl
  (by simp [C23_which_Kp]) (regular f) (regular g)

example := C184_bulk .vinet (by simp) 160 4 0 75 70 2 (by norm_num) (by norm_num) false
example := C184_pressure .murnaghan (by simp) 160 4 4.5 0 0 75 70 (by norm_num) (by norm_num) (by norm_num) (by norm_num)
  (by norm_num) (by norm_num) false true
/-- At 100 GPa there are volumes for two values of `K'` and for two bulk moduli, and they are ordered. -/
example : ∃ V V' V'' : ℝ, (eos .birchMurnaghan ⟨160, 4, 0, 75⟩ V 3 false true).1 = 100 ∧
    (eos .birchMurnaghan ⟨160, 5, 0, 75⟩ V' 3 false true).1 = 100 ∧ (eos .birchMurnaghan ⟨170, 5, 0, 75⟩ V'' 3 false true).1 = 100 ∧
    V < V' ∧ V' < V'' := by
  have vol : ∀ K0 Kp : ℝ, 0 < K0 → 4 ≤ Kp → ∃ V, (0 < V ∧ V ≤ 75) ∧ (eos .birchMurnaghan ⟨K0, Kp, 0, 75⟩ V 3 false true).1 = 100 :=
    fun K0 Kp hK hKp => (C136_one_volume .birchMurnaghan (by simp) ⟨K0, Kp, 0, 75⟩ 3 false true (by norm_num) hK
      (third_stiffening _ (by simp) _ _ _ _ _ hK (by linarith) (by simpa [secondOrderKp] using hKp) _) 100 (by norm_num)).exists
  have strict : ∀ K0 Kp V : ℝ, 0 < K0 → 4 ≤ Kp → V ≤ 75 → (eos .birchMurnaghan ⟨K0, Kp, 0, 75⟩ V 3 false true).1 = 100 → V < 75 := by
    intro K0 Kp V hK hKp hV h
    refine lt_of_le_of_ne hV fun e => ?_
    have z := (C23_parameters .birchMurnaghan ⟨K0, Kp, 0, 75⟩ 3 false true (by norm_num) hK trivial).1
    rw [e] at h
    have : (0 : ℝ) = 100 := z.symm.trans h
    norm_num at this
  obtain ⟨V, ⟨h1, h2⟩, h3⟩ := vol 160 4 (by norm_num) (by norm_num)
  obtain ⟨V', ⟨h1', h2'⟩, h3'⟩ := vol 160 5 (by norm_num) (by norm_num)
  obtain ⟨V'', ⟨h1'', h2''⟩, h3''⟩ := vol 170 5 (by norm_num) (by norm_num)
  exact ⟨V, V', V'', h3, h3', h3'', C184_volume .birchMurnaghan (by simp) 160 4 5 0 0 75 V V' (by norm_num) (by norm_num) (by norm_num)
    (by norm_num) false false (by norm_num [secondOrderKp]) h1 (strict _ _ _ (by norm_num) (by norm_num) h2 h3) h1' h2' (h3.trans h3'.symm),
    C184_stiffer .birchMurnaghan (by simp) 160 170 5 0 75 V' V'' (by norm_num) (by norm_num) (by norm_num) false (by norm_num)
    (by norm_num [secondOrderKp]) h1' (strict _ _ _ (by norm_num) (by norm_num) h2' h3') h1'' h2'' (h3'.trans h3''.symm)⟩

/-! ### Energy -/


theorem eregular (f : EForm) : ERegular f 4.2 := by cases f <;> norm_num [ERegular]

example (f : EForm) := C25_minimum f (-5) 1 4.2 70 (by norm_num) (by norm_num) (eregular f)
example (f g : EForm) := C177_energy f g (-5) 1 4.2 70 (by norm_num) (by norm_num) (eregular f) (eregular g)
example := C25_lowest (-5) 1 4.2 70 80 (by norm_num) (by norm_num) (by norm_num) (by norm_num)
example := C25_stretched (-5) 1 4.2 70 (by norm_num) (by norm_num)
example := C26_pressure_partial .vinet (-5) 1 4.2 70 60 (by norm_num) (by norm_num) (by norm_num) (eregular _)
  (.inr (.inl rfl))
/-- In compression the pressure reported with a Birch–Murnaghan curve is too large. -/
example : -deriv (energy .birchMurnaghan (-5) 1 4.2 70) 60 < pressure .birchMurnaghan 1 4.2 70 60 :=
  (C26_pressure_violated .birchMurnaghan (.inl rfl) (-5) 1 4.2 70 60 (by norm_num) (by norm_num) (by norm_num)).1
    (by norm_num)

/-! ### What data determine -/

theorem solid (f : EForm) : Solid f ⟨-5, 1, 4.2, 70⟩ :=
  ⟨by norm_num, by norm_num, by cases f <;> norm_num [ERegular]⟩

theorem volumes_injective (n : ℕ) : Function.Injective (fun i : Fin n => 60 + 3 * (i : ℝ)) := by
  intro i j h
  have : (i : ℝ) = j := by simp only at h; linarith
  exact Fin.ext (by exact_mod_cast this)

theorem volumes_pos (n : ℕ) (i : Fin n) : 0 < 60 + 3 * (i : ℝ) := by positivity

example (f : EForm) := C104_determined f (solid f) (solid f) (n := 6) (by cases f <;> decide) (volumes_injective 6)
  (volumes_pos 6) fun _ => rfl
example (f : EForm) := C104_recovered f (solid f) (n := 6) (by cases f <;> decide) (volumes_injective 6)
  (volumes_pos 6) fun _ => rfl
example := C104_three .birchMurnaghan (.inr rfl) (x := 60) (y := 65) (z := 70) (by norm_num) (by norm_num) (by norm_num)

theorem psolid (f : Formulation) : PSolid f 3 (parsAfter f ⟨100, 5, -1 / 100, 70⟩ 3 false true) := by
  cases f <;> simp [PSolid, parsAfter, setKp, setKpp, Regular, Stiffening, impliedKp, impliedKpLinear] <;> norm_num

example (f : Formulation) := C105_determined f 3 false (psolid f) (psolid f) (n := 6)
  (by cases f <;> simp [enoughP]) (volumes_injective 6) (volumes_pos 6) fun _ => rfl
example (f : Formulation) := C105_recovered f 3 false true (psolid f) (n := 6) (wV := 1) (wP := 1)
  (by cases f <;> simp [enoughP]) (volumes_injective 6) (volumes_pos 6) (fun _ => one_pos) (fun _ => one_pos)
  fun _ => rfl
example := C105_fourth_violated (v := 70) (v' := 75) (by norm_num) (by norm_num) (by norm_num)

/-! ### Axes -/

example := C71_axial_murnaghan_partial 160 4 0 0 4.2 4.1 (by norm_num) (by norm_num) 3 3 true true
example := C71_axial_violated .vinet (by simp) periclase 160 4.2 (by norm_num) (by norm_num)

/-! ### The normalized-pressure plot -/

example := C106_curve_partial (f := .vinet) (.inr (.inr rfl)) periclase hV0 (V := [70, 65]) (P := [0, 10]) (by simp) none
  (order := 3) (linear := true) (by simp)
example := C106_data (f := .vinet) (.inr (.inr rfl)) periclase (V_0 := 75) (by norm_num) (V := [70, 65]) (P := [10, 20]) 0
  none 3 false
example := C106_line (f := .naturalStrain) (.inr (.inl rfl)) hK0 hV0 (order := 3) (by norm_num) true (V := 70)
  (by norm_num) (by norm_num [periclase]) rfl
  (F := (eos .naturalStrain (parsAfter .naturalStrain periclase 3 true true) 70 3 true false).1 /
    factor .naturalStrain (parsAfter .naturalStrain periclase 3 true true).V0 70)
example := C106_axial_violated (f := .birchMurnaghan) (.inl rfl) hK0 hV0 (V := [70, 65]) (P := [0, 10]) (by simp) none rfl
example := C106_errors_violated (f := .vinet) (.inr (.inr rfl)) periclase (V_0 := 75) (s_0 := 0) (v := 70) (s := 0.1)
  (by norm_num) (by norm_num) (by norm_num) (by norm_num) (by norm_num) (V := [70]) (P := [10]) (sv := [0.1])
  (sp := [0.2]) 0 0 3 false
example := C106_none (f := .tait) (.inr rfl) periclase 75 0 (V := [70, 65]) (P := [10, 20]) rfl 3 false
example := C106_pressure_errors_violated (f := .birchMurnaghan) (.inl rfl) periclase (V_0 := 75) (s_0 := 0) (v := 70)
  (s := 0.1) (x := 10) (t := 0.2) (by norm_num) (by norm_num) (by norm_num) (by norm_num) (by norm_num) (by norm_num)
  (V := [70]) (P := [10]) (sv := [0.1]) (sp := [0.2]) 0 0 3 false
example := C106_vinet_errors_violated periclase (V_0 := 10) (s_0 := 0) (v := 9) (s := 0.1) (x := 10) (by norm_num)
  (by norm_num) (by norm_num) (by
    have : ((9:ℝ) / 10) ^ (1:ℝ) ≤ ((9:ℝ) / 10) ^ ((2:ℝ) / 3) :=
      Real.rpow_le_rpow_of_exponent_ge (by norm_num) (by norm_num) (by norm_num)
    rw [Real.rpow_one] at this
    linarith) (by norm_num) (by norm_num) (by norm_num) (V := [9]) (P := [10]) (sv := [0.1]) (sv' := [0.4]) (sp := [0])
  0 0 3 false

/-! ### Units -/

example (f : Formulation) := C124_curve (l := 1000) (m := 10) f (by norm_num) (by norm_num) periclase 70 3 false true
example (f : EForm) := C124_energy f (l := 1000) (a := 27) (by norm_num) (by norm_num) 5 ⟨-5, 1, 4.2, 70⟩ 60
example (f : EForm) : Best f (fun i : Fin 6 => 1000 * (60 + 3 * (i : ℝ)))
    (fun i => 27 * energy f (-5) 1 4.2 70 (60 + 3 * (i : ℝ)) + 5) (Spec.EPars.convert 1000 27 5 ⟨-5, 1, 4.2, 70⟩) :=
  (C124_energy_fit f (l := 1000) (a := 27) (by norm_num) (by norm_num) 5 _ _ _).2
    ((C104_recovered f (solid f) (n := 6) (by cases f <;> decide) (volumes_injective 6)
      (volumes_pos 6) (fun _ => rfl) _).2 rfl)

end Verif.EoS.Cases
