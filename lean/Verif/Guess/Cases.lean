/-
The theorems about the initial guesses applied to concrete data.
-/
import Verif.Guess.Props

noncomputable section

namespace Verif.Guess.Cases
open Verif.Poly Verif.Poly.Spec Verif.Guess Verif.Guess.Spec

variable {polyfit : Polyfit} {roots : List ℝ → List ℂ}

/-- Six volumes, in no order. -/
def V : Fin 6 → ℝ := ![10, 8, 9, 7.5, 9.5, 8.5]

/-- Their pressures. -/
def P : Fin 6 → ℝ := ![0, 30, 12, 41, 5, 20]

theorem V_inj : Function.Injective V := by
  intro a b h
  fin_cases a <;> fin_cases b <;> first | rfl | (exfalso; revert h; norm_num [V])

theorem P_inj : Function.Injective P := by
  intro a b h
  fin_cases a <;> fin_cases b <;> first | rfl | (exfalso; revert h; norm_num [P])

example (hfit : Fits polyfit) := C100_curves hfit (by norm_num) V_inj P_inj (hfit _ P V 3) (hfit _ V P 3)
example (hfit : Fits polyfit) := C100_order hfit (by norm_num) V_inj P_inj (Equiv.swap 0 3)
example (hfit : Fits polyfit) := C100_units hfit (by norm_num) V_inj P_inj (s := 0.6) (t := 1 / 160) (by norm_num) (by norm_num)

example (hr : RootFinder roots) (hfit : Fits polyfit) :=
  C101_parabola hr hfit (by norm_num) V_inj (E := fun k => -3 + 2 * (V k - 9) ^ 2) two_ne_zero (fun _ => rfl)
example (hr : RootFinder roots) (hfit : Fits polyfit) :=
  C101_curve hr hfit (by norm_num) V_inj (E := fun k => -3 + 2 * (V k - 9) ^ 2) (hfit _ _ _ 4)
    (C101_parabola hr hfit (by norm_num) V_inj two_ne_zero (fun _ => rfl))
example (hr : RootFinder roots) (hfit : Fits polyfit) :=
  C101_minimum_partial hr hfit (by norm_num) V_inj (E := fun k => cubic (-3) (-1 / 2) 9 12 (V k)) (by norm_num)
    (by norm_num) (by norm_num) (fun _ => rfl)
example (hr : RootFinder roots) (hfit : Fits polyfit) :=
  C101_maximum_violated hr hfit (by norm_num) V_inj (E := fun k => cubic (-3) (1 / 2) 6 9 (V k)) (by norm_num)
    (by norm_num) (by norm_num) (fun _ => rfl)
example (hr : RootFinder roots) (hfit : Fits polyfit) :=
  C101_flat hr hfit (by norm_num) V_inj (E := fun _ => -7) (fun _ => rfl)

end Verif.Guess.Cases
