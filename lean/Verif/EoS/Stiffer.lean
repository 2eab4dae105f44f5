/-
Property C184: how the pressures and volumes of a third-order equation of state depend on its parameters.
-/
import Mathlib.Analysis.Convex.SpecificFunctions.Basic
import Mathlib.Analysis.Convex.Slope
import Verif.EoS.Props

namespace Verif.EoS
open Verif.EoS.Spec

/-! ### Lemmas -/

/-- The third-order pressure, written out. -/
theorem third_order (f : Formulation) (hf : f ≠ .tait) (K0 Kp Kpp V0 V : ℝ) (hK0 : K0 ≠ 0) (linear : Bool) :
    (eos f ⟨K0, Kp, Kpp, V0⟩ V 3 linear true).1 = K0 * match f with
      | .murnaghan => ((V0 / V) ^ Kp - 1) / Kp
      | .birchMurnaghan => 3 * (0.5 * ((V0 / V) ^ ((2:ℝ) / 3) - 1)) * (1 + 2 * (0.5 * ((V0 / V) ^ ((2:ℝ) / 3) - 1))) ^ (2.5 : ℝ) *
          (1 + 1.5 * (Kp - 4) * (0.5 * ((V0 / V) ^ ((2:ℝ) / 3) - 1)))
      | .naturalStrain => 3 * (V0 / V) * (1 / 3 * Real.log (V0 / V)) * (1 + 1.5 * (Kp - 2) * (1 / 3 * Real.log (V0 / V)))
      | .vinet => 3 * ((1 - (V / V0) ^ ((1:ℝ) / 3)) / (1 - (1 - (V / V0) ^ ((1:ℝ) / 3))) ^ 2) *
          Real.exp (1.5 * (Kp - 1) * (1 - (V / V0) ^ ((1:ℝ) / 3)))
      | .tait => 0 := by
  cases f
  · simp only [eos, parsAfter, setKp, setKpp, formula]
    simp
    ring
  · simp only [eos, parsAfter, setKp, setKpp, formula]
    simp only [Nat.reduceEqDiff, false_and, if_false, if_true, and_self, Nat.reduceLT]
    have e : K0 * (-1 / K0 * ((3 - Kp) * (4 - Kp) + 35 / 9)) + (Kp - 4) * (Kp - 3) + 35 / 9 = 0 := by
      field_simp
      ring
    rw [e]
    ring
  · simp only [eos, parsAfter, setKp, setKpp, formula]
    simp only [Nat.reduceEqDiff, false_and, if_false, if_true, and_self, Nat.reduceLT]
    have e : 1 + -1 / K0 * (1 + (Kp - 2) + (Kp - 2) ^ 2) * K0 + (Kp - 2) + (Kp - 2) ^ 2 = 0 := by
      field_simp
      ring
    rw [e]
    ring
  · simp only [eos, parsAfter, setKp, setKpp, formula]
    simp only [Nat.reduceEqDiff, false_and, if_false, if_true]
    ring
  · exact absurd rfl hf

/-- The power over the exponent grows with the exponent. -/
theorem power_over {x k k' : ℝ} (hx : 0 < x) (hx1 : x ≠ 1) (hk : 0 < k) (hkk : k < k') : (x ^ k - 1) / k < (x ^ k' - 1) / k' := by
  have hu : Real.log x ≠ 0 := by
    rw [Real.log_ne_zero]
    exact ⟨hx.ne', hx1, by linarith⟩
  rw [Real.rpow_def_of_pos hx, Real.rpow_def_of_pos hx]
  generalize Real.log x = u at hu
  have hk' : 0 < k' := hk.trans hkk
  have e : ∀ {k : ℝ}, 0 < k → (Real.exp (u * k) - 1) / k = u * ((Real.exp (u * k) - Real.exp 0) / (u * k - 0)) := by
    intro k hk
    rw [Real.exp_zero, sub_zero]
    field_simp
  rw [e hk, e hk']
  have S := fun {x y : ℝ} (hx : x ≠ 0) (hy : y ≠ 0) (h : x < y) =>
    strictConvexOn_exp.secant_strict_mono (a := 0) (x := x) (y := y) (Set.mem_univ _) (Set.mem_univ _) (Set.mem_univ _) hx hy h
  have n1 : u * k ≠ 0 := mul_ne_zero hu hk.ne'
  have n2 : u * k' ≠ 0 := mul_ne_zero hu hk'.ne'
  rcases lt_or_gt_of_ne hu with h | h
  · exact mul_lt_mul_of_neg_left (S n2 n1 (mul_lt_mul_of_neg_left hkk h)) h
  · exact mul_lt_mul_of_pos_left (S n1 n2 (mul_lt_mul_of_pos_left hkk h)) h

theorem third_stiffening (f : Formulation) (hf : f ≠ .tait) (K0 Kp Kpp V0 V : ℝ) (hK0 : 0 < K0) (hKp : 0 < Kp)
    (hs : secondOrderKp f false 0 ≤ Kp) (linear : Bool) : Stiffening f (eos f ⟨K0, Kp, Kpp, V0⟩ V 3 linear true).2 :=
  C27_fits f ⟨K0, Kp, Kpp, V0⟩ V 3 linear (by norm_num) hK0 (by
    rw [C23_which_Kp]
    cases f <;> simp_all)

/-! ### Theorems -/

/-- C184: a greater bulk modulus multiplies every pressure of a third-order fit by the same factor. -/
theorem C184_bulk (f : Formulation) (hf : f ≠ .tait) (K0 Kp Kpp V0 V r : ℝ) (hK0 : 0 < K0) (hr : 0 < r) (linear : Bool) :
    (eos f ⟨r * K0, Kp, Kpp, V0⟩ V 3 linear true).1 = r * (eos f ⟨K0, Kp, Kpp, V0⟩ V 3 linear true).1 := by
  rw [third_order f hf _ _ _ _ _ (by positivity), third_order f hf _ _ _ _ _ hK0.ne', mul_assoc]

/-- C184: a greater `K'` gives a higher pressure at every volume but `V0`. -/
theorem C184_pressure (f : Formulation) (hf : f ≠ .tait) (K0 Kp Kp' Kpp Kpp' V0 V : ℝ) (hK0 : 0 < K0) (hV0 : 0 < V0) (hV : 0 < V)
    (hne : V ≠ V0) (hKp : 0 < Kp) (hlt : Kp < Kp') (linear linear' : Bool) :
    (eos f ⟨K0, Kp, Kpp, V0⟩ V 3 linear true).1 < (eos f ⟨K0, Kp', Kpp', V0⟩ V 3 linear' true).1 := by
  rw [third_order f hf _ _ _ _ _ hK0.ne', third_order f hf _ _ _ _ _ hK0.ne']
  refine mul_lt_mul_of_pos_left ?_ hK0
  have hx : 0 < V0 / V := by positivity
  have hx1 : V0 / V ≠ 1 := fun h => hne ((div_eq_one_iff_eq hV.ne').1 h).symm
  cases f
  · exact power_over hx hx1 hKp hlt
  · show 3 * _ * _ * _ < 3 * _ * _ * _
    have hy : (V0 / V) ^ ((2:ℝ) / 3) ≠ 1 := fun h => hx1 <| by
      exact (Real.rpow_left_inj hx.le zero_le_one (by norm_num)).1 (h.trans (Real.one_rpow _).symm)
    have hp : 0 < (V0 / V) ^ ((2:ℝ) / 3) := by positivity
    generalize (V0 / V) ^ ((2:ℝ) / 3) = y at hy hp
    have e : 1 + 2 * (0.5 * (y - 1)) = y := by ring
    rw [e]
    have hq : 0 < y ^ (2.5 : ℝ) := by positivity
    generalize y ^ (2.5 : ℝ) = z at hq
    have hs : 0 < (y - 1) ^ 2 := by
      have : y - 1 ≠ 0 := sub_ne_zero.2 hy
      positivity
    have := mul_pos (mul_pos hs hq) (sub_pos.2 hlt)
    nlinarith
  · show 3 * _ * _ * _ < 3 * _ * _ * _
    have hu : Real.log (V0 / V) ≠ 0 := by
      rw [Real.log_ne_zero]
      exact ⟨hx.ne', hx1, by linarith⟩
    generalize Real.log (V0 / V) = u at hu
    have hs : 0 < u ^ 2 := by positivity
    have := mul_pos (mul_pos hs hx) (sub_pos.2 hlt)
    nlinarith
  · show 3 * (_ / _) * _ < 3 * (_ / _) * _
    have hz : 0 < V / V0 := by positivity
    have hz1 : V / V0 ≠ 1 := fun h => hne ((div_eq_one_iff_eq hV0.ne').1 h)
    have hy : (V / V0) ^ ((1:ℝ) / 3) ≠ 1 := fun h => hz1 <| by
      exact (Real.rpow_left_inj hz.le zero_le_one (by norm_num)).1 (h.trans (Real.one_rpow _).symm)
    have hp : 0 < (V / V0) ^ ((1:ℝ) / 3) := by positivity
    generalize (V / V0) ^ ((1:ℝ) / 3) = y at hy hp
    rw [sub_sub_cancel]
    have hq : 0 < y ^ 2 := by positivity
    have e : ∀ E, 3 * ((1 - y) / y ^ 2) * E = 3 / y ^ 2 * ((1 - y) * E) := fun E => by ring
    rw [e, e]
    refine mul_lt_mul_of_pos_left ?_ (by positivity)
    rcases lt_or_gt_of_ne hy with h | h
    · refine mul_lt_mul_of_pos_left (Real.exp_lt_exp.2 ?_) (by linarith)
      nlinarith
    · refine mul_lt_mul_of_neg_left (Real.exp_lt_exp.2 ?_) (by linarith)
      nlinarith
  · exact absurd rfl hf

/-- C184: at the same positive pressure the solid with the greater `K'` has the larger volume, when this `K'` is not below the
second-order value of the formulation. -/
theorem C184_volume (f : Formulation) (hf : f ≠ .tait) (K0 Kp Kp' Kpp Kpp' V0 V V' : ℝ) (hK0 : 0 < K0) (hV0 : 0 < V0)
    (hKp : 0 < Kp) (hlt : Kp < Kp') (linear linear' : Bool)
    (hs : secondOrderKp f false 0 ≤ Kp') (hV : 0 < V) (hVV0 : V < V0) (hV' : 0 < V') (hVV0' : V' ≤ V0)
    (h : (eos f ⟨K0, Kp, Kpp, V0⟩ V 3 linear true).1 = (eos f ⟨K0, Kp', Kpp', V0⟩ V' 3 linear' true).1) : V < V' := by
  have anti := (C27_compression f ⟨K0, Kp', Kpp', V0⟩ 3 linear' true hV0 hK0
    (third_stiffening f hf K0 Kp' Kpp' V0 V0 hK0 (hKp.trans hlt) hs linear')).1
  have lt := C184_pressure f hf K0 Kp Kp' Kpp Kpp' V0 V hK0 hV0 hV hVV0.ne hKp hlt linear linear'
  rw [h] at lt
  exact (anti.lt_iff_gt ⟨hV', hVV0'⟩ ⟨hV, hVV0.le⟩).1 lt

/-- C184: likewise for a greater bulk modulus. -/
theorem C184_stiffer (f : Formulation) (hf : f ≠ .tait) (K0 K0' Kp Kpp V0 V V' : ℝ) (hK0 : 0 < K0) (hV0 : 0 < V0)
    (hlt : K0 < K0') (linear : Bool) (hKp : 0 < Kp) (hs : secondOrderKp f false 0 ≤ Kp)
    (hV : 0 < V) (hVV0 : V < V0) (hV' : 0 < V') (hVV0' : V' ≤ V0)
    (h : (eos f ⟨K0, Kp, Kpp, V0⟩ V 3 linear true).1 = (eos f ⟨K0', Kp, Kpp, V0⟩ V' 3 linear true).1) : V < V' := by
  have hK0' := hK0.trans hlt
  have hst : ∀ K, 0 < K → Stiffening f (eos f ⟨K, Kp, Kpp, V0⟩ V0 3 linear true).2 := fun K hK =>
    third_stiffening f hf K Kp Kpp V0 V0 hK hKp hs linear
  have anti := (C27_compression f ⟨K0', Kp, Kpp, V0⟩ 3 linear true hV0 hK0' (hst _ hK0')).1
  have pos := (C27_compression f ⟨K0, Kp, Kpp, V0⟩ 3 linear true hV0 hK0 (hst _ hK0)).2 V hV hVV0
  have e := C184_bulk f hf K0 Kp Kpp V0 V (K0' / K0) hK0 (by positivity) linear
  rw [div_mul_cancel₀ _ hK0.ne'] at e
  have lt : (eos f ⟨K0', Kp, Kpp, V0⟩ V' 3 linear true).1 < (eos f ⟨K0', Kp, Kpp, V0⟩ V 3 linear true).1 := by
    rw [e, ← h]
    exact lt_mul_of_one_lt_left pos ((one_lt_div hK0).2 hlt)
  exact (anti.lt_iff_gt ⟨hV', hVV0'⟩ ⟨hV, hVV0.le⟩).1 lt

end Verif.EoS
