/-
C162 on the computer: a solid whose numbers come out right, and a modified Tait equation with a pressure at its reference volume.
-/
import Verif.EoS.BinaryProps

noncomputable section

namespace Verif.EoS.Rounded
open Verif.EoS Verif.EoS.Rounded.Spec
open Verif.Elastic.Rounded (u_pos u_le)
open Verif.Elastic.Rounded.Spec (u)
open Verif.StatMech (roundBinary nearestEven roundBinary_mono roundBinary_zero roundBinary_err nearestEven_int)

/-- IEEE 754 with correctly rounded library functions. -/
def computer : Machine where
  rnd := roundBinary
  pow x y := roundBinary (x ^ y)
  npow x n := roundBinary (x ^ n)
  log x := roundBinary (Real.log x)
  exp x := roundBinary (Real.exp x)

/-- **C162 (computer).**  IEEE 754 with correctly rounded library functions is accurate. -/
theorem C162_computer : Accurate computer := by
  have h (x : ℝ) : |roundBinary x - x| ≤ u * |x| := roundBinary_err x
  have h2 (x : ℝ) : |roundBinary x - x| ≤ 2 * u * |x| :=
    (h x).trans (mul_le_mul_of_nonneg_right (by linarith [u_pos]) (abs_nonneg _))
  refine ⟨h, fun x y hx => ?_, fun x n => h2 _, fun x _ => h2 _, fun x => ?_⟩
  · have := h2 (x ^ y)
    rwa [abs_of_pos (a := x ^ y) (Real.rpow_pos_of_pos hx y)] at this
  · have := h2 (Real.exp x)
    rwa [abs_of_pos (a := Real.exp x) (Real.exp_pos x)] at this

/-- Rounding a number between two powers of two. -/
theorem round_eval (x : ℝ) (e : ℤ) (h1 : (2 : ℝ) ^ e ≤ x) (h2 : x < 2 ^ (e + 1)) :
    roundBinary x = nearestEven (x / 2 ^ (e - 52)) * 2 ^ (e - 52) := by
  have hx : 0 < x := lt_of_lt_of_le (by positivity) h1
  have hl : Int.log 2 x = e := by
    apply le_antisymm
    · have := (Int.lt_zpow_iff_log_lt (b := 2) (by norm_num) (x := e + 1) hx).1 (by push_cast; exact h2)
      omega
    · exact (Int.zpow_le_iff_le_log (b := 2) (by norm_num) hx).1 (by push_cast; exact h1)
  simp only [roundBinary, abs_of_pos hx, hl]

/-- A number with at most 53 binary digits is left alone. -/
theorem round_exact (x : ℝ) (e : ℤ) (n : ℤ) (h1 : (2 : ℝ) ^ e ≤ x) (h2 : x < 2 ^ (e + 1)) (hn : x / 2 ^ (e - 52) = n) :
    roundBinary x = x := by
  rw [round_eval x e h1 h2, hn, nearestEven_int, ← hn]
  field_simp

theorem round_one : roundBinary 1 = 1 :=
  round_exact 1 0 (2 ^ 52) (by norm_num) (by norm_num) (by norm_num [zpow_neg])

theorem computer_keepsOne : KeepsOne computer := ⟨round_one, fun y => by simp [computer, round_one]⟩

theorem computer_ordered : Ordered computer :=
  ⟨roundBinary_mono, fun _ _ _ hx h hz => roundBinary_mono (Real.rpow_le_rpow hx.le h hz)⟩

/-- A third order fit of periclase, compressed by a tenth: the five pressures of the computer are right. -/
example (f : Formulation) : |(eos computer f ⟨160, 4, 0, 75⟩ 68 3 false true).1 - (EoS.eos f ⟨160, 4, 0, 75⟩ 68 3 false true).1| ≤ 1.6e-8 := by
  refine (C162_pressure C162_computer f _ 68 3 false true ?_ (.inl ⟨rfl, by norm_num⟩)).trans ?_
  · cases f <;> constructor <;> norm_num [EoS.parsAfter, EoS.setKp, EoS.setKpp]
  · cases f <;> norm_num [tolerance]

example (f : Formulation) : Solid (EoS.parsAfter f ⟨160, 4, 0, 75⟩ 3 false true) 68 := by
  cases f <;> constructor <;> norm_num [EoS.parsAfter, EoS.setKp, EoS.setKpp]

example (f : Formulation) (V : ℝ) (h : Solid (EoS.parsAfter f ⟨160, 4, 0, 75⟩ 3 false true) V) :=
  C162_parameters C162_computer f ⟨160, 4, 0, 75⟩ V 3 false true h

/-- Energies in hartree of a cell of periclase (`K0 V0` is 2.7 hartree, the reference energy -275 hartree). -/
example (f : EForm) : |energy computer f (-275) 0.0054 4 500 460 - EoS.energy f (-275) 0.0054 4 500 460| ≤ 1e-10 := by
  refine (C162_energy C162_computer f _ _ _ _ _ ⟨?_, ?_, ?_, ?_, ?_, ?_⟩ fun _ => ?_).trans ?_ <;> norm_num [u, abs_of_neg]

example (f : EForm) : |pressure computer f 160 4 75 68 - EoS.pressure f 160 4 75 68| ≤ 1.6e-10 := by
  refine (C162_ev_pressure C162_computer f _ _ _ _ ⟨?_, ?_, ?_, ?_, ?_, ?_⟩).trans ?_ <;> norm_num

example : (eos computer .vinet ⟨160, 4, 0, 75⟩ 75 3 false true).1 = 0 :=
  C162_zero_partial C162_computer computer_keepsOne .vinet (by simp) ⟨160, 4, 0, 75⟩ (by norm_num) 3 false true

example : (eos computer .murnaghan ⟨160, 4, 0, 75⟩ 70 3 false true).1 ≤ (eos computer .murnaghan ⟨160, 4, 0, 75⟩ 68 3 false true).1 :=
  C162_order computer_ordered C162_computer ⟨160, 4, 0, 75⟩ (by norm_num) (by norm_num) (by norm_num) 68 70 (by norm_num) (by norm_num) 3
    false true

/-! ### The modified Tait equation at its reference volume -/

/-- A pressure derivative a little above 6. -/
def six : ℝ := 6 + 1 / 2 ^ 50

theorem round_six : roundBinary six = six :=
  round_exact six 2 (6 * 2 ^ 50 + 1) (by norm_num [six]) (by norm_num [six]) (by norm_num [six, zpow_neg])

theorem round_seven : roundBinary (1 + six) = 1 + six :=
  round_exact (1 + six) 2 (7 * 2 ^ 50 + 1) (by norm_num [six]) (by norm_num [six]) (by norm_num [six, zpow_neg])

theorem round_eight : roundBinary (1 + (1 + six)) = 8 := by
  rw [round_eval _ 3 (by norm_num [six]) (by norm_num [six])]
  have e : (1 + (1 + six)) / (2 : ℝ) ^ ((3 : ℤ) - 52) = ((2 ^ 52 : ℤ) : ℝ) + 1 / 2 := by norm_num [six, zpow_neg]
  have hf : ⌊((2 ^ 52 : ℤ) : ℝ) + 1 / 2⌋ = 2 ^ 52 := by
    rw [Int.floor_eq_iff]
    constructor <;> norm_num
  have : nearestEven (((2 ^ 52 : ℤ) : ℝ) + 1 / 2) = 2 ^ 52 := by
    unfold nearestEven
    rw [hf]
    norm_num
  rw [e, this]
  norm_num [zpow_neg]

theorem round_seven' : roundBinary (8 - 1) = 7 := by
  rw [show (8 : ℝ) - 1 = 7 by norm_num]
  exact round_exact 7 2 (7 * 2 ^ 50) (by norm_num) (by norm_num) (by norm_num [zpow_neg])

theorem round_neg (x : ℝ) : roundBinary (-x) = -roundBinary x := StatMech.roundBinary_neg x

/-- The base of the power is less than 1 by at least one unit in its last place. -/
theorem base_le : roundBinary (7 / (1 + six)) ≤ 1 - 1 / 2 ^ 53 := by
  have e : roundBinary (1 - 1 / 2 ^ 53) = 1 - 1 / 2 ^ 53 :=
    round_exact _ (-1) (2 ^ 53 - 1) (by norm_num) (by norm_num) (by norm_num [zpow_neg])
  rw [← e]
  exact roundBinary_mono (by norm_num [six])

/-- A power with an exponent below -2 makes it larger than 1. -/
theorem power_ge {x y : ℝ} (h0 : 0 < x) (h1 : x ≤ 1 - 1 / 2 ^ 53) (hy : y ≤ -2) : 1 + 1 / 2 ^ 52 ≤ roundBinary (x ^ y) := by
  have e : roundBinary (1 + 1 / 2 ^ 52) = 1 + 1 / 2 ^ 52 :=
    round_exact _ 0 (2 ^ 52 + 1) (by norm_num) (by norm_num) (by norm_num [zpow_neg])
  rw [← e]
  apply roundBinary_mono
  have a1 : x ^ (-2 : ℝ) ≤ x ^ y := Real.rpow_le_rpow_of_exponent_ge h0 (h1.trans (by norm_num)) hy
  have a2 : x ^ (-2 : ℝ) = (x ^ 2)⁻¹ := by
    rw [Real.rpow_neg h0.le, Real.rpow_two]
  have a4 : x ^ 2 ≤ (1 - 1 / 2 ^ 53) ^ 2 := by gcongr
  have a5 : (1 + 1 / 2 ^ 52 : ℝ) ≤ (x ^ 2)⁻¹ := by
    rw [le_inv_comm₀ (by norm_num) (by positivity)]
    refine a4.trans ?_
    norm_num
  linarith [a2]

/-- **C162 (modified Tait).**  With `K0 = V0 = 1` and a pressure derivative one unit in the last place above 6, the third order
modified Tait equation gives a positive pressure at its reference volume. -/
theorem C162_tait_violated :
    Solid (EoS.parsAfter .tait ⟨1, six, 0, 1⟩ 3 false true) 1 ∧ (EoS.eos .tait ⟨1, six, 0, 1⟩ 1 3 false true).1 = 0 ∧
      0 < (eos computer .tait ⟨1, six, 0, 1⟩ 1 3 false true).1 := by
  have hs : (6 : ℝ) < six ∧ six < 6.001 := by norm_num [six]
  have pos {x : ℝ} (hx : 0 < x) : 0 < roundBinary x := rnd_pos C162_computer hx
  refine ⟨?_, ?_, ?_⟩
  · constructor <;> norm_num [EoS.parsAfter, EoS.setKp, EoS.setKpp, six]
  · have e : 1 + six + -six = (1 : ℝ) := by ring
    have e' : (1 + six) / (1 + six) = (1 : ℝ) := div_self (by linarith)
    simp [EoS.eos, EoS.parsAfter, EoS.setKp, EoS.setKpp, EoS.formula, e, e']
  · have e : 1 + six + -six = (1 : ℝ) := by ring
    have hb : 0 < six - roundBinary (-six / (1 + six)) := by
      rw [neg_div, round_neg]
      have := pos (x := six / (1 + six)) (by apply div_pos <;> linarith)
      linarith
    have hd : roundBinary (roundBinary (six ^ 2) + six) + six ≥ 40 := by
      have h1 := (abs_le.1 (roundBinary_err (six ^ 2))).1
      have h2 := (abs_le.1 (roundBinary_err (roundBinary (six ^ 2) + six))).1
      have h3 : (36 : ℝ) ≤ six ^ 2 := by nlinarith
      rw [abs_of_pos (by linarith)] at h1
      have h4 : 0 < roundBinary (six ^ 2) + six := by linarith [pos (x := six ^ 2) (by linarith)]
      rw [abs_of_pos h4] at h2
      have h5 : StatMech.Spec.u ≤ 1e-6 := by norm_num [StatMech.Spec.u]
      have h6 : 0 ≤ StatMech.Spec.u := by norm_num [StatMech.Spec.u]
      nlinarith
    have k : (parsAfter computer .tait ⟨1, six, 0, 1⟩ 3 false true) = ⟨1, six, -six, 1⟩ := by
      simp [parsAfter, setKp, EoS.setKp, setKpp, computer, round_neg, round_six]
    have r1 : roundBinary (1 / 1) = 1 := by rw [div_one, round_one]
    have r2 : roundBinary (1 * -six) = -six := by rw [one_mul, round_neg, round_six]
    have r3 : roundBinary (six / 1) = six := by rw [div_one, round_six]
    have r4 : roundBinary ((1 + six) / 1) = 1 + six := by rw [div_one, round_seven]
    simp only [eos, k]
    simp only [formula, computer, round_seven, r2, e, round_one, r1, r3, r4, round_eight, round_seven', sub_neg_eq_add]
    have hc := pos (x := 1 / roundBinary (roundBinary (roundBinary (six ^ 2) + six) + six))
      (one_div_pos.2 (pos (by linarith)))
    set D := roundBinary (roundBinary (six ^ 2) + six) + six
    have hD : 39 ≤ roundBinary D := by
      have h1 := (abs_le.1 (roundBinary_err D)).1
      rw [abs_of_pos (by linarith)] at h1
      have h5 : StatMech.Spec.u ≤ 1e-6 := by norm_num [StatMech.Spec.u]
      nlinarith
    have hc2 : roundBinary (1 / roundBinary D) ≤ 1 / 3 := by
      have h1 := (abs_le.1 (roundBinary_err (1 / roundBinary D))).2
      have h2 : 1 / roundBinary D ≤ 1 / 39 := by gcongr
      have h3 : 0 < 1 / roundBinary D := by positivity
      rw [abs_of_pos h3] at h1
      have h5 : StatMech.Spec.u ≤ 1e-6 := by norm_num [StatMech.Spec.u]
      nlinarith
    have hy : roundBinary (-1 / roundBinary (1 / roundBinary D)) ≤ -2 := by
      rw [neg_div, round_neg]
      have h2 : 3 ≤ 1 / roundBinary (1 / roundBinary D) := by
        rw [le_div_iff₀ hc]
        linarith
      have h1 := (abs_le.1 (roundBinary_err (1 / roundBinary (1 / roundBinary D)))).1
      rw [abs_of_pos (by linarith)] at h1
      have h5 : StatMech.Spec.u ≤ 1e-6 := by norm_num [StatMech.Spec.u]
      nlinarith
    have hp := power_ge (pos (x := 7 / (1 + six)) (div_pos (by norm_num) (by linarith))) base_le hy
    exact pos (mul_pos (pos (one_div_pos.2 (pos hb))) (pos (by linarith [show (0 : ℝ) < 1 / 2 ^ 52 by positivity])))

end Verif.EoS.Rounded
