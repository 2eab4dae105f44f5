/-
Proof work: how relative errors go through the operations.
-/
import Mathlib.Analysis.Convex.SpecificFunctions.Basic
import Mathlib.Analysis.SpecialFunctions.Exp
import Verif.StatMech.BinarySpec
import Verif.StatMech.Oscillator

noncomputable section

namespace Verif.StatMech
open Spec

/-- The bound for the logarithm of a factor `1 + δ` with `|δ| ≤ u`. -/
def e0 : ℝ := 1.2e-16

theorem e0_pos : 0 < e0 := by norm_num [e0]

/-- `a` is `A` up to a factor whose logarithm is at most `η`. -/
def Near (η a A : ℝ) : Prop := ∃ θ, |θ| ≤ η ∧ a = A * Real.exp θ

theorem Near.refl (a : ℝ) : Near 0 a a := ⟨0, by simp, by simp⟩

theorem Near.mono {η ζ a A : ℝ} (h : Near η a A) (hz : η ≤ ζ) : Near ζ a A := by
  obtain ⟨θ, h1, h2⟩ := h
  exact ⟨θ, h1.trans hz, h2⟩

theorem Near.nonneg {η a A : ℝ} (h : Near η a A) : 0 ≤ η := by
  obtain ⟨θ, h1, -⟩ := h
  exact (abs_nonneg _).trans h1

theorem Near.mul {η ζ a A b B : ℝ} (h : Near η a A) (h' : Near ζ b B) : Near (η + ζ) (a * b) (A * B) := by
  obtain ⟨θ, h1, rfl⟩ := h
  obtain ⟨φ, h2, rfl⟩ := h'
  exact ⟨θ + φ, (abs_add_le _ _).trans (add_le_add h1 h2), by rw [Real.exp_add]; ring⟩

theorem Near.div {η ζ a A b B : ℝ} (h : Near η a A) (h' : Near ζ b B) : Near (η + ζ) (a / b) (A / B) := by
  obtain ⟨θ, h1, rfl⟩ := h
  obtain ⟨φ, h2, rfl⟩ := h'
  refine ⟨θ - φ, (abs_sub _ _).trans (add_le_add h1 h2), ?_⟩
  rw [Real.exp_sub, mul_div_mul_comm]

theorem Near.trans {η ζ a b A : ℝ} (h : Near η a b) (h' : Near ζ b A) : Near (η + ζ) a A := by
  obtain ⟨θ, h1, rfl⟩ := h
  obtain ⟨φ, h2, rfl⟩ := h'
  exact ⟨θ + φ, (abs_add_le _ _).trans (add_le_add h1 h2), by rw [Real.exp_add]; ring⟩

theorem Near.pos {η a A : ℝ} (h : Near η a A) (hA : 0 < A) : 0 < a := by
  obtain ⟨θ, -, rfl⟩ := h
  exact mul_pos hA (Real.exp_pos _)

theorem Near.add {η a A b B : ℝ} (h : Near η a A) (h' : Near η b B) (hA : 0 < A) (hB : 0 ≤ B) :
    Near η (a + b) (A + B) := by
  obtain ⟨θ, h1, rfl⟩ := h
  obtain ⟨φ, h2, rfl⟩ := h'
  rw [abs_le] at h1 h2
  have hs : 0 < A + B := by linarith
  have ht : 0 < A * Real.exp θ + B * Real.exp φ := by positivity
  refine ⟨Real.log ((A * Real.exp θ + B * Real.exp φ) / (A + B)), ?_, ?_⟩
  · rw [abs_le]
    constructor
    · rw [Real.le_log_iff_exp_le (by positivity), le_div_iff₀ hs, mul_comm, add_mul]
      exact add_le_add (mul_le_mul_of_nonneg_left (Real.exp_le_exp.2 h1.1) hA.le)
        (mul_le_mul_of_nonneg_left (Real.exp_le_exp.2 h2.1) hB)
    · rw [Real.log_le_iff_le_exp (by positivity), div_le_iff₀ hs, mul_comm (Real.exp η), add_mul]
      exact add_le_add (mul_le_mul_of_nonneg_left (Real.exp_le_exp.2 h1.2) hA.le)
        (mul_le_mul_of_nonneg_left (Real.exp_le_exp.2 h2.2) hB)
  · rw [Real.exp_log (by positivity)]
    field_simp

/-- A factor near one. -/
theorem near_factor {δ v η : ℝ} (hv : |δ| ≤ v) (h1 : v < 1) (hη : v / (1 - v) ≤ η) : Near η (1 + δ) 1 := by
  rw [abs_le] at hv
  have hp : 0 < 1 + δ := by linarith
  have hv0 : 0 ≤ v := by linarith
  have hd : v ≤ v / (1 - v) := by rw [le_div_iff₀ (by linarith)]; nlinarith
  refine ⟨Real.log (1 + δ), ?_, by rw [Real.exp_log hp, one_mul]⟩
  rw [abs_le]
  constructor
  · have h2 := Real.add_one_le_exp (v / (1 - v))
    rw [Real.le_log_iff_exp_le hp, ← neg_le_neg_iff] at *
    have h3 : Real.exp (-η) ≤ Real.exp (-(v / (1 - v))) := Real.exp_le_exp.2 (by linarith)
    have h4 : Real.exp (-(v / (1 - v))) ≤ 1 - v := by
      rw [Real.exp_neg, inv_le_comm₀ (Real.exp_pos _) (by linarith)]
      have : (1 - v)⁻¹ = v / (1 - v) + 1 := by
        have : (1 - v) ≠ 0 := by linarith
        field_simp
        ring
      rw [this]
      linarith
    linarith
  · have := Real.log_le_sub_one_of_pos hp
    linarith

theorem near_of_err {v η a A : ℝ} (h : |a - A| ≤ v * |A|) (h1 : v < 1) (hη : v / (1 - v) ≤ η) (hv : 0 ≤ v) :
    Near η a A := by
  rcases eq_or_ne A 0 with rfl | hA
  · simp only [sub_zero, abs_zero, mul_zero] at h
    have : a = 0 := by simpa using h
    have h3 : 0 ≤ η := le_trans (div_nonneg hv (by linarith)) hη
    exact ⟨0, by simpa using h3, by simp [this]⟩
  · have h2 : |(a - A) / A| ≤ v := by
      rw [abs_div, div_le_iff₀ (abs_pos.2 hA)]
      exact h
    obtain ⟨θ, h3, h4⟩ := near_factor h2 h1 hη
    refine ⟨θ, h3, ?_⟩
    rw [one_mul] at h4
    rw [← h4]
    field_simp
    ring

variable {a : Arith}

theorem near_rnd (ha : Accurate a) (x : ℝ) : Near e0 (a.rnd x) x :=
  near_of_err (ha.rnd x) (by norm_num [u]) (by norm_num [u, e0]) (by norm_num [u])

theorem Near.rnd {η b B : ℝ} (h : Near η b B) (ha : Accurate a) : Near (η + e0) (a.rnd b) B :=
  ((near_rnd ha b).trans h).mono (by linarith)

theorem near_exp (ha : Accurate a) (x : ℝ) : Near (2 * e0) (a.exp x) (Real.exp x) :=
  near_of_err (v := 2 * u) (by simpa [abs_of_pos (Real.exp_pos x)] using ha.exp x) (by norm_num [u])
    (by norm_num [u, e0]) (by norm_num [u])

theorem near_expm1 (ha : Accurate a) (x : ℝ) : Near (2 * e0) (a.expm1 x) (Real.exp x - 1) :=
  near_of_err (v := 2 * u) (ha.expm1 x) (by norm_num [u]) (by norm_num [u, e0]) (by norm_num [u])

theorem near_sq (ha : Accurate a) (x : ℝ) : Near (2 * e0) (a.sq x) (x ^ 2) :=
  near_of_err (v := 2 * u) (by simpa [abs_of_nonneg (sq_nonneg x)] using ha.sq x) (by norm_num [u])
    (by norm_num [u, e0]) (by norm_num [u])

theorem near_milli (ha : Accurate a) : Near (2 * e0) a.milli (1 / 1000) := by
  refine near_of_err (v := 2 * u) ?_ (by norm_num [u]) (by norm_num [u, e0]) (by norm_num [u])
  rw [abs_of_pos (a := (1 / 1000 : ℝ)) (by norm_num)]
  exact ha.milli

/-! ### Errors of the argument -/

theorem exp_sub_one_le {θ η : ℝ} (h : |θ| ≤ η) (hη : η ≤ 1 / 100) : |Real.exp θ - 1| ≤ 1.01 * η := by
  have h1 : |θ| ≤ 1 := by linarith
  have h2 := Real.abs_exp_sub_one_sub_id_le h1
  have h3 : |Real.exp θ - 1| ≤ |Real.exp θ - 1 - θ| + |θ| := by
    have := abs_add_le (Real.exp θ - 1 - θ) θ
    simpa using this
  have h4 : θ ^ 2 ≤ 1 / 100 * |θ| := by
    rw [← sq_abs]
    nlinarith [abs_nonneg θ]
  norm_num
  linarith

/-- An error bound from `Near`. -/
theorem Near.err {η b B : ℝ} (h : Near η b B) (hη : η ≤ 1 / 100) : |b - B| ≤ 1.01 * η * |B| := by
  obtain ⟨θ, h1, rfl⟩ := h
  have : B * Real.exp θ - B = B * (Real.exp θ - 1) := by ring
  rw [this, abs_mul, mul_comm]
  exact mul_le_mul_of_nonneg_right (exp_sub_one_le h1 hη) (abs_nonneg _)

theorem expm1_scale {X r : ℝ} (hX : 0 < X) (hr : 1 ≤ r) :
    Real.exp (r * X) - 1 ≤ r * Real.exp ((r - 1) * X) * (Real.exp X - 1) := by
  have hr0 : 0 < r := by linarith
  have hc := convexOn_exp.2
  have h := hc (Set.mem_univ (r * X)) (Set.mem_univ (0 : ℝ)) (div_nonneg (by linarith) hr0.le : 0 ≤ (r - 1) / r)
    (by positivity : 0 ≤ 1 / r) (by field_simp; ring)
  simp only [smul_eq_mul, mul_zero, add_zero, Real.exp_zero, mul_one] at h
  have e1 : (r - 1) / r * (r * X) = (r - 1) * X := by field_simp
  rw [e1] at h
  have h2 : r * Real.exp ((r - 1) * X) ≤ (r - 1) * Real.exp (r * X) + 1 := by
    calc r * Real.exp ((r - 1) * X) ≤ r * ((r - 1) / r * Real.exp (r * X) + 1 / r) :=
          mul_le_mul_of_nonneg_left h hr0.le
      _ = _ := by field_simp
  have e2 : Real.exp ((r - 1) * X) * Real.exp X = Real.exp (r * X) := by
    rw [← Real.exp_add]; congr 1; ring
  have e3 : r * Real.exp ((r - 1) * X) * (Real.exp X - 1) = r * Real.exp (r * X) - r * Real.exp ((r - 1) * X) := by
    rw [mul_sub, mul_assoc, e2, mul_one]
  rw [e3]
  linarith

/-- `expm1` of a perturbed argument. -/
theorem near_expm1_arg {η x X : ℝ} (h : Near η x X) (hX : 0 < X) (hη : η ≤ 1 / 100) :
    Near (η + 1.01 * η * X) (Real.exp x - 1) (Real.exp X - 1) := by
  obtain ⟨θ, h1, rfl⟩ := h
  have hA := exp_sub_one_pos hX
  have hx : 0 < X * Real.exp θ := mul_pos hX (Real.exp_pos _)
  have hB := exp_sub_one_pos hx
  refine ⟨Real.log ((Real.exp (X * Real.exp θ) - 1) / (Real.exp X - 1)), ?_, ?_⟩
  · have h2 := exp_sub_one_le h1 hη
    set r := Real.exp θ with hr
    have hr0 : 0 < r := Real.exp_pos _
    have hrX : |r - 1| * X ≤ 1.01 * η * X := mul_le_mul_of_nonneg_right h2 hX.le
    rw [abs_le] at h1
    rcases le_total 1 r with hle | hle
    · have h3 := expm1_scale hX hle
      rw [mul_comm] at h3
      have h4 : 1 ≤ (Real.exp (X * r) - 1) / (Real.exp X - 1) := by
        rw [le_div_iff₀ hA, one_mul]
        have : Real.exp X ≤ Real.exp (X * r) := Real.exp_le_exp.2 (by nlinarith)
        linarith
      rw [abs_of_nonneg (Real.log_nonneg h4), Real.log_le_iff_le_exp (by positivity), div_le_iff₀ hA]
      refine h3.trans (mul_le_mul_of_nonneg_right ?_ hA.le)
      rw [hr, ← Real.exp_add]
      refine Real.exp_le_exp.2 ?_
      rw [← hr]
      rw [abs_of_nonneg (by linarith)] at hrX
      linarith
    · have h3 := expm1_scale (X := X * r) hx (r := 1 / r) (by rw [le_div_iff₀ hr0]; linarith)
      have e1 : 1 / r * (X * r) = X := by field_simp
      have e2 : (1 / r - 1) * (X * r) = (1 - r) * X := by field_simp
      rw [e1, e2] at h3
      have h4 : (Real.exp (X * r) - 1) / (Real.exp X - 1) ≤ 1 := by
        rw [div_le_one hA]
        have : Real.exp (X * r) ≤ Real.exp X := Real.exp_le_exp.2 (by nlinarith)
        linarith
      rw [abs_of_nonpos (Real.log_nonpos (by positivity) h4), neg_le, Real.le_log_iff_exp_le (by positivity),
        le_div_iff₀ hA]
      have h5 : Real.exp (-(η + 1.01 * η * X)) ≤ r * Real.exp (-((1 - r) * X)) := by
        rw [hr, ← Real.exp_add]
        refine Real.exp_le_exp.2 ?_
        rw [← hr]
        rw [abs_of_nonpos (by linarith)] at hrX
        linarith
      have h6 : r * Real.exp (-((1 - r) * X)) * (Real.exp X - 1) ≤ Real.exp (X * r) - 1 := by
        calc _ ≤ r * Real.exp (-((1 - r) * X)) * (1 / r * Real.exp ((1 - r) * X) * (Real.exp (X * r) - 1)) :=
              mul_le_mul_of_nonneg_left h3 (by positivity)
          _ = Real.exp (-((1 - r) * X)) * Real.exp ((1 - r) * X) * (Real.exp (X * r) - 1) := by field_simp
          _ = _ := by rw [← Real.exp_add]; simp
      exact (mul_le_mul_of_nonneg_right h5 hA.le).trans h6
  · rw [Real.exp_log (by positivity)]
    field_simp

/-- `exp` of a perturbed argument. -/
theorem near_exp_arg {η x X : ℝ} (h : Near η x X) (hX : 0 ≤ X) (hη : η ≤ 1 / 100) :
    Near (1.01 * η * X) (Real.exp x) (Real.exp X) ∧ Near (1.01 * η * X) (Real.exp (-x)) (Real.exp (-X)) := by
  obtain ⟨θ, h1, rfl⟩ := h
  have h2 := mul_le_mul_of_nonneg_right (exp_sub_one_le h1 hη) hX
  have e : |X * Real.exp θ - X| ≤ 1.01 * η * X := by
    have : X * Real.exp θ - X = (Real.exp θ - 1) * X := by ring
    rw [this, abs_mul, abs_of_nonneg hX]
    exact h2
  refine ⟨⟨X * Real.exp θ - X, e, ?_⟩, ⟨-(X * Real.exp θ - X), by rwa [abs_neg], ?_⟩⟩
  · rw [← Real.exp_add]; congr 1; ring
  · rw [← Real.exp_add]; congr 1; ring

end Verif.StatMech
