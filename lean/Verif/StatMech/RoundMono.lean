/-
Rounding to 53 binary digits keeps the order of numbers.
-/
import Verif.StatMech.BinaryProps

noncomputable section

namespace Verif.StatMech

theorem nearestEven_mono : Monotone nearestEven := by
  intro x y h
  have hf : ⌊x⌋ ≤ ⌊y⌋ := Int.floor_le_floor h
  have r : ∀ z, ⌊z⌋ ≤ nearestEven z ∧ nearestEven z ≤ ⌊z⌋ + 1 := fun z => by
    unfold nearestEven
    split_ifs <;> omega
  rcases hf.lt_or_eq with hlt | heq
  · linarith [(r x).2, (r y).1]
  · unfold nearestEven
    rw [heq]
    split_ifs <;> first | omega | (exfalso; linarith)

theorem nearestEven_int (n : ℤ) : nearestEven n = n := by
  unfold nearestEven
  rw [if_pos (by simp)]
  simp

theorem nearestEven_neg (x : ℝ) : nearestEven (-x) = -nearestEven x := by
  have h1 := Int.floor_le x
  have h2 := Int.lt_floor_add_one x
  rcases eq_or_lt_of_le h1 with h | h
  · rw [← h, ← Int.cast_neg, nearestEven_int, nearestEven_int]
  · have e : ⌊-x⌋ = -⌊x⌋ - 1 := by
      rw [Int.floor_eq_iff]
      push_cast
      constructor <;> linarith
    unfold nearestEven
    rw [e]
    push_cast
    split_ifs <;> first | omega | (exfalso; linarith)

theorem roundBinary_neg (x : ℝ) : roundBinary (-x) = -roundBinary x := by
  simp only [roundBinary, abs_neg, neg_div, nearestEven_neg]
  push_cast
  ring

theorem roundBinary_zero : roundBinary 0 = 0 := by simp [roundBinary, nearestEven]

/-- A rounded positive number lies between the powers of two around it. -/
theorem roundBinary_range {x : ℝ} (hx : 0 < x) :
    (2 : ℝ) ^ Int.log 2 x ≤ roundBinary x ∧ roundBinary x ≤ 2 ^ (Int.log 2 x + 1) := by
  have h1 := Int.zpow_log_le_self (b := 2) (by norm_num) hx
  have h2 := Int.lt_zpow_succ_log_self (b := 2) (by norm_num) x
  push_cast at h1 h2
  simp only [roundBinary, abs_of_pos hx]
  set e := Int.log 2 x with he
  have h3 : (0 : ℝ) < 2 ^ (e - 52) := by positivity
  have p : ∀ n : ℕ, ((2 : ℝ) ^ n) * 2 ^ (e - 52) = 2 ^ (e - 52 + n) := fun n => by
    rw [zpow_add₀ (by norm_num), zpow_natCast, mul_comm]
  have q1 : ((2 ^ 52 : ℤ) : ℝ) * 2 ^ (e - 52) = 2 ^ e := by
    rw [show ((2 ^ 52 : ℤ) : ℝ) = (2 : ℝ) ^ 52 by norm_num, p 52]
    congr 1
    push_cast
    ring
  have q2 : ((2 ^ 53 : ℤ) : ℝ) * 2 ^ (e - 52) = 2 ^ (e + 1) := by
    rw [show ((2 ^ 53 : ℤ) : ℝ) = (2 : ℝ) ^ 53 by norm_num, p 53]
    congr 1
    push_cast
    ring
  constructor
  · rw [← q1]
    refine mul_le_mul_of_nonneg_right (Int.cast_le.2 ?_) h3.le
    rw [← nearestEven_int (2 ^ 52)]
    refine nearestEven_mono ?_
    rw [le_div_iff₀ h3, q1]
    exact h1
  · rw [← q2]
    refine mul_le_mul_of_nonneg_right (Int.cast_le.2 ?_) h3.le
    rw [← nearestEven_int (2 ^ 53)]
    refine nearestEven_mono ?_
    rw [div_le_iff₀ h3, q2]
    exact h2.le

theorem roundBinary_mono_pos {x y : ℝ} (hx : 0 < x) (h : x ≤ y) : roundBinary x ≤ roundBinary y := by
  have hy := hx.trans_le h
  have hl := Int.log_mono_right (b := 2) hx h
  rcases hl.lt_or_eq with hlt | heq
  · refine (roundBinary_range hx).2.trans (le_trans ?_ (roundBinary_range hy).1)
    exact zpow_le_zpow_right₀ (by norm_num) (by omega)
  · simp only [roundBinary, abs_of_pos hx, abs_of_pos hy]
    rw [heq]
    have h3 : (0 : ℝ) < 2 ^ (Int.log 2 y - 52) := by positivity
    exact mul_le_mul_of_nonneg_right (Int.cast_le.2 (nearestEven_mono (div_le_div_of_nonneg_right h h3.le))) h3.le

/-- Rounding to 53 binary digits is monotone. -/
theorem roundBinary_mono : Monotone roundBinary := by
  have pos : ∀ x, 0 < x → 0 < roundBinary x := fun x hx => lt_of_lt_of_le (by positivity) (roundBinary_range hx).1
  have neg : ∀ x, x < 0 → roundBinary x < 0 := fun x hx => by
    have := pos (-x) (by linarith)
    rw [roundBinary_neg] at this
    linarith
  intro x y h
  rcases lt_trichotomy x 0 with hx | rfl | hx
  · rcases lt_trichotomy y 0 with hy | rfl | hy
    · have := roundBinary_mono_pos (x := -y) (y := -x) (by linarith) (by linarith)
      rw [roundBinary_neg, roundBinary_neg] at this
      linarith
    · rw [roundBinary_zero]
      exact (neg x hx).le
    · exact ((neg x hx).trans (pos y hy)).le
  · rcases h.lt_or_eq with hy | rfl
    · rw [roundBinary_zero]
      exact (pos y hy).le
    · exact le_rfl
  · exact roundBinary_mono_pos hx h

end Verif.StatMech
