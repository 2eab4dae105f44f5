/-
The rounding of the model is the one of IEEE 754: to nearest, ties to even.
-/
import Verif.StatMech.RoundMono

noncomputable section

namespace Verif.StatMech

namespace Spec

/-- A number with at most 53 binary digits. -/
def Is53 (y : ℝ) : Prop := ∃ m e : ℤ, |m| < 2 ^ 53 ∧ y = m * (2 : ℝ) ^ e

end Spec
open Spec

/-- The nearest integer; of two the even one. -/
theorem nearestEven_spec (x : ℝ) (n : ℤ) : |x - nearestEven x| ≤ |x - n| ∧
    (|x - n| = |x - nearestEven x| → n ≠ nearestEven x → nearestEven x % 2 = 0) := by
  have h1 := Int.floor_le x
  have h2 := Int.lt_floor_add_one x
  have low : n ≤ ⌊x⌋ → (x - ⌊x⌋ ≤ |x - n| ∧ (n < ⌊x⌋ → x - ⌊x⌋ + 1 ≤ |x - n|)) := fun h => by
    have : (n : ℝ) ≤ ⌊x⌋ := by exact_mod_cast h
    rw [abs_of_nonneg (by linarith)]
    refine ⟨by linarith, fun h => ?_⟩
    have : (n : ℝ) + 1 ≤ ⌊x⌋ := by exact_mod_cast h
    linarith
  have high : ⌊x⌋ + 1 ≤ n → (⌊x⌋ + 1 - x ≤ |x - n| ∧ (⌊x⌋ + 1 < n → ⌊x⌋ + 1 - x + 1 ≤ |x - n|)) := fun h => by
    have : (⌊x⌋ : ℝ) + 1 ≤ n := by exact_mod_cast h
    rw [abs_of_nonpos (by linarith)]
    refine ⟨by linarith, fun h => ?_⟩
    have : (⌊x⌋ : ℝ) + 1 + 1 ≤ n := by exact_mod_cast h
    linarith
  have a1 : |x - ⌊x⌋| = x - ⌊x⌋ := abs_of_nonneg (by linarith)
  have a2 : |x - ((⌊x⌋ + 1 : ℤ) : ℝ)| = ⌊x⌋ + 1 - x := by push_cast; rw [abs_of_nonpos (by linarith)]; ring
  rcases le_or_gt n ⌊x⌋ with hn | hn
  · obtain ⟨l1, l2⟩ := low hn
    unfold nearestEven
    split_ifs with c1 c2 c3
    · rw [a1]
      exact ⟨l1, fun h h' => by have := l2 (lt_of_le_of_ne hn h'); linarith⟩
    · rw [a2]
      exact ⟨by linarith, fun h _ => by linarith⟩
    · exact ⟨by rw [a1]; exact l1, fun _ _ => c3⟩
    · rw [a2]
      exact ⟨by linarith, fun _ _ => by omega⟩
  · obtain ⟨l1, l2⟩ := high (by omega)
    unfold nearestEven
    split_ifs with c1 c2 c3
    · rw [a1]
      exact ⟨by linarith, fun h _ => by linarith⟩
    · rw [a2]
      exact ⟨l1, fun h h' => by have := l2 (by omega); linarith⟩
    · exact ⟨by rw [a1]; linarith, fun _ _ => c3⟩
    · rw [a2]
      exact ⟨l1, fun _ _ => by omega⟩

/-- A number of 53 digits is on the grid of `x`, or smaller than the power of two below `x`. -/
theorem grid_or_small {x : ℝ} (hx : 0 < x) {y : ℝ} (hy : Is53 y) :
    (∃ n : ℤ, y = n * (2 : ℝ) ^ (Int.log 2 x - 52)) ∨ |y| < 2 ^ Int.log 2 x := by
  obtain ⟨m, e, hm, rfl⟩ := hy
  rcases le_or_gt (Int.log 2 x - 52) e with h | h
  · left
    obtain ⟨d, hd⟩ := Int.eq_ofNat_of_zero_le (sub_nonneg.2 h)
    refine ⟨m * 2 ^ d, ?_⟩
    have : (2 : ℝ) ^ e = 2 ^ d * 2 ^ (Int.log 2 x - 52) := by
      rw [← zpow_natCast, ← zpow_add₀ (by norm_num)]
      congr 1
      push_cast at hd
      linarith
    rw [this]
    push_cast
    ring
  · right
    have hp : (0 : ℝ) < 2 ^ e := by positivity
    rw [abs_mul, abs_of_pos hp]
    have h1 : |(m : ℝ)| < 2 ^ (53 : ℤ) := by
      have : ((|m| : ℤ) : ℝ) < ((2 ^ 53 : ℤ) : ℝ) := by exact_mod_cast hm
      rw [Int.cast_abs] at this
      exact this.trans_eq (by norm_num)
    calc |(m : ℝ)| * 2 ^ e < 2 ^ (53 : ℤ) * 2 ^ e := mul_lt_mul_of_pos_right h1 hp
      _ = 2 ^ (53 + e) := by rw [← zpow_add₀ (by norm_num)]
      _ ≤ 2 ^ Int.log 2 x := zpow_le_zpow_right₀ (by norm_num) (by omega)

theorem round_nearest_pos {x : ℝ} (hx : 0 < x) {y : ℝ} (hy : Is53 y) : |x - roundBinary x| ≤ |x - y| ∧
    (|x - y| = |x - roundBinary x| → y ≠ roundBinary x → ∃ m e : ℤ, m % 2 = 0 ∧ 2 ^ 52 ≤ |m| ∧ roundBinary x = m * (2 : ℝ) ^ e) := by
  set E := Int.log 2 x with hE
  have hp : (0 : ℝ) < 2 ^ (E - 52) := by positivity
  have e1 : roundBinary x = nearestEven (x / 2 ^ (E - 52)) * 2 ^ (E - 52) := by
    simp only [roundBinary, abs_of_pos hx, hE]
  have dist : ∀ n : ℤ, |x - n * 2 ^ (E - 52)| = |x / 2 ^ (E - 52) - n| * 2 ^ (E - 52) := fun n => by
    rw [← abs_of_pos hp, ← abs_mul, abs_of_pos hp, sub_mul, div_mul_cancel₀ _ hp.ne']
  have grid : ∀ n : ℤ, |x - roundBinary x| ≤ |x - n * 2 ^ (E - 52)| ∧
      (|x - n * 2 ^ (E - 52)| = |x - roundBinary x| → (n : ℝ) * 2 ^ (E - 52) ≠ roundBinary x →
        ∃ m e : ℤ, m % 2 = 0 ∧ 2 ^ 52 ≤ |m| ∧ roundBinary x = m * (2 : ℝ) ^ e) := fun n => by
    obtain ⟨h1, h2⟩ := nearestEven_spec (x / 2 ^ (E - 52)) n
    rw [e1, dist, dist]
    refine ⟨mul_le_mul_of_nonneg_right h1 hp.le, fun h3 h4 => ⟨nearestEven (x / 2 ^ (E - 52)), E - 52, h2 ?_ ?_, ?_, rfl⟩⟩
    · exact mul_right_cancel₀ hp.ne' h3
    · rintro rfl; exact h4 rfl
    · have h5 := (roundBinary_range hx).1
      rw [e1, ← hE] at h5
      have h6 : ((2 ^ 52 : ℤ) : ℝ) * 2 ^ (E - 52) ≤ nearestEven (x / 2 ^ (E - 52)) * 2 ^ (E - 52) := by
        refine le_trans (le_of_eq ?_) h5
        rw [show ((2 ^ 52 : ℤ) : ℝ) = (2 : ℝ) ^ (52 : ℤ) by norm_num, ← zpow_add₀ (by norm_num)]
        congr 1
        ring
      have h7 : (2 ^ 52 : ℤ) ≤ nearestEven (x / 2 ^ (E - 52)) := by exact_mod_cast le_of_mul_le_mul_right h6 hp
      exact h7.trans (le_abs_self _)
  rcases grid_or_small hx hy with ⟨n, rfl⟩ | h
  · exact grid n
  · have hb := Int.zpow_log_le_self (b := 2) (by norm_num) hx
    push_cast at hb
    rw [← hE] at hb h
    have g := (grid (2 ^ 52)).1
    have e2 : (((2 ^ 52 : ℤ) : ℝ)) * 2 ^ (E - 52) = 2 ^ E := by
      rw [show ((2 ^ 52 : ℤ) : ℝ) = (2 : ℝ) ^ (52 : ℤ) by norm_num, ← zpow_add₀ (by norm_num)]
      congr 1
      ring
    rw [e2, abs_of_nonneg (sub_nonneg.2 hb)] at g
    have h8 : x - 2 ^ E < |x - y| := by
      have := le_abs_self (x - y)
      have := (abs_lt.1 h).2
      linarith
    exact ⟨by linarith, fun h9 => by linarith⟩

/-- C145, the rounding: every rounded number has 53 binary digits, no number of 53 digits is nearer, and if another one is just as
near the last of the 53 digits is 0. -/
theorem C145_rounding (x : ℝ) : Is53 (roundBinary x) ∧ ∀ y, Is53 y → |x - roundBinary x| ≤ |x - y| ∧
    (|x - y| = |x - roundBinary x| → y ≠ roundBinary x → ∃ m e : ℤ, m % 2 = 0 ∧ 2 ^ 52 ≤ |m| ∧ roundBinary x = m * (2 : ℝ) ^ e) := by
  have pos : ∀ x, 0 < x → Is53 (roundBinary x) := fun x hx => by
    obtain ⟨h1, h2⟩ := roundBinary_range hx
    have e1 : roundBinary x = nearestEven (x / 2 ^ (Int.log 2 x - 52)) * 2 ^ (Int.log 2 x - 52) := by
      simp only [roundBinary, abs_of_pos hx]
    have hp : (0 : ℝ) < 2 ^ (Int.log 2 x - 52) := by positivity
    rcases h2.lt_or_eq with h | h
    · refine ⟨_, _, ?_, e1⟩
      have h0 : 0 < roundBinary x := lt_of_lt_of_le (by positivity) h1
      rw [e1] at h h0
      have n0 : 0 < nearestEven (x / 2 ^ (Int.log 2 x - 52)) := by exact_mod_cast (mul_pos_iff_of_pos_right hp).1 h0
      rw [abs_of_pos n0]
      have e2 : (2 : ℝ) ^ (Int.log 2 x + 1) = ((2 ^ 53 : ℤ) : ℝ) * 2 ^ (Int.log 2 x - 52) := by
        rw [show ((2 ^ 53 : ℤ) : ℝ) = (2 : ℝ) ^ (53 : ℤ) by norm_num, ← zpow_add₀ (by norm_num)]
        congr 1
        ring
      rw [e2] at h
      exact_mod_cast lt_of_mul_lt_mul_right h hp.le
    · exact ⟨1, Int.log 2 x + 1, by norm_num, by rw [h]; simp⟩
  have flip : ∀ y, Is53 y → Is53 (-y) := by
    rintro _ ⟨m, e, hm, rfl⟩
    exact ⟨-m, e, by rwa [abs_neg], by push_cast; ring⟩
  rcases lt_trichotomy x 0 with hx | rfl | hx
  · have hx' : 0 < -x := by linarith
    refine ⟨?_, fun y hy => ?_⟩
    · have := flip _ (pos _ hx')
      rwa [roundBinary_neg, neg_neg] at this
    · obtain ⟨h1, h2⟩ := round_nearest_pos hx' (flip y hy)
      have d : ∀ a b : ℝ, |-a - -b| = |a - b| := fun a b => by rw [← abs_neg]; congr 1; ring
      rw [roundBinary_neg, d, d] at h1 h2
      refine ⟨h1, fun h3 h4 => ?_⟩
      obtain ⟨m, e, h5, h6, h7⟩ := h2 h3 (fun h => h4 (neg_injective h))
      exact ⟨-m, e, by omega, by rwa [abs_neg], by push_cast; linarith⟩
  · rw [roundBinary_zero]
    refine ⟨⟨0, 0, by norm_num, by simp⟩, fun y _ => ⟨by simp, fun h h' => absurd ?_ h'⟩⟩
    simpa using h
  · exact ⟨pos x hx, fun y hy => round_nearest_pos hx hy⟩

/-- Halfway between two numbers of 53 digits. -/
example : roundBinary (2 ^ 53 + 1) = 2 ^ 53 ∧ roundBinary (2 ^ 53 + 3) = 2 ^ 53 + 4 := by
  have hl : ∀ t : ℝ, 0 ≤ t → t < 2 ^ 53 → Int.log 2 (2 ^ 53 + t : ℝ) = 53 := fun t h0 h1 => by
    refine le_antisymm ?_ ?_
    · rw [← Int.lt_add_one_iff, Int.lt_zpow_iff_log_lt (by norm_num) (by positivity) |>.symm]
      push_cast
      norm_num
      linarith
    · rw [← Int.zpow_le_iff_le_log (by norm_num) (by positivity)]
      push_cast
      norm_num
      exact h0
  constructor
  · simp only [roundBinary]
    rw [abs_of_pos (by positivity), hl 1 (by norm_num) (by norm_num)]
    have : ((2 : ℝ) ^ 53 + 1) / 2 ^ ((53 : ℤ) - 52) = ((2 ^ 52 : ℤ) : ℝ) + 1 / 2 := by norm_num
    rw [this]
    have f : ⌊((2 ^ 52 : ℤ) : ℝ) + 1 / 2⌋ = 2 ^ 52 := by rw [Int.floor_eq_iff]; norm_num
    simp only [nearestEven, f]
    norm_num
  · simp only [roundBinary]
    rw [abs_of_pos (by positivity), hl 3 (by norm_num) (by norm_num)]
    have : ((2 : ℝ) ^ 53 + 3) / 2 ^ ((53 : ℤ) - 52) = ((2 ^ 52 + 1 : ℤ) : ℝ) + 1 / 2 := by norm_num
    rw [this]
    have f : ⌊((2 ^ 52 + 1 : ℤ) : ℝ) + 1 / 2⌋ = 2 ^ 52 + 1 := by rw [Int.floor_eq_iff]; norm_num
    simp only [nearestEven, f]
    norm_num

end Verif.StatMech
