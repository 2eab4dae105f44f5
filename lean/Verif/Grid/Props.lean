/-
Property theorems C17 (ranges) and C18 (fine grid).
-/
import Verif.Grid.Model

namespace Verif.Grid
open Verif.Py

/-! ### C17 -/

/-- The step divides the range. -/
def Divides (lo hi step : ℝ) : Prop := ∃ m : ℕ, hi - lo = m * step

theorem range_eq {lo hi step : ℝ} (hs : 0 < step) :
    range lo hi step = .ok ((List.range ⌈(hi - lo) / step + 1⌉.toNat).map
      fun (i : ℕ) => lo + i * step) := by
  have : (hi + step - lo) / step = (hi - lo) / step + 1 := by field_simp; ring
  simp [range, arange, hs.ne', this]

theorem count_bounds {lo hi step : ℝ} (hs : 0 < step) (hle : lo ≤ hi) {n : ℕ}
    (hn : n = ⌈(hi - lo) / step + 1⌉.toNat) :
    (hi - lo) / step + 1 ≤ n ∧ (n : ℝ) < (hi - lo) / step + 2 := by
  have h0 : 0 ≤ (hi - lo) / step := div_nonneg (by linarith) hs.le
  have hc : 0 ≤ ⌈(hi - lo) / step + 1⌉ := Int.ceil_nonneg (by linarith)
  have e : (n : ℝ) = (⌈(hi - lo) / step + 1⌉ : ℝ) := by
    rw [hn]
    have : ((⌈(hi - lo) / step + 1⌉.toNat : ℕ) : ℤ) = ⌈(hi - lo) / step + 1⌉ := Int.toNat_of_nonneg hc
    exact_mod_cast this
  rw [e]
  exact ⟨Int.le_ceil _, by have := Int.ceil_lt_add_one ((hi - lo) / step + 1); linarith⟩

/-- The grid is never empty, starts at the minimum, and point `i` is `min + i*step`; every value of
the range is at most one step below some grid point. -/
theorem C17_starts_and_spacing {lo hi step : ℝ} (hs : 0 < step) (hle : lo ≤ hi) :
    ∃ l, range lo hi step = .ok l ∧ l.head? = some lo ∧
      (∀ (i : ℕ) (h : i < l.length), l[i] = lo + i * step) ∧
      (∀ x, lo ≤ x → x ≤ hi → ∃ y ∈ l, y ≤ x ∧ x < y + step) := by
  refine ⟨_, range_eq hs, ?_, ?_, ?_⟩
  · obtain ⟨h1, _⟩ := count_bounds hs hle rfl
    have h0 : 0 ≤ (hi - lo) / step := div_nonneg (by linarith) hs.le
    have : ⌈(hi - lo) / step + 1⌉.toNat ≠ 0 := by
      intro h; rw [h] at h1; norm_num at h1; linarith
    obtain ⟨m, hm⟩ := Nat.exists_eq_succ_of_ne_zero this
    rw [hm, List.range_succ_eq_map]
    simp
  · intro i h
    simp
  · intro x hx1 hx2
    obtain ⟨h1, _⟩ := count_bounds hs hle rfl
    have hx : 0 ≤ (x - lo) / step := div_nonneg (by linarith) hs.le
    refine ⟨lo + (⌊(x - lo) / step⌋₊ : ℝ) * step, ?_, ?_, ?_⟩
    · refine List.mem_map.2 ⟨⌊(x - lo) / step⌋₊, ?_, rfl⟩
      rw [List.mem_range]
      have f1 := Nat.floor_le hx
      have : (x - lo) / step ≤ (hi - lo) / step := by gcongr
      have : ((⌊(x - lo) / step⌋₊ : ℕ) : ℝ) < (⌈(hi - lo) / step + 1⌉.toNat : ℕ) := by linarith
      exact_mod_cast this
    · have := Nat.floor_le hx
      have := mul_le_mul_of_nonneg_right this hs.le
      rw [div_mul_cancel₀ _ hs.ne'] at this
      linarith
    · have := Nat.lt_floor_add_one ((x - lo) / step)
      have := mul_lt_mul_of_pos_right this hs
      rw [div_mul_cancel₀ _ hs.ne'] at this
      linarith

/-- When the step divides the range, the maximum is the last point and nothing lies above it. -/
theorem C17_divides_partial {lo hi step : ℝ} (hs : 0 < step)
    (hd : Divides lo hi step) :
    ∃ l, range lo hi step = .ok l ∧ l.getLast? = some hi ∧ ∀ x ∈ l, x ≤ hi := by
  obtain ⟨m, hm⟩ := hd
  have hq : (hi - lo) / step = m := by rw [hm]; field_simp
  have hn : ⌈(hi - lo) / step + 1⌉.toNat = m + 1 := by
    rw [hq]
    have : ((m : ℝ) + 1) = ((m + 1 : ℕ) : ℝ) := by push_cast; ring
    rw [this, Int.ceil_natCast]; simp
  refine ⟨_, range_eq hs, ?_, ?_⟩
  · rw [hn, List.range_succ]
    simp
    linarith
  · intro x hx
    obtain ⟨i, hi', rfl⟩ := List.mem_map.1 hx
    rw [List.mem_range, hn] at hi'
    have : (i : ℝ) ≤ m := by exact_mod_cast Nat.lt_succ_iff.1 hi'
    nlinarith

/-- In general the last point stays below `max + step`. -/
theorem C17_bounded_partial {lo hi step : ℝ} (hs : 0 < step) (hle : lo ≤ hi) :
    ∃ l, range lo hi step = .ok l ∧ ∀ x ∈ l, lo ≤ x ∧ x < hi + step := by
  refine ⟨_, range_eq hs, fun x hx => ?_⟩
  obtain ⟨i, hi', rfl⟩ := List.mem_map.1 hx
  rw [List.mem_range] at hi'
  obtain ⟨_, h2⟩ := count_bounds hs hle rfl
  have h3 : (i : ℝ) + 1 ≤ (⌈(hi - lo) / step + 1⌉.toNat : ℕ) := by exact_mod_cast hi'
  have h4 : (i : ℝ) < (hi - lo) / step + 1 := by linarith
  have h5 := mul_lt_mul_of_pos_right h4 hs
  rw [add_mul, div_mul_cancel₀ _ hs.ne'] at h5
  constructor
  · have : 0 ≤ (i : ℝ) * step := by positivity
    linarith
  · linarith

/-- Whenever the step does not divide the range, a point above the requested maximum is added. -/
theorem C17_no_overshoot_violated {lo hi step : ℝ} (hs : 0 < step) (hle : lo ≤ hi)
    (hd : ¬ Divides lo hi step) : ∃ l, range lo hi step = .ok l ∧ ∃ x ∈ l, hi < x := by
  refine ⟨_, range_eq hs, ?_⟩
  obtain ⟨h1, h2⟩ := count_bounds hs hle rfl
  set n := ⌈(hi - lo) / step + 1⌉.toNat
  have h0 : 0 ≤ (hi - lo) / step := div_nonneg (by linarith) hs.le
  have hn : n ≠ 0 := by intro h; rw [h] at h1; norm_num at h1; linarith
  obtain ⟨m, hm⟩ := Nat.exists_eq_succ_of_ne_zero hn
  refine ⟨lo + m * step, List.mem_map.2 ⟨m, by rw [List.mem_range]; omega, rfl⟩, ?_⟩
  rw [hm] at h1
  push_cast at h1
  have h3 : (hi - lo) / step ≤ m := by linarith
  rw [div_le_iff₀ hs] at h3
  rcases h3.lt_or_eq with h | h
  · linarith
  · exact absurd ⟨m, h⟩ hd

/-- Witness: from 0 to 10 by 3 the code produces 0, 3, 6, 9, 12; and 0 to 12 by 3 divides. -/
example : range 0 10 3 = .ok [0, 3, 6, 9, 12] ∧ ¬ Divides 0 10 3 ∧ Divides 0 12 3 := by
  refine ⟨?_, ?_, ⟨4, by norm_num⟩⟩
  · rw [range_eq (by norm_num)]
    have : ⌈((10:ℝ) - 0) / 3 + 1⌉ = 5 := by rw [Int.ceil_eq_iff]; norm_num
    rw [this]
    simp [List.range_succ]
    norm_num
  · rintro ⟨m, hm⟩
    have h : (10:ℝ) = ((m * 3 : ℕ) : ℝ) := by push_cast; linarith
    have : 10 = m * 3 := by exact_mod_cast h
    omega

/-! ### C18 -/

theorem fineGrid_eq (n : ℕ) (sep : ℝ) :
    fineGrid n sep = ((List.range n).map (fun (i : ℕ) => ((i : ℝ) - (n / 2 : ℕ)) * (sep / 100)), n / 2) := by
  have h : (-((((n / 2 : ℕ) : ℤ)) - (n : ℤ))) - (-((((n / 2 : ℕ) : ℤ)) - (n : ℤ)) - n) = n := by ring
  simp only [fineGrid, intArange, h, Int.toNat_natCast, List.map_map, List.length_map,
    List.length_range, Prod.mk.injEq, and_true]
  refine List.map_congr_left fun i _ => ?_
  simp only [Function.comp]
  have : ((-(((n / 2 : ℕ) : ℤ) - (n : ℤ)) - n + i : ℤ)) = (i : ℤ) - ((n / 2 : ℕ) : ℤ) := by ring
  rw [this, Int.cast_sub, Int.cast_natCast, Int.cast_natCast]

/-- For every `n ≥ 1`: exactly `n` factors, evenly spaced by `separation` percent, the volumes made of them grow by that percentage
of the requested volume from each to the next, and the volume at the reported index is the requested one. -/
theorem C18_fine_grid {n : ℕ} (hn : 1 ≤ n) (sep volume : ℝ) :
    (fineGrid n sep).1.length = n ∧
    (∀ (i : ℕ) (h : i + 1 < (fineGrid n sep).1.length),
      (fineGrid n sep).1[i + 1] - (fineGrid n sep).1[i] = sep / 100) ∧
    (∀ (i : ℕ) (h : i + 1 < (volumeGrid volume (fineGrid n sep).1).length),
      (volumeGrid volume (fineGrid n sep).1)[i + 1] - (volumeGrid volume (fineGrid n sep).1)[i] = volume * (sep / 100)) ∧
    (volumeGrid volume (fineGrid n sep).1).length = n ∧
    (volumeGrid volume (fineGrid n sep).1)[(fineGrid n sep).2]? = some volume := by
  refine ⟨by simp [fineGrid_eq], ?_, ?_, by simp [volumeGrid, fineGrid_eq], ?_⟩
  · intro i h
    simp only [fineGrid_eq, List.getElem_map, List.getElem_range]
    push_cast
    ring
  · intro i h
    simp only [volumeGrid, fineGrid_eq, List.getElem_map, List.getElem_range]
    push_cast
    ring
  · rw [fineGrid_eq]
    have h2 : n / 2 < n := Nat.div_lt_self hn (by norm_num)
    simp [volumeGrid, h2]

/-- The grid is symmetric about the requested volume exactly when the number of points is odd. -/
theorem C18_symmetric_iff_odd (n : ℕ) (sep : ℝ) (hsep : sep ≠ 0) :
    (∀ (i : ℕ) (h : i < n), ((fineGrid n sep).1)[n - 1 - i]'(by simp [fineGrid_eq]; omega) =
      -((fineGrid n sep).1)[i]'(by simp [fineGrid_eq]; omega)) ↔ (n = 0 ∨ n % 2 = 1) := by
  simp only [fineGrid_eq, List.getElem_map, List.getElem_range]
  constructor
  · intro h
    rcases Nat.eq_zero_or_pos n with h0 | h0
    · exact .inl h0
    · right
      have := h 0 h0
      have hne : sep / 100 ≠ 0 := by simpa using hsep
      have h2 : ((n - 1 - 0 : ℕ) : ℝ) - (n / 2 : ℕ) = ((n / 2 : ℕ) : ℝ) := by
        have := mul_right_cancel₀ hne (this.trans (neg_mul _ _).symm)
        rw [this]; push_cast; ring
      have h3 : ((n - 1 - 0 : ℕ) : ℝ) = ((n / 2 + n / 2 : ℕ) : ℝ) := by push_cast; linarith
      have h4 : n - 1 - 0 = n / 2 + n / 2 := by exact_mod_cast h3
      omega
  · intro h i hi
    have h1 : n - 1 - i + i = n / 2 + n / 2 := by omega
    have h2 : ((n - 1 - i : ℕ) : ℝ) + i = (n / 2 : ℕ) + (n / 2 : ℕ) := by exact_mod_cast h1
    linear_combination (sep / 100) * h2

/-- Witness: the default call (5 points, 0.05 percent). -/
example : fineGrid 5 0.05 = ([-2 * (0.05 / 100), -1 * (0.05 / 100), 0, 0.05 / 100, 2 * (0.05 / 100)], 2) := by
  rw [fineGrid_eq]
  simp [List.range_succ]
  norm_num

end Verif.Grid
