/-
Property C17 in the arithmetic of the computer: the range setters (/repo/quantas/qha/qha.py:276-314,
/repo/quantas/harmonic/harmonic.py:124-137) with every operation rounded to binary64.
-/
import Mathlib.Data.Int.Log
import Mathlib.Data.Rat.Floor
import Mathlib.Tactic.Linarith
import Mathlib.Tactic.Positivity
import Mathlib.Tactic.FieldSimp
import Mathlib.Tactic.Ring
import Verif.Tac

namespace Verif.Grid.Binary

/-! ### Rounding -/

/-- The integer nearest to `x`, ties to even (IEEE 754, round half to even). -/
def nearest (x : ℚ) : ℤ :=
  if x - ⌊x⌋ < 1 / 2 then ⌊x⌋ else if 1 / 2 < x - ⌊x⌋ then ⌊x⌋ + 1 else if ⌊x⌋ % 2 = 0 then ⌊x⌋ else ⌊x⌋ + 1

/-- The binary64 number nearest to `x` (IEEE 754): 53 significant binary digits.  Simplification: exponents are not limited, so
there is no overflow and no loss of digits near zero. -/
def rnd (x : ℚ) : ℚ :=
  let e := Int.log 2 |x| - 52
  nearest (x / 2 ^ e) * 2 ^ e

/-- Half a unit in the last place: `2^(-53)`. -/
def u : ℚ := 1 / 2 ^ 53

/-! ### The setters -/

/-- `np.arange(start, stop, step)` for binary64 arguments (numpy, `PyArray_ArangeObj` and `DOUBLE_fill`): the count is the
ceiling of the rounded quotient; the first two values are `start` and `start + step`, the others `start + i*delta` with
`delta` the difference of these two. -/
def arange (start stop step : ℚ) : List ℚ :=
  let n := ⌈rnd (rnd (stop - start) / step)⌉.toNat
  let second := rnd (start + step)
  let delta := rnd (second - start)
  (List.range n).map fun (i : ℕ) => if i = 0 then start else if i = 1 then second else rnd (start + rnd (i * delta))

/-- The setters `temperature` and `pressure` (qha.py:287, 313; harmonic.py:136): the decimals of the command line are rounded to
binary64 by `float`, then `np.arange(min, max + step, step)`. -/
def range (min max step : ℚ) : List ℚ := arange (rnd min) (rnd (rnd max + rnd step)) (rnd step)

/-! ### Lemmas -/

theorem nearest_err (x : ℚ) : |(nearest x : ℚ) - x| ≤ 1 / 2 := by
  have h0 := Int.floor_le x
  have h1 := Int.lt_floor_add_one x
  unfold nearest
  rw [abs_le]
  split_ifs with a b c <;> push_cast <;> constructor <;> linarith

theorem rnd_err (x : ℚ) : |rnd x - x| ≤ u * |x| := by
  rcases eq_or_ne x 0 with rfl | hx
  · simp [rnd, nearest]
  have hp : (0 : ℚ) < 2 ^ (Int.log 2 |x| - 52) := zpow_pos (by norm_num) _
  have h1 : ((2 : ℕ) : ℚ) ^ Int.log 2 |x| ≤ |x| := Int.zpow_log_le_self (by norm_num) (abs_pos.2 hx)
  have h2 : (2 : ℚ) ^ (Int.log 2 |x| - 52) = 2 ^ Int.log 2 |x| / 2 ^ 52 := by
    rw [zpow_sub₀ (by norm_num)]
    norm_num
  have e : rnd x - x = (nearest (x / 2 ^ (Int.log 2 |x| - 52)) - x / 2 ^ (Int.log 2 |x| - 52)) * 2 ^ (Int.log 2 |x| - 52) := by
    unfold rnd
    field_simp
  rw [e, abs_mul, abs_of_pos hp]
  calc _ ≤ 1 / 2 * (2 : ℚ) ^ (Int.log 2 |x| - 52) := mul_le_mul_of_nonneg_right (nearest_err _) hp.le
    _ = u * 2 ^ Int.log 2 |x| := by rw [h2, u]; ring
    _ ≤ u * |x| := mul_le_mul_of_nonneg_left (by exact_mod_cast h1) (by unfold u; norm_num)

theorem u_pos : 0 < u := by unfold u; norm_num
theorem u_small : u ≤ 1 / 10000 := by unfold u; norm_num

/-- A rounded value that was near `A`. -/
theorem rnd_near {a A α : ℚ} (h : |a - A| ≤ α) : |rnd a - A| ≤ α * (10001 / 10000) + u * |A| := by
  have h1 := rnd_err a
  have h2 : |a| ≤ |A| + α := by
    have := abs_sub_abs_le_abs_sub a A
    linarith
  have h3 : |rnd a - A| ≤ |rnd a - a| + |a - A| := by
    have := abs_add_le (rnd a - a) (a - A)
    rwa [sub_add_sub_cancel] at this
  have h4 := mul_le_mul_of_nonneg_left h2 u_pos.le
  have h0 : 0 ≤ α := (abs_nonneg _).trans h
  have h5 : u * α ≤ 1 / 10000 * α := mul_le_mul_of_nonneg_right u_small h0
  linarith

theorem near_add {a b A B α β : ℚ} (ha : |a - A| ≤ α) (hb : |b - B| ≤ β) : |a + b - (A + B)| ≤ α + β := by
  rw [abs_le] at *
  constructor <;> linarith

theorem near_sub {a b A B α β : ℚ} (ha : |a - A| ≤ α) (hb : |b - B| ≤ β) : |a - b - (A - B)| ≤ α + β := by
  rw [abs_le] at *
  constructor <;> linarith

theorem count_near {lo hi s : ℚ} {m : ℕ} (h0 : 0 ≤ lo) (hs : 0 < s) (hm : hi - lo = m * s) (hsmall : 7 * u * (hi + s) < s) :
    |rnd (rnd (rnd (rnd hi + rnd s) - rnd lo) / rnd s) - ((m : ℚ) + 1)| < 1 := by
  have hu := u_pos
  have hu' := u_small
  have hle : lo ≤ hi := by
    have : (0 : ℚ) ≤ m * s := by positivity
    linarith
  set H := hi + s with hH
  have hH0 : 0 < H := by linarith
  have a1 : |rnd hi - hi| ≤ u * hi := by simpa [abs_of_nonneg (h0.trans hle)] using rnd_err hi
  have a2 : |rnd s - s| ≤ u * s := by simpa [abs_of_pos hs] using rnd_err s
  have a3 : |rnd lo - lo| ≤ u * lo := by simpa [abs_of_nonneg h0] using rnd_err lo
  have b1 := rnd_near (near_add a1 a2)
  rw [← hH, abs_of_pos hH0] at b1
  have b2 := rnd_near (near_sub b1 a3)
  have hN : 0 < H - lo := by linarith
  rw [abs_of_pos hN] at b2
  have ulo : u * lo ≤ u * H := mul_le_mul_of_nonneg_left (by linarith) hu.le
  have uN : u * (H - lo) ≤ u * H := mul_le_mul_of_nonneg_left (by linarith) hu.le
  have ehs : u * hi + u * s = u * H := by rw [hH]; ring
  rw [ehs] at b1 b2
  have hUH : 0 < u * H := by positivity
  have b3 : |rnd (rnd (rnd hi + rnd s) - rnd lo) - (H - lo)| ≤ 4.01 * (u * H) := by
    refine b2.trans ?_
    norm_num
    linarith
  set A := rnd (rnd (rnd hi + rnd s) - rnd lo)
  have hk : H - lo = ((m : ℚ) + 1) * s := by rw [hH]; linarith
  set k : ℚ := (m : ℚ) + 1 with hkd
  have hk0 : 0 < k := by positivity
  have hs' : 0.9999 * s ≤ rnd s := by
    have h1 := (abs_le.1 a2).1
    have h2 := mul_le_mul_of_nonneg_right hu' hs.le
    norm_num
    linarith
  have hsp : 0 < rnd s := by
    have : (0 : ℚ) < 0.9999 * s := by positivity
    linarith
  have b4 : |A / rnd s - k| ≤ 5.02 * (u * H) / s := by
    have e : A / rnd s - k = (A - k * rnd s) / rnd s := by field_simp
    rw [e, abs_div, abs_of_pos hsp, div_le_div_iff₀ hsp hs]
    have h1 : |A - k * rnd s| ≤ 5.01 * (u * H) := by
      have h2 : |k * rnd s - k * s| ≤ u * H := by
        rw [← mul_sub, abs_mul, abs_of_pos hk0]
        calc k * |rnd s - s| ≤ k * (u * s) := mul_le_mul_of_nonneg_left a2 hk0.le
          _ = u * (H - lo) := by rw [hk]; ring
          _ ≤ _ := uN
      rw [hk] at b3
      rw [abs_le] at *
      norm_num at *
      constructor <;> linarith
    calc |A - k * rnd s| * s ≤ 5.01 * (u * H) * s := mul_le_mul_of_nonneg_right h1 hs.le
      _ ≤ 5.02 * (u * H) * (0.9999 * s) := by
        have : 0 < u * H * s := by positivity
        norm_num
        linarith
      _ ≤ _ := mul_le_mul_of_nonneg_left hs' (by positivity)
  have b5 := rnd_near b4
  rw [abs_of_pos hk0] at b5
  refine b5.trans_lt ?_
  have h6 : u * k ≤ u * H / s := by
    rw [le_div_iff₀ hs, mul_assoc, ← hk]
    exact uN
  have h7 : u * H / s < 1 / 7 := by
    rw [div_lt_iff₀ hs]
    linarith
  have h8 : 5.02 * (u * H) / s = 5.02 * (u * H / s) := by ring
  rw [h8]
  norm_num
  linarith

theorem range_length {lo hi s : ℚ} {m : ℕ} (h0 : 0 ≤ lo) (hs : 0 < s) (hm : hi - lo = m * s)
    (hsmall : 7 * u * (hi + s) < s) : (range lo hi s).length = m + 1 ∨ (range lo hi s).length = m + 2 := by
  have h := count_near h0 hs hm hsmall
  simp only [range, arange, List.length_map, List.length_range]
  set q := rnd (rnd (rnd (rnd hi + rnd s) - rnd lo) / rnd s)
  rw [abs_lt] at h
  rcases le_or_gt q (m + 1) with h1 | h1
  · left
    have : ⌈q⌉ = (m : ℤ) + 1 := by
      rw [Int.ceil_eq_iff]
      push_cast
      constructor <;> linarith [h.1]
    rw [this]
    omega
  · right
    have : ⌈q⌉ = (m : ℤ) + 2 := by
      rw [Int.ceil_eq_iff]
      push_cast
      constructor <;> linarith [h.2]
    rw [this]
    omega

theorem range_value {lo hi s : ℚ} (h0 : 0 ≤ lo) (hs : 0 < s) (i : ℕ) (hi' : i < (range lo hi s).length) :
    |(range lo hi s)[i] - (lo + i * s)| ≤ 8 * u * ((i : ℚ) + 1) * (lo + s) := by
  have hu := u_pos
  have hL : 0 < lo + s := by linarith
  have a2 : |rnd s - s| ≤ u * s := by simpa [abs_of_pos hs] using rnd_err s
  have a3 : |rnd lo - lo| ≤ u * lo := by simpa [abs_of_nonneg h0] using rnd_err lo
  have hUL : 0 < u * (lo + s) := by positivity
  have es : u * s ≤ u * (lo + s) := mul_le_mul_of_nonneg_left (by linarith) hu.le
  have el : u * lo ≤ u * (lo + s) := mul_le_mul_of_nonneg_left (by linarith) hu.le
  have b1 := rnd_near (near_add a3 a2)
  rw [abs_of_pos hL, ← mul_add] at b1
  set L := lo + s with hLd
  have target : 8 * u * ((i : ℚ) + 1) * L = 8 * (u * L) * i + 8 * (u * L) := by ring
  have hi0 : (0 : ℚ) ≤ u * L * i := by positivity
  simp only [range, arange, List.getElem_map, List.getElem_range]
  rw [target]
  split_ifs with c1 c2
  · subst c1
    norm_num
    linarith
  · subst c2
    norm_num
    norm_num at b1
    rw [← hLd]
    linarith
  · have b2 := rnd_near (near_sub b1 a3)
    have e1 : L - lo = s := by rw [hLd]; ring
    rw [e1, abs_of_pos hs] at b2
    have b3 : |rnd (rnd (rnd lo + rnd s) - rnd lo) - s| ≤ 4.01 * (u * L) := by
      refine b2.trans ?_
      norm_num
      linarith
    have b4 : |(i : ℚ) * rnd (rnd (rnd lo + rnd s) - rnd lo) - i * s| ≤ 4.01 * (u * L) * i := by
      rw [← mul_sub, abs_mul, Nat.abs_cast, mul_comm]
      exact mul_le_mul_of_nonneg_right b3 (by positivity)
    have b5 := rnd_near b4
    have uis : u * |(i : ℚ) * s| ≤ u * L * i := by
      rw [abs_of_nonneg (by positivity)]
      calc u * (i * s) = u * s * i := by ring
        _ ≤ _ := mul_le_mul_of_nonneg_right es (by positivity)
    have b6 := rnd_near (near_add a3 b5)
    have hpos : 0 ≤ lo + i * s := by positivity
    rw [abs_of_nonneg hpos] at b6
    have e2 : u * (lo + i * s) ≤ u * L + u * L * i := by
      have : u * (i * s) ≤ u * L * i := by
        calc u * (i * s) = u * s * i := by ring
          _ ≤ _ := mul_le_mul_of_nonneg_right es (by positivity)
      linarith [mul_add u lo (i * s)]
    refine b6.trans ?_
    have e3 : 4.01 * (u * L) * i = 4.01 * (u * L * i) := by ring
    rw [e3]
    generalize u * |(i : ℚ) * s| = X at uis
    norm_num
    linarith

/-! ### C17 -/

/-- **C17 (binary64).** When the decimals typed for a range satisfy `max - min = m step`, the grid computed in binary64 holds the
`m + 1` expected points, each within the accumulated rounding, and at most one point more. -/
theorem C17_binary_partial {lo hi s : ℚ} {m : ℕ} (h0 : 0 ≤ lo) (hs : 0 < s) (hm : hi - lo = m * s)
    (hsmall : 7 * (1 / 2 ^ 53) * (hi + s) < s) :
    ((range lo hi s).length = m + 1 ∨ (range lo hi s).length = m + 2) ∧
    ∀ (i : ℕ) (h : i < (range lo hi s).length),
      |(range lo hi s)[i] - (lo + i * s)| ≤ 8 * (1 / 2 ^ 53) * ((i : ℚ) + 1) * (lo + s) :=
  ⟨range_length h0 hs hm hsmall, fun i h => range_value h0 hs i h⟩

/-- **C17 (binary64, violated).** The point more does occur, although the step divides the range: from 1 to 1.2 in steps of 0.1 the
grid ends at 1.3. -/
theorem C17_binary_violated : (range 1 1.2 0.1).length = 4 ∧ ∃ x ∈ range 1 1.2 0.1, 1.29 < x := by
  decide +kernel

/-- Integers below `2^53` are their own roundings, in any binary scale. -/
theorem rnd_exact {z : ℤ} (hz : |z| < 2 ^ 53) (e : ℤ) : rnd (z * 2 ^ e) = z * 2 ^ e := by
  rcases eq_or_ne z 0 with rfl | h0
  · simp [rnd, nearest]
  set x : ℚ := z * 2 ^ e with hx
  have h2 : (0 : ℚ) < 2 ^ e := zpow_pos (by norm_num) _
  have hx0 : x ≠ 0 := mul_ne_zero (by exact_mod_cast h0) h2.ne'
  have hlt : |x| < 2 ^ (53 + e) := by
    rw [hx, abs_mul, abs_of_pos h2, zpow_add₀ (by norm_num)]
    refine mul_lt_mul_of_pos_right ?_ h2
    exact_mod_cast hz
  have hl : Int.log 2 |x| < 53 + e := by
    rw [← Int.lt_zpow_iff_log_lt (by norm_num) (abs_pos.2 hx0)]
    exact_mod_cast hlt
  obtain ⟨d, hd⟩ : ∃ d : ℕ, e = Int.log 2 |x| - 52 + d := ⟨(e - (Int.log 2 |x| - 52)).toNat, by omega⟩
  have hE : (0 : ℚ) < 2 ^ (Int.log 2 |x| - 52) := zpow_pos (by norm_num) _
  have hq : x / 2 ^ (Int.log 2 |x| - 52) = ((z * 2 ^ d : ℤ) : ℚ) := by
    rw [div_eq_iff hE.ne']
    push_cast
    rw [mul_assoc, mul_comm ((2 : ℚ) ^ d), ← zpow_natCast, ← zpow_add₀ (by norm_num), ← hd]
  have hn : ∀ w : ℤ, nearest (w : ℚ) = w := fun w => by simp [nearest]
  show (nearest (x / 2 ^ (Int.log 2 |x| - 52)) : ℚ) * 2 ^ (Int.log 2 |x| - 52) = x
  rw [hq, hn, ← hq, div_mul_cancel₀ _ hE.ne']

/-- **C17 (binary64, exact).** When minimum and step are whole numbers, or have few binary places (they are multiples `a` and `b`
of `2^e`), and the step divides the range, the grid computed in binary64 is exactly the expected one: `m + 1` points, each without
error, the last one being the maximum. -/
theorem C17_binary_exact {a b e : ℤ} {m : ℕ} (hb : 0 < b) (hsize : |a| + (m + 1) * b < 2 ^ 53) :
    range (a * 2 ^ e) (a * 2 ^ e + m * (b * 2 ^ e)) (b * 2 ^ e) =
      (List.range (m + 1)).map fun i : ℕ => (a * 2 ^ e + i * (b * 2 ^ e) : ℚ) := by
  have h2 : (0 : ℚ) < 2 ^ e := zpow_pos (by norm_num) _
  have ha := abs_nonneg a
  have hmb : (0 : ℤ) ≤ m * b := by positivity
  have ex : ∀ {z : ℤ} {x : ℚ}, x = z * 2 ^ e → |z| ≤ |a| + (m + 1) * b → rnd x = x := fun {z x} h hz => by
    rw [h, rnd_exact (lt_of_le_of_lt hz hsize)]
  have hbb : |b| = b := abs_of_pos hb
  have hm1 : |((m : ℤ) + 1) * b| = (m + 1) * b := abs_of_nonneg (by positivity)
  have e1 : rnd ((a : ℚ) * 2 ^ e) = a * 2 ^ e := ex (z := a) rfl (by nlinarith)
  have e2 : rnd ((b : ℚ) * 2 ^ e) = b * 2 ^ e := ex (z := b) rfl (by rw [hbb]; nlinarith)
  have e3 : rnd ((a : ℚ) * 2 ^ e + m * (b * 2 ^ e)) = a * 2 ^ e + m * (b * 2 ^ e) :=
    ex (z := a + m * b) (by push_cast; ring) (by have := abs_add_le a (m * b); rw [abs_of_nonneg hmb] at this; linarith)
  have e4 : rnd ((a : ℚ) * 2 ^ e + m * (b * 2 ^ e) + b * 2 ^ e) = a * 2 ^ e + m * (b * 2 ^ e) + b * 2 ^ e :=
    ex (z := a + (m + 1) * b) (by push_cast; ring) (by have := abs_add_le a ((m + 1) * b); rw [hm1] at this; linarith)
  have e5 : rnd ((a : ℚ) * 2 ^ e + m * (b * 2 ^ e) + b * 2 ^ e - a * 2 ^ e) = ((m : ℚ) + 1) * (b * 2 ^ e) :=
    (ex (z := (m + 1) * b) (by push_cast; ring) (by rw [hm1]; linarith)).trans (by ring)
  have hbq : (0 : ℚ) < b * 2 ^ e := mul_pos (by exact_mod_cast hb) h2
  have e6 : rnd (((m : ℚ) + 1) * (b * 2 ^ e) / (b * 2 ^ e)) = (m : ℚ) + 1 := by
    rw [mul_div_cancel_right₀ _ hbq.ne']
    have hle : (m : ℤ) + 1 ≤ (m + 1) * b := le_mul_of_one_le_right (by positivity) hb
    have := rnd_exact (z := (m : ℤ) + 1) (by rw [abs_of_nonneg (by positivity)]; linarith) 0
    simpa using this
  have e7 : rnd ((a : ℚ) * 2 ^ e + b * 2 ^ e) = a * 2 ^ e + b * 2 ^ e :=
    ex (z := a + b) (by push_cast; ring) (by have := abs_add_le a b; rw [hbb] at this; nlinarith)
  have e8 : rnd ((a : ℚ) * 2 ^ e + b * 2 ^ e - a * 2 ^ e) = b * 2 ^ e :=
    (ex (z := b) (by ring) (by rw [hbb]; nlinarith)).trans (by ring)
  unfold range arange
  rw [e1, e2, e3, e4]
  simp only [e5, e6, e7, e8]
  have hc : ⌈(m : ℚ) + 1⌉.toNat = m + 1 := by
    rw [show ((m : ℚ) + 1) = ((m + 1 : ℕ) : ℚ) by push_cast; ring, Int.ceil_natCast]
    simp
  rw [hc]
  refine List.map_congr_left fun i hi => ?_
  rw [List.mem_range] at hi
  have him : (i : ℤ) ≤ m := by omega
  have hib : (i : ℤ) * b ≤ m * b := mul_le_mul_of_nonneg_right him hb.le
  have hib0 : (0 : ℤ) ≤ i * b := by positivity
  have e9 : rnd ((i : ℚ) * (b * 2 ^ e)) = i * (b * 2 ^ e) :=
    ex (z := i * b) (by push_cast; ring) (by rw [abs_of_nonneg hib0]; linarith)
  have e10 : rnd ((a : ℚ) * 2 ^ e + i * (b * 2 ^ e)) = a * 2 ^ e + i * (b * 2 ^ e) :=
    ex (z := a + i * b) (by push_cast; ring) (by have := abs_add_le a (i * b); rw [abs_of_nonneg hib0] at this; linarith)
  split_ifs with c1 c2
  · subst c1; simp
  · subst c2; simp
  · rw [e9, e10]

/-- The temperatures 0, 10, ..., 1000 of the command line, exactly. -/
example : range 0 1000 10 = (List.range 101).map fun i : ℕ => (i * 10 : ℚ) := by
  have := C17_binary_exact (a := 0) (b := 10) (e := 0) (m := 100) (by norm_num) (by norm_num)
  norm_num at this
  exact this

/-- Pressures from -1 to 4 in steps of a quarter. -/
example : range (-1) 4 0.25 = (List.range 21).map fun i : ℕ => (-1 + i * (1 / 4) : ℚ) := by
  have := C17_binary_exact (a := -4) (b := 1) (e := -2) (m := 20) (by norm_num) (by norm_num)
  norm_num at this
  rw [show (0.25 : ℚ) = 1 / 4 by norm_num]
  exact this

/-- The temperatures 0, 10, ..., 1000 of the command line. -/
example : (range 0 1000 10).length = 100 + 1 ∨ (range 0 1000 10).length = 100 + 2 :=
  (C17_binary_partial (m := 100) (by norm_num) (by norm_num) (by norm_num) (by norm_num)).1

end Verif.Grid.Binary
