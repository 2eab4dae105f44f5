/-
Property C103: the parameters of the static fit are reported as `value(error)`.
-/
import Mathlib.Data.Nat.Log
import Mathlib.Algebra.Order.Field.Power
import Verif.Report.ConciseLemmas

namespace Verif.Report
open Verif.Py Verif.IO Verif.IO.Spec Verif.Report.Spec

theorem round_le {q : ℚ} {n : ℤ} (h : q < n + 1 / 2) : roundHalfEven q ≤ n := by
  have := (abs_le.1 (roundHalfEven_spec q)).2
  have h2 : (roundHalfEven q : ℚ) < n + 1 := by linarith
  exact_mod_cast Int.lt_add_one_iff.1 (by exact_mod_cast h2)

theorem le_round {q : ℚ} {n : ℤ} (h : n - 1 / 2 < q) : n ≤ roundHalfEven q := by
  have := (abs_le.1 (roundHalfEven_spec q)).1
  have h2 : (n : ℚ) < roundHalfEven q + 1 := by linarith
  exact_mod_cast Int.lt_add_one_iff.1 (by exact_mod_cast h2)

theorem round_tie : roundHalfEven (9.5 : ℚ) = 10 := by
  have : ⌊(9.5 : ℚ)⌋ = 9 := by norm_num [Int.floor_eq_iff]
  rw [roundHalfEven]
  simp only [this]
  norm_num

theorem ten_le_round {q : ℚ} (h : 9.5 ≤ q) : 10 ≤ roundHalfEven q := by
  rcases eq_or_lt_of_le h with rfl | h
  · rw [round_tie]
  · exact le_round (by push_cast; linarith)

theorem log_eq {e : ℚ} {z : ℤ} (h1 : (10 : ℚ) ^ z ≤ e) (h2 : e < 10 ^ (z + 1)) : Int.log 10 e = z := by
  have h0 : 0 < e := lt_of_lt_of_le (by positivity) h1
  have a : z ≤ Int.log 10 e := (Int.zpow_le_iff_le_log (by norm_num) h0).1 (by exact_mod_cast h1)
  have b : Int.log 10 e < z + 1 := (Int.lt_zpow_iff_log_lt (by norm_num) h0).1 (by exact_mod_cast h2)
  omega

/-- Errors below 9.5: one digit of the error is kept. -/
theorem corrected_small {e : ℚ} {d : ℕ} (h1 : 0.95 ≤ e * 10 ^ d) (h2 : e * 10 ^ d < 9.5) :
    corrected e = d := by
  have hp : (0 : ℚ) < 10 ^ d := by positivity
  rcases le_or_gt 1 (e * 10 ^ d) with h | h
  · have hlog : Int.log 10 e = -(d : ℤ) := by
      refine log_eq ?_ ?_
      · rw [zpow_neg, zpow_natCast, inv_eq_one_div, div_le_iff₀ hp]; exact h
      · rw [zpow_add₀ (by norm_num), zpow_neg, zpow_natCast, zpow_one, inv_mul_eq_div,
          lt_div_iff₀ hp]
        linarith
    have hm : magnitude e = d := by
      unfold magnitude
      split
      · rw [hlog]; simp
      · rename_i h3
        rw [hlog]
        rcases Nat.eq_zero_or_pos d with rfl | hd
        · simp
        · exfalso
          have : (10 : ℚ) ≤ 10 ^ d := by
            calc (10 : ℚ) = 10 ^ 1 := by norm_num
              _ ≤ 10 ^ d := pow_le_pow_right₀ (by norm_num) hd
          nlinarith
    simp only [corrected, hm, zpow_natCast]
    rw [if_neg (not_le.2 (lt_of_le_of_lt (round_le (n := 9) (by push_cast; linarith)) (by norm_num)))]
  · have hlog : Int.log 10 e = -((d : ℤ) + 1) := by
      refine log_eq ?_ ?_
      · rw [zpow_neg, zpow_add₀ (by norm_num), zpow_natCast, zpow_one, inv_eq_one_div,
          div_le_iff₀ (by positivity)]
        linarith
      · have : -((d : ℤ) + 1) + 1 = -(d : ℤ) := by ring
        rw [this, zpow_neg, zpow_natCast, inv_eq_one_div, lt_div_iff₀ hp]
        exact h
    have he1 : e < 1 := by
      have h1p : (1 : ℚ) ≤ 10 ^ d := one_le_pow₀ (by norm_num)
      by_contra hc
      nlinarith
    have hm : magnitude e = d + 1 := by
      rw [magnitude, if_pos he1, hlog]; ring
    have hr : e * 10 ^ ((d : ℤ) + 1) = 10 * (e * 10 ^ d) := by
      rw [zpow_add₀ (by norm_num), zpow_natCast, zpow_one]; ring
    simp only [corrected, hm, hr]
    rw [if_pos (ten_le_round (by linarith))]
    ring

theorem corrected_mid {e : ℚ} (h1 : 9.5 ≤ e) (h2 : e < 10) : corrected e = -1 := by
  have hlog : Int.log 10 e = 0 := log_eq (by norm_num; linarith) (by norm_num; exact h2)
  have hm : magnitude e = 0 := by
    unfold magnitude
    split
    · rw [hlog]; rfl
    · exact hlog
  simp only [corrected, hm, zpow_zero, mul_one]
  rw [if_pos (ten_le_round h1)]
  rfl

theorem corrected_large {e : ℚ} {k : ℕ} (h1 : 10 ^ (k + 1) ≤ e) (h2 : e < 10 ^ (k + 2)) :
    corrected e = k := by
  have hlog : Int.log 10 e = (k : ℤ) + 1 := by
    refine log_eq ?_ ?_
    · exact_mod_cast h1
    · have : (k : ℤ) + 1 + 1 = ((k + 2 : ℕ) : ℤ) := by push_cast; ring
      rw [this, zpow_natCast]; exact h2
  have h10 : (10 : ℚ) ≤ 10 ^ (k + 1) := by
    calc (10 : ℚ) = 10 ^ 1 := by norm_num
      _ ≤ 10 ^ (k + 1) := pow_le_pow_right₀ (by norm_num) (by omega)
  have hm : magnitude e = (k : ℤ) + 1 := by
    rw [magnitude, if_neg (by linarith), hlog]
  have hz : (10 : ℚ) ^ ((k : ℤ) + 1) = 10 ^ (k + 1) := by exact_mod_cast rfl
  simp only [corrected, hm, hz]
  rw [if_pos (ten_le_round (by nlinarith))]
  ring

theorem showInt_nonneg {n : ℤ} (h : 0 ≤ n) : showInt n = showNat n.toNat := by
  rw [showInt, if_neg (not_lt.2 h)]
  simp only [List.nil_append]
  congr 1
  omega

theorem toNat_cast {n : ℤ} (h : 0 ≤ n) : ((n.toNat : ℕ) : ℚ) = n := by
  have : ((n.toNat : ℕ) : ℤ) = n := Int.toNat_of_nonneg h
  exact_mod_cast this

/-- What is printed when `d ≥ 1` decimals are kept. -/
theorem reads_decimals (label : Str) (val : ℚ) {e : ℚ} (he : 0 < e) (raw : Str × Str) {d : ℕ}
    (hd : 1 ≤ d) (hc : corrected e = d) :
    ∃ s, conciseLine label val (.finite e) raw = .ok s ∧
      ReadsAs label s (printed d val) ((roundHalfEven (e * 10 ^ d) : ℚ) /
        10 ^ (dropZeros d (roundHalfEven (|val| * 10 ^ d)).toNat).1) := by
  refine ⟨_, by simp only [conciseLine, if_neg (not_le.2 he)]; rfl, ?_⟩
  have hz : (10 : ℚ) ^ ((d : ℕ) : ℤ) = 10 ^ d := zpow_natCast _ _
  have hN : 0 ≤ roundHalfEven (e * 10 ^ d) := roundHalfEven_nonneg (by positivity)
  simp only [hc, hz, if_pos (show (0 : ℤ) < (d : ℤ) by omega), Int.toNat_natCast]
  set n := (roundHalfEven (|val| * 10 ^ d)).toNat with hn
  obtain ⟨z1, z2, z3, _, _⟩ := dropZeros_spec d n
  obtain ⟨s1, s2, s3⟩ := showNat_spec ((dropZeros d n).2 / 10 ^ (dropZeros d n).1)
  obtain ⟨l1, l2, l3⟩ := lastDigits_spec (dropZeros d n).1 (dropZeros d n).2
  obtain ⟨e1, e2, e3⟩ := showNat_spec (roundHalfEven (e * 10 ^ d)).toNat
  have hbne : lastDigits (dropZeros d n).1 (dropZeros d n).2 ≠ [] := by
    intro h
    rw [h, List.length_nil] at l2
    have := z3 hd
    omega
  refine ⟨if val < 0 then ['-'] else [], if val < 0 then -1 else 1, _, _, _, ?_, s1, s2, l1, e1, e2,
    ?_, ?_, ?_⟩
  · split
    · exact .inr (.inr ⟨rfl, rfl⟩)
    · exact .inl ⟨rfl, rfl⟩
  · rw [if_neg hbne, showInt_nonneg hN, reprRounded, ← hn]
  · rw [natOf_eq s1, natOf_eq l1, s3, l2, l3, printed, ← hn, ← z1]
    have hdm := Nat.div_add_mod (dropZeros d n).2 (10 ^ (dropZeros d n).1)
    have h2 : ((dropZeros d n).2 : ℚ) = 10 ^ (dropZeros d n).1 *
        ((dropZeros d n).2 / 10 ^ (dropZeros d n).1 : ℕ) +
          ((dropZeros d n).2 % 10 ^ (dropZeros d n).1 : ℕ) := by exact_mod_cast hdm.symm
    have hp : (10 : ℚ) ^ (dropZeros d n).1 ≠ 0 := by positivity
    have h3 : ((dropZeros d n).2 : ℚ) / 10 ^ (dropZeros d n).1 =
        ((dropZeros d n).2 / 10 ^ (dropZeros d n).1 : ℕ) +
          ((dropZeros d n).2 % 10 ^ (dropZeros d n).1 : ℕ) / 10 ^ (dropZeros d n).1 := by
      rw [div_eq_iff hp, add_mul, div_mul_cancel₀ _ hp, mul_comm (_ : ℚ) (10 ^ _)]
      exact h2
    rw [h3]
    split <;> simp
  · rw [natOf_eq e1, e3, l2, toNat_cast hN]

/-- What is printed when the value is rounded to an integer. -/
theorem reads_integer (label : Str) (val : ℚ) {e : ℚ} (he : 0 < e) (raw : Str × Str) {m : ℤ}
    (hm : m ≤ 0) (hc : corrected e = m) :
    ∃ s, conciseLine label val (.finite e) raw = .ok s ∧
      ReadsAs label s ((roundHalfEven (val * 10 ^ m) * 10 ^ (-m).toNat : ℤ) : ℚ)
        (roundHalfEven (e * 10 ^ m)) := by
  refine ⟨_, by simp only [conciseLine, if_neg (not_le.2 he)]; rfl, ?_⟩
  have hN : 0 ≤ roundHalfEven (e * 10 ^ m) := roundHalfEven_nonneg (by positivity)
  simp only [hc, if_neg (not_lt.2 hm)]
  set i : ℤ := roundHalfEven (val * 10 ^ m) * 10 ^ (-m).toNat with hi
  obtain ⟨s1, s2, s3⟩ := showNat_spec i.natAbs
  obtain ⟨e1, e2, e3⟩ := showNat_spec (roundHalfEven (e * 10 ^ m)).toNat
  refine ⟨if i < 0 then ['-'] else [], if i < 0 then -1 else 1, _, [], _, ?_, s1, s2, by simp [Digits], e1, e2,
    ?_, ?_, ?_⟩
  · split
    · exact .inr (.inr ⟨rfl, rfl⟩)
    · exact .inl ⟨rfl, rfl⟩
  · rw [showInt_nonneg hN, showInt]
    simp
  · rw [natOf_eq s1, s3]
    have h0 : natOf [] = 0 := rfl
    rw [h0]
    split
    · rename_i h
      have : ((i.natAbs : ℕ) : ℤ) = -i := by omega
      have h2 : ((i.natAbs : ℕ) : ℚ) = ((-i : ℤ) : ℚ) := by rw [← this]; exact (Int.cast_natCast _).symm
      rw [h2]; simp
    · rename_i h
      have : ((i.natAbs : ℕ) : ℤ) = i := by omega
      have h2 : ((i.natAbs : ℕ) : ℚ) = ((i : ℤ) : ℚ) := by rw [← this]; exact (Int.cast_natCast _).symm
      rw [h2]; simp
  · rw [natOf_eq e1, e3, toNat_cast hN]
    simp

theorem rounded_error (e : ℚ) (d : ℕ) :
    Rounded d e ((roundHalfEven (e * 10 ^ d) : ℚ) / 10 ^ d) := by
  refine ⟨⟨_, rfl⟩, ?_⟩
  have hp : (0 : ℚ) < 10 ^ d := by positivity
  have h := roundHalfEven_spec (e * 10 ^ d)
  have : (roundHalfEven (e * 10 ^ d) : ℚ) / 10 ^ d - e =
      ((roundHalfEven (e * 10 ^ d) : ℚ) - e * 10 ^ d) / 10 ^ d := by field_simp
  rw [this, abs_div, abs_of_pos hp, div_le_div_iff₀ hp (by positivity)]
  nlinarith

theorem rounded_value (val : ℚ) : Rounded 0 val (roundHalfEven val) := by
  refine ⟨⟨_, by simp; rfl⟩, ?_⟩
  simpa using roundHalfEven_spec val

theorem reads_exact (label : Str) (val : ℚ) {e : ℚ} (he : 0 < e) (raw : Str × Str) {d : ℕ}
    (hc : corrected e = d) (hz : d ≤ 1 ∨ roundHalfEven (|val| * 10 ^ d) % 10 ≠ 0) :
    ∃ s v u, conciseLine label val (.finite e) raw = .ok s ∧ ReadsAs label s v u ∧
      Rounded d val v ∧ Rounded d e u := by
  rcases Nat.eq_zero_or_pos d with rfl | hd
  · obtain ⟨s, h1, h2⟩ := reads_integer label val he raw (m := 0) le_rfl hc
    refine ⟨s, _, _, h1, h2, ?_, ?_⟩
    · simpa using rounded_value val
    · simpa using rounded_error e 0
  · obtain ⟨s, h1, h2⟩ := reads_decimals label val he raw hd hc
    have h0 : 0 ≤ roundHalfEven (|val| * 10 ^ d) := roundHalfEven_nonneg (by positivity)
    rw [((dropZeros_spec d _).2.2.2.1 (hz.imp id fun h => by omega)).1] at h2
    exact ⟨s, _, _, h1, h2, printed_rounded d val, rounded_error e d⟩

/-- C103, partial: an error below 9.5 is reported with one digit and the value with as many decimals,
both correctly rounded, provided that the value keeps at most one decimal or its last
digit is not zero.  `d` is the number of decimals. -/
theorem C103_small_partial (label : Str) (val : ℚ) {e : ℚ} (raw : Str × Str) {d : ℕ}
    (h1 : 0.95 ≤ e * 10 ^ d) (h2 : e * 10 ^ d < 9.5)
    (hz : d ≤ 1 ∨ roundHalfEven (|val| * 10 ^ d) % 10 ≠ 0) :
    ∃ s v u, conciseLine label val (.finite e) raw = .ok s ∧ ReadsAs label s v u ∧
      Rounded d val v ∧ Rounded d e u := by
  refine reads_exact label val ?_ raw (corrected_small h1 h2) hz
  by_contra hc
  have : e * 10 ^ d ≤ 0 := mul_nonpos_of_nonpos_of_nonneg (not_lt.1 hc) (by positivity)
  linarith

/-- C103, partial: an error between 10 and 100 is reported in units with the value rounded to an integer, one
between 100 and 1000 with one decimal, and so on, under the same proviso. -/
theorem C103_large_partial (label : Str) (val : ℚ) {e : ℚ} (raw : Str × Str) {k : ℕ}
    (h1 : 10 ^ (k + 1) ≤ e) (h2 : e < 10 ^ (k + 2)) (hz : k ≤ 1 ∨ roundHalfEven (|val| * 10 ^ k) % 10 ≠ 0) :
    ∃ s v u, conciseLine label val (.finite e) raw = .ok s ∧ ReadsAs label s v u ∧
      Rounded k val v ∧ Rounded k e u :=
  reads_exact label val (lt_of_lt_of_le (by positivity) h1) raw (corrected_large h1 h2) hz

/-- C103, violated: when two or more decimals are kept and the rounded value ends in zero, the zero is
not printed, and the line reads as an uncertainty more than four times too large. -/
theorem C103_zeros_violated (label : Str) (val : ℚ) {e : ℚ} (raw : Str × Str) {d : ℕ} (hd : 2 ≤ d)
    (h : 0.95 ≤ e * 10 ^ d ∧ e * 10 ^ d < 9.5 ∨ 10 ^ (d + 1) ≤ e ∧ e < 10 ^ (d + 2))
    (hz : roundHalfEven (|val| * 10 ^ d) % 10 = 0) :
    ∃ s, conciseLine label val (.finite e) raw = .ok s ∧ (∃ v u, ReadsAs label s v u) ∧
      ∀ v u, ReadsAs label s v u → Rounded d val v ∧ 4 * e < u := by
  have h1 : 0.95 ≤ e * 10 ^ d := by
    rcases h with h | h
    · exact h.1
    · have a1 : (1 : ℚ) ≤ 10 ^ d := one_le_pow₀ (by norm_num)
      have a2 : (1 : ℚ) ≤ 10 ^ (d + 1) := one_le_pow₀ (by norm_num)
      nlinarith [h.1]
  have he : 0 < e := by
    by_contra hc
    have : e * 10 ^ d ≤ 0 := mul_nonpos_of_nonpos_of_nonneg (not_lt.1 hc) (by positivity)
    linarith
  have hc : corrected e = d := h.elim (fun h => corrected_small h.1 h.2) fun h => corrected_large h.1 h.2
  obtain ⟨s, g1, g2⟩ := reads_decimals label val he raw (by omega : 1 ≤ d) hc
  have h0 : 0 ≤ roundHalfEven (|val| * 10 ^ d) := roundHalfEven_nonneg (by positivity)
  refine ⟨s, g1, ⟨_, _, g2⟩, fun v u hr => ?_⟩
  obtain ⟨rfl, rfl⟩ := readsAs_unique hr g2
  refine ⟨printed_rounded d val, ?_⟩
  set d' := (dropZeros d (roundHalfEven (|val| * 10 ^ d)).toNat).1 with hd'
  have hlt : d' < d := (dropZeros_spec d _).2.2.2.2 hd (by omega)
  have hp : (0 : ℚ) < 10 ^ d' := by positivity
  have hpow : (10 : ℚ) * 10 ^ d' ≤ 10 ^ d := by
    rw [← pow_succ']
    exact pow_le_pow_right₀ (by norm_num) hlt
  have hr := (abs_le.1 (roundHalfEven_spec (e * 10 ^ d))).1
  rw [lt_div_iff₀ hp]
  have : 10 * (e * 10 ^ d') ≤ e * 10 ^ d := by nlinarith
  linarith

/-- C103, violated: an error from 9.5 up to 10 is reported as `(1)` beside an integer, which reads as an
uncertainty of one. -/
theorem C103_ten_violated (label : Str) (val : ℚ) {e : ℚ} (raw : Str × Str) (h1 : 9.5 ≤ e)
    (h2 : e < 10) :
    ∃ s, conciseLine label val (.finite e) raw = .ok s ∧ (∃ v u, ReadsAs label s v u) ∧
      ∀ v u, ReadsAs label s v u → u = 1 := by
  obtain ⟨s, g1, g2⟩ := reads_integer label val (by linarith) raw (m := -1) (by norm_num)
    (corrected_mid h1 h2)
  refine ⟨s, g1, ⟨_, _, g2⟩, fun v u h => ?_⟩
  obtain ⟨_, rfl⟩ := readsAs_unique h g2
  have e1 : e * (10 : ℚ) ^ (-1 : ℤ) = e / 10 := by rw [zpow_neg_one]; ring
  have : roundHalfEven (e * (10 : ℚ) ^ (-1 : ℤ)) = 1 := by
    rw [e1]
    exact le_antisymm (round_le (by push_cast; linarith)) (le_round (by push_cast; linarith))
  exact_mod_cast this

/-- C103: a zero or infinite error is reported unrounded beside the unrounded value. -/
theorem C103_unusable (label : Str) (val : ℚ) (raw : Str × Str) {err : FitError}
    (h : err = .inf ∨ err = .finite 0) :
    conciseLine label val err raw = .ok (label ++ c!" = " ++ raw.1 ++ ['('] ++ raw.2 ++ [')']) := by
  rcases h with rfl | rfl
  · rfl
  · simp [conciseLine]

/-- C103, violated: an error that is not a number stops the run with ValueError. -/
theorem C103_nan_violated (label : Str) (val : ℚ) (raw : Str × Str) :
    conciseLine label val .nan raw = .error .valueError := rfl

/-- C103: the report has a title and one line for each of `E0`, `K0`, `K'`, `V0`, in this order, with the value and the
error of this parameter; the lines are those of the other theorems. -/
theorem C103_block (val : Fin 4 → ℚ) (err : Fin 4 → FitError) (raw : Fin 4 → Str × Str) (h : ∀ i, err i ≠ .nan) :
    ∃ title lines, conciseBlock val err raw = .ok ([] :: title :: lines) ∧ lines.length = 4 ∧
      ∀ i : Fin 4, ∃ l, lines[i.1]? = some l ∧ conciseLine (symbol i) (val i) (err i) (raw i) = .ok l ∧
        symbol i ++ c!" = " <+: l := by
  have key : ∀ i, ∃ l, conciseLine (fitLabel i) (val i) (err i) (raw i) = .ok l ∧ symbol i ++ c!" = " <+: l := by
    intro i
    have hl : fitLabel i = symbol i := by fin_cases i <;> rfl
    rw [hl]
    have := h i
    cases he : err i with
    | nan => exact absurd he this
    | inf => exact ⟨_, rfl, by simp [List.append_assoc]⟩
    | finite e =>
      simp only [conciseLine]
      split <;> exact ⟨_, rfl, by simp [List.append_assoc]⟩
  obtain ⟨l0, h0, s0⟩ := key 0
  obtain ⟨l1, h1, s1⟩ := key 1
  obtain ⟨l2, h2, s2⟩ := key 2
  obtain ⟨l3, h3, s3⟩ := key 3
  refine ⟨c!"EoS fitting parameters for static energy vs volume data:", [l0, l1, l2, l3], ?_, rfl, fun i => ?_⟩
  · simp only [conciseBlock, bind, Except.bind, h0, h1, h2, h3]
  · fin_cases i
    · exact ⟨l0, rfl, h0, s0⟩
    · exact ⟨l1, rfl, h1, s1⟩
    · exact ⟨l2, rfl, h2, s2⟩
    · exact ⟨l3, rfl, h3, s3⟩

/-- `K' = 4.237 ± 0.02`: two decimals, the last digit 4 is not zero. -/
example : (0.95 : ℚ) ≤ 0.02 * 10 ^ 2 ∧ (0.02 : ℚ) * 10 ^ 2 < 9.5 ∧
    roundHalfEven (|4.237| * 10 ^ 2) % 10 ≠ 0 := by
  have : ⌊(423.7 : ℚ)⌋ = 423 := by norm_num [Int.floor_eq_iff]
  have h : (|4.237| * 10 ^ 2 : ℚ) = 423.7 := by norm_num [abs_of_pos]
  rw [h, roundHalfEven]
  simp only [this]
  norm_num

/-- `K' = 4.0 ± 0.02`: printed as `K' = 4.0(2)`. -/
example : (0.95 : ℚ) ≤ 0.02 * 10 ^ 2 ∧ (0.02 : ℚ) * 10 ^ 2 < 9.5 ∧
    roundHalfEven (|4| * 10 ^ 2) % 10 = 0 := by
  have : ⌊(400 : ℚ)⌋ = 400 := by norm_num [Int.floor_eq_iff]
  have h : (|4| * 10 ^ 2 : ℚ) = 400 := by norm_num
  rw [h, roundHalfEven]
  simp only [this]
  norm_num

end Verif.Report
