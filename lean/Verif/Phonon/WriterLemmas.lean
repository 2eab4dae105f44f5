/-
What the formats of the generator of phonon inputs denote.
-/
import Mathlib.Algebra.Order.Field.Power
import Verif.IO.SoecLemmas
import Verif.Phonon.Writer
import Verif.Phonon.YamlSpec

namespace Verif.Phonon
open Verif.Py Verif.IO Verif.IO.Spec Verif.Interfaces Spec

theorem spaces_replicate (n : ℕ) : Spaces (List.replicate n ' ') := fun _ h => List.eq_of_mem_replicate h

theorem spaces_nil : Spaces [] := fun _ h => absurd h (by simp)

theorem spaces_one : Spaces [' '] := by intro c hc; simpa using hc

theorem digitChar_ne {n : ℕ} (h : 0 < n) (h' : n < 10) : digitChar n ≠ '0' := by
  interval_cases n <;> decide

theorem showNat_head {n : ℕ} (h : 0 < n) : (showNat n).head? ≠ some '0' := by
  induction n using Nat.strong_induction_on with
  | _ n ih =>
    rw [showNat]
    split
    · rename_i hn
      simpa using digitChar_ne h hn
    · rename_i hn
      have h1 := ih (n / 10) (by omega) (by omega)
      have h2 := (showNat_spec (n / 10)).2.1
      cases hs : showNat (n / 10) with
      | nil => exact absurd hs h2
      | cons c r => rw [hs] at h1; simpa using h1

theorem showNat_leading (n : ℕ) : showNat n = ['0'] ∨ (showNat n).head? ≠ some '0' := by
  rcases Nat.eq_zero_or_pos n with rfl | h
  · left; rw [showNat]; simp; decide
  · exact .inr (showNat_head h)

/-- `%d` writes the integer. -/
theorem showInt_scalar (n : ℤ) : Scalar (showInt n) (.int n) := by
  obtain ⟨s1, s2, s3⟩ := showNat_spec n.natAbs
  have hv : natOf (showNat n.natAbs) = n.natAbs := by rw [natOf_eq s1, s3]
  unfold showInt
  split
  · have := Scalar.int (sgn := ['-']) (f := -1) (.inr (.inr ⟨rfl, rfl⟩)) s1 s2 (showNat_leading _)
    rw [hv] at this
    rwa [show (-1 : ℤ) * (n.natAbs : ℤ) = n by omega] at this
  · have := Scalar.int (sgn := []) (f := 1) (.inl ⟨rfl, rfl⟩) s1 s2 (showNat_leading _)
    rw [hv] at this
    rwa [show (1 : ℤ) * (n.natAbs : ℤ) = n by omega] at this

theorem showNat_scalar (n : ℕ) : Scalar (showNat n) (.int n) := by
  have := showInt_scalar n
  have hn : ¬ (n : ℤ) < 0 := by omega
  rwa [showInt, if_neg hn, List.nil_append, Int.natAbs_natCast] at this

theorem showInt_ne (n : ℤ) : showInt n ≠ [] := by
  have := (showNat_spec n.natAbs).2.1
  unfold showInt
  simp [this]

theorem natOf_parts (d n : ℕ) :
    (natOf (showNat (n / 10 ^ d)) + (natOf (lastDigits d n) : ℚ) / 10 ^ (lastDigits d n).length) =
      n / 10 ^ d := by
  obtain ⟨s1, s2, s3⟩ := showNat_spec (n / 10 ^ d)
  obtain ⟨l1, l2, l3⟩ := lastDigits_spec d n
  rw [natOf_eq s1, natOf_eq l1, s3, l2, l3]
  have h2 : (n : ℚ) = 10 ^ d * (n / 10 ^ d : ℕ) + (n % 10 ^ d : ℕ) := by
    exact_mod_cast (Nat.div_add_mod n (10 ^ d)).symm
  have hp : (10 : ℚ) ^ d ≠ 0 := by positivity
  field_simp
  linarith

/-- `'{:.df}'` writes a float. -/
theorem formatFixed_scalar (d : ℕ) (x : ℚ) : Scalar (formatFixed d x) (.float (printed d x)) := by
  set n := (roundHalfEven (|x| * 10 ^ d)).toNat with hn
  obtain ⟨s1, s2, s3⟩ := showNat_spec (n / 10 ^ d)
  obtain ⟨l1, l2, l3⟩ := lastDigits_spec d n
  have hs : Sign (if x < 0 then ['-'] else []) (if x < 0 then -1 else 1) := by
    split
    · exact .inr (.inr ⟨rfl, rfl⟩)
    · exact .inl ⟨rfl, rfl⟩
  have h := Scalar.float (x := []) (e := 0) hs s1 s2 l1 (.inl ⟨rfl, rfl⟩)
  rw [natOf_parts] at h
  have e1 : formatFixed d x = (if x < 0 then ['-'] else []) ++ showNat (n / 10 ^ d) ++
      '.' :: lastDigits d n ++ [] := by rw [formatFixed, ← hn, List.append_nil]
  have e2 : printed d x = ((if x < 0 then -1 else 1 : ℤ) : ℚ) * (((n : ℚ) / 10 ^ d) * (10 : ℚ) ^ (0 : ℤ)) := by
    rw [printed, ← hn]
    split <;> simp
  rw [e1, e2]
  exact h

theorem formatFixed_ne (d : ℕ) (x : ℚ) : formatFixed d x ≠ [] := by simp [formatFixed]

/-- The number that `formatSci d x` denotes. -/
noncomputable def printedSci (d : ℕ) (x : ℚ) : ℚ :=
  (if x < 0 then -1 else 1) * (((sciParts d x).1 : ℚ) / 10 ^ d * (10 : ℚ) ^ (sciParts d x).2)

theorem showExp_spec (e : ℤ) : FloatExponent (showExp e) e := by
  obtain ⟨s1, s2, s3⟩ := showNat_spec e.natAbs
  have hd : Digits ((if e.natAbs < 10 then ['0'] else []) ++ showNat e.natAbs) := by
    intro c hc
    rcases List.mem_append.1 hc with h | h
    · split at h
      · rw [List.mem_singleton.1 h]; decide
      · exact absurd h (by simp)
    · exact s1 c h
  have hv : natOf ((if e.natAbs < 10 then ['0'] else []) ++ showNat e.natAbs) = e.natAbs := by
    have h0 : natOf (showNat e.natAbs) = e.natAbs := by rw [natOf_eq s1, s3]
    split
    · have : natOf ('0' :: showNat e.natAbs) = natOf (showNat e.natAbs) := by
        simp [natOf, digits]
      rw [List.singleton_append, this, h0]
    · simpa using h0
  refine .inr ⟨'E', [if e < 0 then '-' else '+'], if e < 0 then -1 else 1,
    (if e.natAbs < 10 then ['0'] else []) ++ showNat e.natAbs, .inr rfl, by simp, ?_, hd, by simp [s2], ?_, ?_⟩
  · split
    · exact .inr (.inr ⟨rfl, rfl⟩)
    · exact .inr (.inl ⟨rfl, rfl⟩)
  · simp [showExp]
  · rw [hv]; split <;> omega

/-- `'{: .dE}'` writes a float, after a space if the number is not negative. -/
theorem formatSci_scalar (d : ℕ) (x : ℚ) :
    ∃ p s, Spaces p ∧ s ≠ [] ∧ formatSci d x = p ++ s ∧ Scalar s (.float (printedSci d x)) := by
  obtain ⟨s1, s2, s3⟩ := showNat_spec ((sciParts d x).1 / 10 ^ d)
  obtain ⟨l1, l2, l3⟩ := lastDigits_spec d (sciParts d x).1
  have hs : Sign (if x < 0 then ['-'] else []) (if x < 0 then -1 else 1) := by
    split
    · exact .inr (.inr ⟨rfl, rfl⟩)
    · exact .inl ⟨rfl, rfl⟩
  have h := Scalar.float hs s1 s2 l1 (showExp_spec (sciParts d x).2)
  rw [natOf_parts] at h
  refine ⟨if x < 0 then [] else [' '], (if x < 0 then ['-'] else []) ++
    showNat ((sciParts d x).1 / 10 ^ d) ++ '.' :: lastDigits d (sciParts d x).1 ++
    showExp (sciParts d x).2, ?_, ?_, ?_, ?_⟩
  rotate_left 3
  · have e2 : printedSci d x = ((if x < 0 then -1 else 1 : ℤ) : ℚ) *
        ((((sciParts d x).1 : ℚ) / 10 ^ d) * (10 : ℚ) ^ (sciParts d x).2) := by
      rw [printedSci]; split <;> simp
    rw [e2]
    exact h
  · split
    · exact spaces_nil
    · exact spaces_one
  · simp
  · unfold formatSci
    by_cases hx : x < 0 <;> simp [hx]

theorem printedSci_significant (d : ℕ) (x : ℚ) : Significant d x (printedSci d x) := by
  by_cases h0 : x = 0
  · subst h0
    refine ⟨⟨0, 0, by positivity, by simp [printedSci, sciParts]⟩, by simp [printedSci, sciParts]⟩
  have hx : 0 < |x| := abs_pos.2 h0
  set e := Int.log 10 |x| with he
  have hlo : (10 : ℚ) ^ e ≤ |x| := by
    have := Int.zpow_log_le_self (b := 10) (by norm_num) hx
    simpa using this
  have hhi : |x| < (10 : ℚ) ^ (e + 1) := by
    have := Int.lt_zpow_succ_log_self (b := 10) (by norm_num) |x|
    simpa using this
  set r := roundHalfEven (|x| * (10 : ℚ) ^ ((d : ℤ) - e)) with hr
  have hr0 : 0 ≤ r := roundHalfEven_nonneg (by positivity)
  have hrs := roundHalfEven_spec (|x| * (10 : ℚ) ^ ((d : ℤ) - e))
  rw [← hr] at hrs
  have hc : ((r.toNat : ℕ) : ℚ) = r := by
    have : ((r.toNat : ℕ) : ℤ) = r := Int.toNat_of_nonneg hr0
    exact_mod_cast this
  have hz : (10 : ℚ) ^ ((d : ℤ) - e) * (10 : ℚ) ^ (e - (d : ℤ)) = 1 := by
    rw [← zpow_add₀ (by norm_num)]; simp
  -- the rounded number does not exceed the next power of ten
  have hle : r ≤ 10 ^ (d + 1) := by
    have h1 : |x| * (10 : ℚ) ^ ((d : ℤ) - e) < 10 ^ (d + 1) := by
      have : (10 : ℚ) ^ (e + 1) * (10 : ℚ) ^ ((d : ℤ) - e) = 10 ^ (d + 1) := by
        rw [← zpow_add₀ (by norm_num), ← zpow_natCast]; congr 1; push_cast; ring
      rw [← this]
      exact mul_lt_mul_of_pos_right hhi (by positivity)
    have h2 := (abs_le.1 hrs).2
    have h3 : (r : ℚ) < 10 ^ (d + 1) + 1 := by linarith
    have h4 : r < 10 ^ (d + 1) + 1 := by exact_mod_cast h3
    omega
  -- the value
  have hval : ((sciParts d x).1 : ℚ) / 10 ^ d * (10 : ℚ) ^ (sciParts d x).2 =
      (r : ℚ) * (10 : ℚ) ^ (e - (d : ℤ)) ∧ ((sciParts d x).1 : ℤ) < 10 ^ (d + 1) := by
    by_cases hm : r.toNat = 10 ^ (d + 1)
    · have hs : sciParts d x = (10 ^ d, e + 1) := by
        unfold sciParts
        rw [if_neg h0]
        simp only [← he, ← hr, hm, if_true]
      rw [hs]
      constructor
      · have hrv : (r : ℚ) = 10 ^ (d + 1) := by rw [← hc, hm]; push_cast; rfl
        have h10 : (10 : ℚ) ^ d ≠ 0 := by positivity
        rw [hrv]
        push_cast
        rw [div_self h10, one_mul, ← zpow_natCast, ← zpow_add₀ (by norm_num)]
        congr 1
        push_cast; ring
      · push_cast
        exact pow_lt_pow_right₀ (by norm_num) (by omega)
    · have hs : sciParts d x = (r.toNat, e) := by
        unfold sciParts
        rw [if_neg h0]
        simp only [← he, ← hr, hm, if_false]
      rw [hs]
      constructor
      · rw [hc, zpow_sub₀ (by norm_num), zpow_natCast]
        ring
      · have hrr : (r.toNat : ℤ) = r := Int.toNat_of_nonneg hr0
        simp only [hrr]
        refine lt_of_le_of_ne hle fun h => hm ?_
        have : (r.toNat : ℤ) = 10 ^ (d + 1) := by rw [hrr, h]
        exact_mod_cast this
  refine ⟨⟨(if x < 0 then -1 else 1) * (sciParts d x).1, (sciParts d x).2 - d, ?_, ?_⟩, ?_⟩
  · rw [abs_mul]
    have : |(if x < 0 then -1 else 1 : ℤ)| = 1 := by split <;> simp
    rw [this, one_mul, abs_of_nonneg (by positivity)]
    exact hval.2
  · rw [printedSci, zpow_sub₀ (by norm_num), zpow_natCast]
    split <;> push_cast <;> ring
  · rw [printedSci, hval.1]
    have hdiff : |(if x < 0 then -1 else 1) * ((r : ℚ) * (10 : ℚ) ^ (e - (d : ℤ))) - x| =
        |(r : ℚ) - |x| * (10 : ℚ) ^ ((d : ℤ) - e)| * (10 : ℚ) ^ (e - (d : ℤ)) := by
      have h10 : (0 : ℚ) < (10 : ℚ) ^ (e - (d : ℤ)) := by positivity
      have hk : ((r : ℚ) - |x| * (10 : ℚ) ^ ((d : ℤ) - e)) * (10 : ℚ) ^ (e - (d : ℤ)) =
          r * (10 : ℚ) ^ (e - (d : ℤ)) - |x| := by
        rw [sub_mul, mul_assoc, hz, mul_one]
      rw [← abs_of_pos h10, ← abs_mul, abs_of_pos h10, hk]
      split
      · rename_i h
        rw [abs_of_neg h, ← abs_neg]
        congr 1
        ring
      · rename_i h
        rw [abs_of_nonneg (not_lt.1 h), one_mul]
    rw [hdiff]
    have hfin : (10 : ℚ) ^ (e - (d : ℤ)) * 10 ^ d = (10 : ℚ) ^ e := by
      rw [zpow_sub₀ (by norm_num), zpow_natCast]; field_simp
    calc _ = (|(r : ℚ) - |x| * (10 : ℚ) ^ ((d : ℤ) - e)| * 2) * ((10 : ℚ) ^ (e - (d : ℤ)) * 10 ^ d) := by ring
      _ ≤ 1 * (10 : ℚ) ^ e := by
          rw [hfin]
          exact mul_le_mul_of_nonneg_right (by linarith) (by positivity)
      _ ≤ |x| := by rw [one_mul]; exact hlo

end Verif.Phonon
