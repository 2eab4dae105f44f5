/-
Proof work: the errors of the weighted sums.
-/
import Verif.StatMech.BinaryErrors

noncomputable section

namespace Verif.StatMech
open Spec
variable {a : Arith}

theorem u_pos : 0 < u := by norm_num [u]

theorem growth_step (n : ℕ) : growth (n + 1) = growth n + u * (1 + growth n) := by
  simp only [growth]
  ring

theorem growth_ge (n : ℕ) : u ≤ growth n := by
  have h : (1 : ℝ) ≤ (1 + u) ^ n := one_le_pow₀ (by linarith [u_pos])
  have := mul_le_mul_of_nonneg_right h (by linarith [u_pos] : (0 : ℝ) ≤ 1 + u)
  rw [growth, pow_succ]
  linarith

theorem growth_mono {m n : ℕ} (h : m ≤ n) : growth m ≤ growth n := by
  have := pow_le_pow_right₀ (by linarith [u_pos] : (1 : ℝ) ≤ 1 + u) (by omega : m + 1 ≤ n + 1)
  simp only [growth]
  linarith

theorem growth_le {n : ℕ} (h : n ≤ 10 ^ 9) : growth n ≤ 1.2e-16 * (n + 1) := by
  have hx : (1 + u : ℝ) ≤ Real.exp u := by linarith [Real.add_one_le_exp u]
  have h1 : (1 + u) ^ (n + 1) ≤ Real.exp ((n + 1 : ℕ) * u) := by
    rw [Real.exp_nat_mul]
    exact pow_le_pow_left₀ (by linarith [u_pos]) hx _
  have h2 : ((n + 1 : ℕ) : ℝ) * u ≤ 1 / 100 := by
    have : ((n + 1 : ℕ) : ℝ) ≤ 10 ^ 9 + 1 := by exact_mod_cast Nat.succ_le_succ h
    have := mul_le_mul_of_nonneg_right this u_pos.le
    norm_num [u] at this ⊢
    linarith
  have h3 := exp_sub_one_le (θ := ((n + 1 : ℕ) : ℝ) * u) (by rw [abs_of_nonneg (by have := u_pos; positivity)]) h2
  have h4 := le_abs_self (Real.exp (((n + 1 : ℕ) : ℝ) * u) - 1)
  have h5 : 1.01 * (((n + 1 : ℕ) : ℝ) * u) ≤ 1.2e-16 * (n + 1) := by
    push_cast
    have : (0 : ℝ) ≤ n + 1 := by positivity
    have h6 : (1.01 * u : ℝ) ≤ 1.2e-16 := by norm_num [u]
    nlinarith
  rw [growth]
  linarith

/-- The loop over the modes of a cell. -/
theorem fold_err (ha : Accurate a) (f : ℝ → Option ℝ) (F b : ℝ → ℝ) (L : List (ℝ × ℝ))
    (h : ∀ t ∈ L, 0 ≤ t.2 ∧ ∃ v, f t.1 = some v ∧ |v - F t.1| ≤ b t.1) :
    ∃ r, L.foldl (fun r t => r.bind fun r => (f t.1).map fun v => a.rnd (r + a.rnd (v * t.2))) (some 0) = some r ∧
      |r - (L.map fun t => t.2 * F t.1).sum| ≤
        (L.map fun t => t.2 * (b t.1 + growth L.length * (|F t.1| + b t.1))).sum ∧
      ∃ S, |r - S| ≤ growth L.length * (L.map fun t => t.2 * (|F t.1| + b t.1)).sum ∧
        |S - (L.map fun t => t.2 * F t.1).sum| ≤ (L.map fun t => t.2 * b t.1).sum ∧
        |S| ≤ (L.map fun t => t.2 * (|F t.1| + b t.1)).sum := by
  suffices H : ∃ r, L.foldl (fun r t => r.bind fun r => (f t.1).map fun v => a.rnd (r + a.rnd (v * t.2))) (some 0) = some r ∧
      ∃ S, |r - S| ≤ growth L.length * (L.map fun t => t.2 * (|F t.1| + b t.1)).sum ∧
        |S - (L.map fun t => t.2 * F t.1).sum| ≤ (L.map fun t => t.2 * b t.1).sum ∧
        |S| ≤ (L.map fun t => t.2 * (|F t.1| + b t.1)).sum by
    obtain ⟨r, h1, S, h2, h3, h4⟩ := H
    refine ⟨r, h1, ?_, S, h2, h3, h4⟩
    have e : (L.map fun t => t.2 * (b t.1 + growth L.length * (|F t.1| + b t.1))).sum =
        (L.map fun t => t.2 * b t.1).sum + growth L.length * (L.map fun t => t.2 * (|F t.1| + b t.1)).sum := by
      rw [← List.sum_map_mul_left, ← List.sum_map_add]
      congr 1
      refine List.map_congr_left fun t _ => ?_
      ring
    rw [e]
    have := abs_add_le (r - S) (S - (L.map fun t => t.2 * F t.1).sum)
    rw [sub_add_sub_cancel] at this
    linarith
  induction L using List.reverseRecOn with
  | nil => exact ⟨0, rfl, 0, by simp, by simp, by simp⟩
  | append_singleton L t ih =>
    obtain ⟨r, h1, S, h2, h3, h4⟩ := ih fun t' ht' => h t' (by simp [ht'])
    obtain ⟨hw, v, hv, he⟩ := h t (by simp)
    set A := (L.map fun t => t.2 * (|F t.1| + b t.1)).sum with hA
    have hA0 : 0 ≤ A := (abs_nonneg _).trans h4
    set g := growth L.length with hg
    have hg0 : u ≤ g := growth_ge _
    have hu := u_pos
    refine ⟨a.rnd (r + a.rnd (v * t.2)), by rw [List.foldl_append, h1]; simp [hv], S + v * t.2, ?_, ?_, ?_⟩
    · have hvt : |v * t.2| ≤ t.2 * (|F t.1| + b t.1) := by
        rw [abs_mul, abs_of_nonneg hw, mul_comm]
        refine mul_le_mul_of_nonneg_left ?_ hw
        have := abs_add_le (v - F t.1) (F t.1)
        rw [sub_add_cancel] at this
        linarith
      set p := v * t.2
      set B := t.2 * (|F t.1| + b t.1) with hB
      have hB0 : 0 ≤ B := (abs_nonneg _).trans hvt
      have h5 : |a.rnd p - p| ≤ u * B := (ha.rnd p).trans (mul_le_mul_of_nonneg_left hvt hu.le)
      have h6 : |r + a.rnd p - (S + p)| ≤ g * A + u * B := by
        have := abs_add_le (r - S) (a.rnd p - p)
        rw [show r - S + (a.rnd p - p) = r + a.rnd p - (S + p) by ring] at this
        linarith
      have h7 : |S + p| ≤ A + B := (abs_add_le _ _).trans (add_le_add h4 hvt)
      have h8 := err_rnd ha h6
      refine h8.trans ?_
      have h9 : u * (|S + p| + (g * A + u * B)) ≤ u * (A + B + (g * A + u * B)) :=
        mul_le_mul_of_nonneg_left (by linarith) hu.le
      simp only [List.map_append, List.map_cons, List.map_nil, List.sum_append, List.sum_cons, List.sum_nil, add_zero,
        List.length_append, List.length_cons, List.length_nil, zero_add]
      rw [← hA, ← hB, growth_step, ← hg]
      have h10 : 0 ≤ (g - u) * B := mul_nonneg (by linarith) hB0
      have h11 : 0 ≤ u * ((g - u) * B) := mul_nonneg hu.le h10
      linarith
    · simp only [List.map_append, List.map_cons, List.map_nil, List.sum_append, List.sum_cons, List.sum_nil, add_zero]
      have h5 : |v * t.2 - t.2 * F t.1| ≤ t.2 * b t.1 := by
        rw [show v * t.2 - t.2 * F t.1 = t.2 * (v - F t.1) by ring, abs_mul, abs_of_nonneg hw]
        exact mul_le_mul_of_nonneg_left he hw
      have := abs_add_le (S - (L.map fun t => t.2 * F t.1).sum) (v * t.2 - t.2 * F t.1)
      rw [show S - (L.map fun t => t.2 * F t.1).sum + (v * t.2 - t.2 * F t.1) =
        S + v * t.2 - ((L.map fun t => t.2 * F t.1).sum + t.2 * F t.1) by ring] at this
      linarith
    · simp only [List.map_append, List.map_cons, List.map_nil, List.sum_append, List.sum_cons, List.sum_nil, add_zero]
      have hvt : |v * t.2| ≤ t.2 * (|F t.1| + b t.1) := by
        rw [abs_mul, abs_of_nonneg hw, mul_comm]
        refine mul_le_mul_of_nonneg_left ?_ hw
        have := abs_add_le (v - F t.1) (F t.1)
        rw [sub_add_cancel] at this
        linarith
      exact (abs_add_le _ _).trans (add_le_add h4 hvt)

/-- The kernel. -/
theorem kernel_err (ha : Accurate a) (f : ℝ → Option ℝ) (F b : ℝ → ℝ) (points : List (ℝ × List ℝ))
    (h : ∀ p ∈ points, 0 ≤ p.1 ∧ ∀ ω ∈ p.2, ∃ v, f ω = some v ∧ |v - F ω| ≤ b ω) :
    ∃ r, a.kernel f points = some r ∧
      |r - total F points| ≤
        total (fun ω => b ω + growth (modes points).length * (|F ω| + b ω)) points := by
  obtain ⟨r, h1, h2, -⟩ := fold_err ha f F b (points.flatMap fun p => p.2.map fun ω => (ω, p.1)) (by
    intro t ht
    obtain ⟨p, hp, ht⟩ := List.mem_flatMap.1 ht
    obtain ⟨ω, hω, rfl⟩ := List.mem_map.1 ht
    exact ⟨(h p hp).1, (h p hp).2 ω hω⟩)
  refine ⟨r, h1, ?_⟩
  have e : modes points = (points.flatMap fun p => p.2.map fun ω => (ω, p.1)).map Prod.swap := by
    simp [modes, List.map_flatMap, Function.comp_def, Prod.swap]
  simpa [total, e, Function.comp_def] using h2

theorem total_mono {f g : ℝ → ℝ} {points : List (ℝ × List ℝ)}
    (h : ∀ p ∈ points, 0 ≤ p.1 ∧ ∀ ω ∈ p.2, f ω ≤ g ω) : total f points ≤ total g points := by
  refine List.sum_le_sum fun m hm => ?_
  obtain ⟨p, hp, hm⟩ := List.mem_flatMap.1 hm
  obtain ⟨ω, hω, rfl⟩ := List.mem_map.1 hm
  exact mul_le_mul_of_nonneg_left ((h p hp).2 ω hω) (h p hp).1

theorem total_mul (c : ℝ) (f : ℝ → ℝ) (points : List (ℝ × List ℝ)) :
    total (fun ω => c * f ω) points = c * total f points := by
  simp only [total]
  rw [← List.sum_map_mul_left]
  congr 1
  refine List.map_congr_left fun m _ => ?_
  ring

end Verif.StatMech
