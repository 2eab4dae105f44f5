/-
Property C165 for the results of a harmonic run, in the units of the user.
-/
import Verif.StatMech.Classical
import Verif.HA.Cases

namespace Verif.HA
open Verif.Py Verif.Units Verif.Units.Spec Verif.StatMech Verif.StatMech.Spec

variable {nt nb nf nv : ℕ} {k : Consts} {s : Settings nt} {x : Input nb nf nv} {r : Results nt nv} {A B C : Scale}

/-- C165, runs: in joule per cell, for a volume with positive frequencies whose quanta are at most `X k_B T`, the vibrational
energy lies between `nf k_B T` and `nf k_B T (1 + X²/12)`, and the heat capacity (printed in thousandths) between
`nf k_B (1 - X²/12)` and `nf k_B`. -/
theorem C165_run (h : run k s x = .ok r) (hA : Means (energiesShort k) s.eunit A) (hB : Means (frequencies k) s.funit B)
    (hC : Means temperatures s.tunit C) (hw : ∀ q, 0 ≤ x.weights q) (hsum : 0 < ∑ q, x.weights q) (i : Fin nt)
    (hT : 0 < C.toRef (s.temperature i)) (n : Fin nv) (hp : ∀ q b, 0 < B.toRef (x.freq q b n)) {X : ℝ}
    (hX : ∀ q b, quanta k (C.toRef (s.temperature i)) (B.toRef (x.freq q b n)) ≤ X) :
    let kT := k.kB * C.toRef (s.temperature i)
    nf * kT ≤ A.toRef (r.Uzp 0 n + r.Uth i n) ∧ A.toRef (r.Uzp 0 n + r.Uth i n) ≤ nf * kT * (1 + X ^ 2 / 12) ∧
    nf * k.kB * (1 - X ^ 2 / 12) ≤ A.toRef (r.Cv i n) / 1000 ∧ A.toRef (r.Cv i n) / 1000 ≤ nf * k.kB := by
  intro kT
  have hN := k.N_pos
  have hk := k.kB_pos
  obtain ⟨e1, e2, -, -, e5⟩ := C14_in_users_units h hA hB hC i n
  have z : ∀ A ∈ energiesShort k, A.offset = 0 := by simp [energiesShort]
  have eU : A.toRef (r.Uzp 0 n + r.Uth i n) = A.toRef (r.Uzp 0 n) + A.toRef (r.Uth i n) := by
    simp only [Scale.toRef, z A hA.1]; ring
  have hw' : ∀ q, 0 ≤ usedWeights x.weights q := fun q => div_nonneg (hw q) hsum.le
  have hs1 : ∑ q, usedWeights x.weights q = 1 := C14_weights _ hsum.ne'
  have hbound : weighted (usedWeights x.weights) (fun q b => quanta k (C.toRef (s.temperature i)) (B.toRef (x.freq q b n)) ^ 2 / 12) ≤
      nf * (X ^ 2 / 12) := by
    have : weighted (usedWeights x.weights) (fun q b => quanta k (C.toRef (s.temperature i)) (B.toRef (x.freq q b n)) ^ 2 / 12) ≤
        weighted (usedWeights x.weights) (fun _ (_ : Fin nf) => X ^ 2 / 12 * 1) := weighted_le hw' fun q b => by
      have h0 := (quanta_pos k hT (hp q b)).le
      have := pow_le_pow_left₀ h0 (hX q b) 2
      linarith
    rw [weighted_mul, weighted_one, hs1] at this
    linarith
  obtain ⟨u1, u2⟩ := C165_energy k (fun i => C.toRef (s.temperature i)) (fun q b n => B.toRef (x.freq q b n)) _ hw' i hT n hp
  obtain ⟨c1, c2⟩ := C165_heat_capacity k (fun i => C.toRef (s.temperature i)) (fun q b n => B.toRef (x.freq q b n)) _ hw' i hT n hp
  rw [hs1] at u1 u2 c1 c2
  have hkT : 0 < kT := mul_pos hk hT
  have hNm : 0 < 1000 / k.N := by positivity
  have m1 := mul_le_mul_of_nonneg_left u1 hNm.le
  have m2 := mul_le_mul_of_nonneg_left u2 hNm.le
  have n1 := mul_le_mul_of_nonneg_left c1 (inv_pos.2 hN).le
  have n2 := mul_le_mul_of_nonneg_left c2 (inv_pos.2 hN).le
  have b1 := mul_le_mul_of_nonneg_left hbound hkT.le
  have b2 := mul_le_mul_of_nonneg_left hbound hk.le
  rw [eU, e1, e2, e5]
  refine ⟨?_, ?_, ?_, ?_⟩
  · rw [← mul_add]
    refine le_trans (le_of_eq ?_) m1
    simp only [kT]; field_simp
  · rw [← mul_add]
    refine m2.trans ?_
    have e : ∀ W : ℝ, 1000 / k.N * (nf * 1 * (k.N / 1000 * (k.kB * C.toRef (s.temperature i))) +
        k.N / 1000 * (k.kB * C.toRef (s.temperature i)) * W) = nf * kT + kT * W := fun W => by
      simp only [kT]; field_simp
    rw [e]
    linarith
  · have e : ∀ W : ℝ, k.N⁻¹ * (nf * 1 * (k.N * k.kB) - k.N * k.kB * W) = nf * k.kB - k.kB * W := fun W => by field_simp
    rw [e] at n1
    refine le_trans ?_ (n1.trans (le_of_eq ?_))
    · linarith
    · field_simp
  · refine le_trans (le_of_eq ?_) (n2.trans (le_of_eq ?_)) <;> field_simp

/-! ### Witnesses -/

namespace Cases

theorem quanta_le (q : Fin 2) (b : Fin 3) : quanta codata 298.15 (10 ^ 12 * (2 + (q.val : ℝ) + b.val)) ≤ 0.9 := by
  have hq : (q.val : ℝ) ≤ 1 := by exact_mod_cast Nat.le_of_lt_succ q.2
  have hb : (b.val : ℝ) ≤ 2 := by exact_mod_cast Nat.le_of_lt_succ b.2
  have hkB := codata.kB_pos
  rw [quanta, div_le_iff₀ (by positivity)]
  have hh := codata.h_pos
  calc codata.h * (10 ^ 12 * (2 + (q.val : ℝ) + b.val)) ≤ codata.h * (10 ^ 12 * 5) := by gcongr; linarith
    _ ≤ 0.9 * (codata.kB * 298.15) := by norm_num [codata]

/-- Modes of 2 to 5 THz at 25 degrees Celsius: the heat capacity is within 7 percent of the law of Dulong and Petit. -/
example : ∃ r, run codata settings input = .ok r ∧ 0.93 * (3 * codata.kB) ≤ codata.eV * r.Cv 0 0 / 1000 := by
  obtain ⟨r, hr⟩ := runs
  have hT : (⟨[c!"celsius", c!"°c", c!"c"], 1, 273.15⟩ : Scale).toRef (settings.temperature 0) = 298.15 := by
    simp [Scale.toRef, settings]; norm_num
  have hf : ∀ q b, (⟨[c!"thz"], 10 ^ 12, 0⟩ : Scale).toRef (input.freq q b 0) = 10 ^ 12 * (2 + (q.val : ℝ) + b.val) := fun q b => by
    simp [Scale.toRef, input]
  have h := (C165_run hr eV thz celsius (fun q => by fin_cases q <;> simp [input]) (by simp [input, Fin.sum_univ_two]; norm_num)
    0 (by rw [hT]; norm_num) 0 (fun q b => by rw [hf]; positivity) (X := 0.9) (fun q b => by rw [hT, hf]; exact quanta_le q b)).2.2.1
  refine ⟨r, hr, le_trans ?_ (h.trans (le_of_eq ?_))⟩
  · have := codata.kB_pos
    push_cast
    nlinarith
  · simp [Scale.toRef]

/-- The tables behind it. -/
example := C165_free_energy codata (fun _ : Fin 1 => 298.15) (fun q b (_ : Fin 1) => 10 ^ 12 * (2 + ((q : Fin 2).val : ℝ) + (b : Fin 3).val))
  ![1 / 4, 3 / 4] (fun q => by fin_cases q <;> norm_num) 0 (by norm_num) 0 (fun q b => by positivity)
example := C165_entropy codata (fun _ : Fin 1 => 298.15) (fun q b (_ : Fin 1) => 10 ^ 12 * (2 + ((q : Fin 2).val : ℝ) + (b : Fin 3).val))
  ![1 / 4, 3 / 4] (fun q => by fin_cases q <;> norm_num) 0 (by norm_num) 0 (fun q b => by positivity)
example := C165_energy codata (fun _ : Fin 1 => 298.15) (fun q b (_ : Fin 1) => 10 ^ 12 * (2 + ((q : Fin 2).val : ℝ) + (b : Fin 3).val))
  ![1 / 4, 3 / 4] (fun q => by fin_cases q <;> norm_num) 0 (by norm_num) 0 (fun q b => by positivity)
example := C165_heat_capacity codata (fun _ : Fin 1 => 298.15) (fun q b (_ : Fin 1) => 10 ^ 12 * (2 + ((q : Fin 2).val : ℝ) + (b : Fin 3).val))
  ![1 / 4, 3 / 4] (fun q => by fin_cases q <;> norm_num) 0 (by norm_num) 0 (fun q b => by positivity)

end Cases
end Verif.HA
