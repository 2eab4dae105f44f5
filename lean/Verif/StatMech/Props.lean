/-
Property theorems C07-C13 (harmonic statistical mechanics).
-/
import Verif.StatMech.Limits
import Mathlib.Algebra.BigOperators.Field

namespace Verif.StatMech
open Verif.Units (Consts)
open Filter Topology

variable {nt nb nf nv : ℕ}

/-! ### C07  F = U - T S -/

/-- For all temperatures, frequencies (of either sign) and weights, at every grid point. -/
theorem C07_F_eq_U_minus_TS (k : Consts) (T : Fin nt → ℝ) (band : Fin nb → Fin nf → Fin nv → ℝ)
    (w : Fin nb → ℝ) (i : Fin nt) (n : Fin nv) :
    vibrationalFreeEnergy k T band w i n =
      zeroPointEnergy k T band w i n + thermalEnergy k T band w i n -
        T i * entropy k T band w i n / 1000 := by
  simp only [vibrationalFreeEnergy, zeroPointEnergy, thermalEnergy, entropy, kernel_eq]
  rw [← Finset.sum_add_distrib, Finset.mul_sum, Finset.sum_div, ← Finset.sum_sub_distrib]
  refine Finset.sum_congr rfl fun j _ => ?_
  rw [← Finset.sum_add_distrib, Finset.mul_sum, Finset.sum_div, ← Finset.sum_sub_distrib]
  refine Finset.sum_congr rfl fun m _ => ?_
  rw [hoF_eq]
  ring

/-- The zero-point energy does not depend on the temperature. -/
theorem C07_zpe_constant (k : Consts) (T : Fin nt → ℝ) (band : Fin nb → Fin nf → Fin nv → ℝ)
    (w : Fin nb → ℝ) (i i' : Fin nt) (n : Fin nv) :
    zeroPointEnergy k T band w i n = zeroPointEnergy k T band w i' n := by
  simp only [zeroPointEnergy, kernel_eq]
  rfl

/-! ### C08  derivatives -/

/-- Value at temperature `t` and volume `n`: the kernel called with the one-element temperature
array `[t]`. -/
noncomputable def atTemp (K : (Fin 1 → ℝ) → (Fin nb → Fin nf → Fin nv → ℝ) → (Fin nb → ℝ) →
    Fin 1 → Fin nv → ℝ) (band : Fin nb → Fin nf → Fin nv → ℝ) (w : Fin nb → ℝ) (n : Fin nv)
    (t : ℝ) : ℝ := K (fun _ => t) band w 0 n

/-- A kernel's entry in row `i` is its value at the temperature `T i`. -/
theorem kernel_row (f : ℝ → ℝ → ℝ) (T : Fin nt → ℝ) (band : Fin nb → Fin nf → Fin nv → ℝ)
    (w : Fin nb → ℝ) (i : Fin nt) (n : Fin nv) :
    kernel f T band w i n = atTemp (kernel f) band w n (T i) := by
  simp only [atTemp, kernel_eq]

theorem hasDerivAt_kernel {f g : ℝ → ℝ → ℝ} {t : ℝ}
    (h : ∀ ω, HasDerivAt (fun s => f s ω) (g t ω) t) (band : Fin nb → Fin nf → Fin nv → ℝ)
    (w : Fin nb → ℝ) (n : Fin nv) :
    HasDerivAt (atTemp (kernel f) band w n) (atTemp (kernel g) band w n t) t := by
  have : atTemp (kernel f) band w n = fun s => ∑ j, ∑ m, f s (band j m n) * w j := by
    funext s; simp only [atTemp, kernel_eq]
  rw [this]
  simp only [atTemp, kernel_eq]
  exact HasDerivAt.fun_sum fun j _ => HasDerivAt.fun_sum fun m _ => (h (band j m n)).mul_const (w j)

/-- `S = -dF/dT` (S in J, F in kJ). -/
theorem C08_entropy_is_minus_dF (k : Consts) (band : Fin nb → Fin nf → Fin nv → ℝ)
    (w : Fin nb → ℝ) (n : Fin nv) {t : ℝ} (ht : 0 < t) :
    HasDerivAt (atTemp (vibrationalFreeEnergy k) band w n)
      (-(atTemp (entropy k) band w n t) / 1000) t := by
  have h := hasDerivAt_kernel (f := hoF k) (g := fun t ω => -(hoS k t ω) / 1000) (t := t)
    (fun ω => hasDerivAt_hoF k ht ω) band w n
  refine h.congr_deriv ?_
  simp only [atTemp, kernel_eq, entropy, ← Finset.sum_neg_distrib, Finset.sum_div]
  refine Finset.sum_congr rfl fun j _ => Finset.sum_congr rfl fun m _ => by ring

/-- `Cv = dU/dT` (Cv in J, U in kJ). -/
theorem C08_heat_capacity_is_dU (k : Consts) (band : Fin nb → Fin nf → Fin nv → ℝ)
    (w : Fin nb → ℝ) (n : Fin nv) {t : ℝ} (ht : 0 < t) :
    HasDerivAt (fun s => atTemp (zeroPointEnergy k) band w n s + atTemp (thermalEnergy k) band w n s)
      (atTemp (isochoricHeatCapacity k) band w n t / 1000) t := by
  have hz : HasDerivAt (atTemp (zeroPointEnergy k) band w n) 0 t := by
    have : atTemp (zeroPointEnergy k) band w n =
        fun _ => atTemp (zeroPointEnergy k) band w n 0 := by
      funext s; simp only [atTemp, zeroPointEnergy, kernel_eq]; rfl
    rw [this]; exact hasDerivAt_const _ _
  have h := hasDerivAt_kernel (f := hoEth k) (g := fun t ω => hoCv k t ω / 1000) (t := t)
    (fun ω => hasDerivAt_hoEth k ht ω) band w n
  refine (hz.add h).congr_deriv ?_
  simp only [atTemp, kernel_eq, isochoricHeatCapacity, Finset.sum_div, zero_add]
  refine Finset.sum_congr rfl fun j _ => Finset.sum_congr rfl fun m _ => by ring

/-- `Cv = T dS/dT`. -/
theorem C08_heat_capacity_is_T_dS (k : Consts) (band : Fin nb → Fin nf → Fin nv → ℝ)
    (w : Fin nb → ℝ) (n : Fin nv) {t : ℝ} (ht : 0 < t) :
    HasDerivAt (atTemp (entropy k) band w n)
      (atTemp (isochoricHeatCapacity k) band w n t / t) t := by
  have h := hasDerivAt_kernel (f := hoS k) (g := fun t ω => hoCv k t ω / t) (t := t)
    (fun ω => hasDerivAt_hoS k ht ω) band w n
  refine h.congr_deriv ?_
  simp only [atTemp, kernel_eq, isochoricHeatCapacity, Finset.sum_div]
  refine Finset.sum_congr rfl fun j _ => Finset.sum_congr rfl fun m _ => by ring

/-! ### C09  bounds -/

theorem kernel_mono {f g : ℝ → ℝ → ℝ} {s t : ℝ} (h : ∀ ω, f s ω ≤ g t ω)
    (band : Fin nb → Fin nf → Fin nv → ℝ) (w : Fin nb → ℝ) (hw : ∀ j, 0 ≤ w j) (n : Fin nv) :
    atTemp (kernel f) band w n s ≤ atTemp (kernel g) band w n t := by
  simp only [atTemp, kernel_eq]
  exact Finset.sum_le_sum fun j _ => Finset.sum_le_sum fun m _ =>
    mul_le_mul_of_nonneg_right (h _) (hw j)

theorem kernel_nonneg {f : ℝ → ℝ → ℝ} {t : ℝ} (h : ∀ ω, 0 ≤ f t ω)
    (band : Fin nb → Fin nf → Fin nv → ℝ) (w : Fin nb → ℝ) (hw : ∀ j, 0 ≤ w j) (n : Fin nv) :
    0 ≤ atTemp (kernel f) band w n t := by
  simp only [atTemp, kernel_eq]
  exact Finset.sum_nonneg fun j _ => Finset.sum_nonneg fun m _ => mul_nonneg (h _) (hw j)

theorem kernel_const_le {f : ℝ → ℝ → ℝ} {t c : ℝ} (h : ∀ ω, f t ω ≤ c)
    (band : Fin nb → Fin nf → Fin nv → ℝ) (w : Fin nb → ℝ) (hw : ∀ j, 0 ≤ w j) (n : Fin nv) :
    atTemp (kernel f) band w n t ≤ nf * (∑ j, w j) * c := by
  simp only [atTemp, kernel_eq]
  calc _ ≤ ∑ j : Fin nb, ∑ _m : Fin nf, c * w j :=
        Finset.sum_le_sum fun j _ => Finset.sum_le_sum fun m _ =>
          mul_le_mul_of_nonneg_right (h _) (hw j)
    _ = _ := by simp [Finset.mul_sum, Finset.sum_mul]; exact Finset.sum_congr rfl fun j _ => by ring

/-- All the bounds: positivity, Dulong-Petit (`nf` modes of total weight `∑ w`), equipartition. -/
theorem C09_bounds (k : Consts) (T : Fin nt → ℝ) (band : Fin nb → Fin nf → Fin nv → ℝ)
    (w : Fin nb → ℝ) (hw : ∀ j, 0 ≤ w j) (i : Fin nt) (hT : 0 ≤ T i) (n : Fin nv) :
    0 ≤ zeroPointEnergy k T band w i n ∧
    0 ≤ thermalEnergy k T band w i n ∧
    thermalEnergy k T band w i n ≤ nf * (∑ j, w j) * (k.N * k.kB * T i / 1000) ∧
    0 ≤ entropy k T band w i n ∧
    0 ≤ isochoricHeatCapacity k T band w i n ∧
    isochoricHeatCapacity k T band w i n ≤ nf * (∑ j, w j) * (k.N * k.kB) ∧
    vibrationalFreeEnergy k T band w i n ≤ zeroPointEnergy k T band w i n := by
  simp only [zeroPointEnergy, thermalEnergy, entropy, isochoricHeatCapacity,
    vibrationalFreeEnergy, kernel_row]
  exact ⟨kernel_nonneg (hoZpe_nonneg k _) band w hw n,
    kernel_nonneg (hoEth_nonneg k hT) band w hw n,
    kernel_const_le (hoEth_le k hT) band w hw n,
    kernel_nonneg (hoS_nonneg k hT) band w hw n,
    kernel_nonneg (hoCv_nonneg k _) band w hw n,
    kernel_const_le (hoCv_le k hT) band w hw n,
    kernel_mono (hoF_le_hoZpe k hT) band w hw n⟩

/-- Witness for C09: a two-q-point, two-band, one-volume case at 300 K. -/
example : (∀ j : Fin 2, (0:ℝ) ≤ (fun _ => 0.5) j) ∧ (0:ℝ) ≤ (fun _ : Fin 1 => (300:ℝ)) 0 := by
  constructor
  · intro _; norm_num
  · norm_num

/-! ### C10  limits -/

theorem thermalEnergy_eq (k : Consts) :
    (thermalEnergy k : (Fin nt → ℝ) → (Fin nb → Fin nf → Fin nv → ℝ) → _ → _) = kernel (hoEth k) := rfl
theorem entropy_eq (k : Consts) :
    (entropy k : (Fin nt → ℝ) → (Fin nb → Fin nf → Fin nv → ℝ) → _ → _) = kernel (hoS k) := rfl
theorem isochoricHeatCapacity_eq (k : Consts) :
    (isochoricHeatCapacity k : (Fin nt → ℝ) → (Fin nb → Fin nf → Fin nv → ℝ) → _ → _) =
      kernel (hoCv k) := rfl
theorem vibrationalFreeEnergy_eq (k : Consts) :
    (vibrationalFreeEnergy k : (Fin nt → ℝ) → (Fin nb → Fin nf → Fin nv → ℝ) → _ → _) =
      kernel (hoF k) := rfl

theorem tendsto_kernel {f : ℝ → ℝ → ℝ} {g : ℝ → ℝ} {l : Filter ℝ}
    (band : Fin nb → Fin nf → Fin nv → ℝ) (n : Fin nv)
    (h : ∀ j m, Tendsto (fun s => f s (band j m n)) l (𝓝 (g (band j m n))))
    (w : Fin nb → ℝ) :
    Tendsto (atTemp (kernel f) band w n) l (𝓝 (∑ j, ∑ m, g (band j m n) * w j)) := by
  have : atTemp (kernel f) band w n = fun s => ∑ j, ∑ m, f s (band j m n) * w j := by
    funext s; simp only [atTemp, kernel_eq]
  rw [this]
  exact tendsto_finsetSum _ fun j _ => tendsto_finsetSum _ fun m _ =>
    (h j m).mul_const (w j)

/-- Third law: as `T` decreases to zero the values tend to those returned at exactly `T = 0`,
namely 0, 0, 0 and the zero-point energy. -/
theorem C10_low_temperature (k : Consts) (band : Fin nb → Fin nf → Fin nv → ℝ) (w : Fin nb → ℝ)
    (n : Fin nv) :
    (Tendsto (atTemp (thermalEnergy k) band w n) (𝓝[>] 0) (𝓝 0) ∧
      atTemp (thermalEnergy k) band w n 0 = 0) ∧
    (Tendsto (atTemp (entropy k) band w n) (𝓝[>] 0) (𝓝 0) ∧
      atTemp (entropy k) band w n 0 = 0) ∧
    (Tendsto (atTemp (isochoricHeatCapacity k) band w n) (𝓝[>] 0) (𝓝 0) ∧
      atTemp (isochoricHeatCapacity k) band w n 0 = 0) ∧
    (Tendsto (atTemp (vibrationalFreeEnergy k) band w n) (𝓝[>] 0)
        (𝓝 (atTemp (zeroPointEnergy k) band w n 0)) ∧
      atTemp (vibrationalFreeEnergy k) band w n 0 = atTemp (zeroPointEnergy k) band w n 0) := by
  refine ⟨⟨?_, ?_⟩, ⟨?_, ?_⟩, ⟨?_, ?_⟩, ⟨?_, ?_⟩⟩
  · have := tendsto_kernel (f := hoEth k) (g := fun _ => 0) band n
      (fun j m => hoEth_tendsto_zero k _) w
    simpa [thermalEnergy_eq, entropy_eq, isochoricHeatCapacity_eq] using this
  · simp [atTemp, thermalEnergy, kernel_eq, hoEth]
  · have := tendsto_kernel (f := hoS k) (g := fun _ => 0) band n
      (fun j m => hoS_tendsto_zero k _) w
    simpa [thermalEnergy_eq, entropy_eq, isochoricHeatCapacity_eq] using this
  · simp [atTemp, entropy, kernel_eq, hoS]
  · have := tendsto_kernel (f := hoCv k) (g := fun _ => 0) band n
      (fun j m => hoCv_tendsto_zero k _) w
    simpa [thermalEnergy_eq, entropy_eq, isochoricHeatCapacity_eq] using this
  · simp [atTemp, isochoricHeatCapacity, kernel_eq, hoCv]
  · have := tendsto_kernel (f := hoF k) (g := fun ω => hoZpe k 0 ω) band n
      (fun j m => hoF_tendsto_zpe k _) w
    simpa only [atTemp, zeroPointEnergy, vibrationalFreeEnergy_eq, kernel_eq] using this
  · simp only [atTemp, zeroPointEnergy, vibrationalFreeEnergy, kernel_eq]
    refine Finset.sum_congr rfl fun j _ => Finset.sum_congr rfl fun m _ => ?_
    rcases le_or_gt (band j m n) 0 with h | h
    · simp [hoF, hoZpe, h]
    · rw [hoF_zero k h]

/-- Dulong-Petit: the heat capacity tends to `NA kB` per mode of positive frequency. -/
theorem C10_high_temperature (k : Consts) (band : Fin nb → Fin nf → Fin nv → ℝ) (w : Fin nb → ℝ)
    (n : Fin nv) (hpos : ∀ j m, 0 < band j m n) :
    Tendsto (atTemp (isochoricHeatCapacity k) band w n) atTop
      (𝓝 (nf * (∑ j, w j) * (k.N * k.kB))) := by
  have := tendsto_kernel (f := hoCv k) (g := fun _ => k.N * k.kB) band n
    (fun j m => hoCv_tendsto_classical k (hpos j m)) w
  have e : (∑ j, ∑ _m : Fin nf, k.N * k.kB * w j) = nf * (∑ j, w j) * (k.N * k.kB) := by
    simp only [Finset.sum_const, Finset.card_univ, Fintype.card_fin, nsmul_eq_mul,
      Finset.mul_sum, Finset.sum_mul]
    exact Finset.sum_congr rfl fun j _ => by ring
  rw [← e]
  exact this

example : ∀ (j : Fin 2) (m : Fin 3), (0:ℝ) < (fun (_ : Fin 2) (m : Fin 3) (_ : Fin 1) =>
    (1e12 * (m + 1) : ℝ)) j m 0 := by
  intro j m; positivity

/-! ### C11  monotonicity in temperature -/

theorem monotone_from_zero {f : ℝ → ℝ} (hm : MonotoneOn f (Set.Ioi 0)) (h0 : f 0 = 0)
    (hp : ∀ t, 0 ≤ t → 0 ≤ f t) {s t : ℝ} (hs : 0 ≤ s) (hst : s ≤ t) : f s ≤ f t := by
  rcases hs.eq_or_lt with rfl | hs
  · rw [h0]; exact hp t hst
  · exact hm (Set.mem_Ioi.2 hs) (Set.mem_Ioi.2 (hs.trans_le hst)) hst

theorem C11_monotone (k : Consts) (band : Fin nb → Fin nf → Fin nv → ℝ) (w : Fin nb → ℝ)
    (hw : ∀ j, 0 ≤ w j) (T : Fin nt → ℝ) (n : Fin nv) (i i' : Fin nt) (h0 : 0 ≤ T i)
    (hle : T i ≤ T i') :
    thermalEnergy k T band w i n ≤ thermalEnergy k T band w i' n ∧
    entropy k T band w i n ≤ entropy k T band w i' n ∧
    isochoricHeatCapacity k T band w i n ≤ isochoricHeatCapacity k T band w i' n ∧
    vibrationalFreeEnergy k T band w i' n ≤ vibrationalFreeEnergy k T band w i n := by
  simp only [thermalEnergy, entropy, isochoricHeatCapacity, vibrationalFreeEnergy, kernel_row]
  refine ⟨kernel_mono (fun ω => ?_) band w hw n, kernel_mono (fun ω => ?_) band w hw n,
    kernel_mono (fun ω => ?_) band w hw n, kernel_mono (fun ω => ?_) band w hw n⟩
  · exact monotone_from_zero (hoEth_monotoneOn k ω) (by simp [hoEth])
      (fun t ht => hoEth_nonneg k ht ω) h0 hle
  · exact monotone_from_zero (hoS_monotoneOn k ω) (by simp [hoS])
      (fun t ht => hoS_nonneg k ht ω) h0 hle
  · exact monotone_from_zero (hoCv_monotoneOn k ω) (by simp [hoCv])
      (fun t _ => hoCv_nonneg k t ω) h0 hle
  · rcases h0.eq_or_lt with h | h
    · rw [← h]
      have h1 := hoF_le_hoZpe k (h0.trans hle) ω
      have h2 : hoF k 0 ω = hoZpe k 0 ω := by
        rcases le_or_gt ω 0 with h | h
        · simp [hoF, hoZpe, h]
        · exact hoF_zero k h
      rw [h2]; exact h1
    · exact hoF_antitoneOn k ω (Set.mem_Ioi.2 h) (Set.mem_Ioi.2 (h.trans_le hle)) hle

/-! ### C12  schedules -/

/-- Every run of the parallel loop - any interleaving of the iterations at the granularity of
single loads and stores - leaves in cell `(i, n)` the weighted sum over q-points and bands. -/
theorem C12_any_schedule (f : ℝ → ℝ → ℝ) (T : Fin nt → ℝ) (band : Fin nb → Fin nf → Fin nv → ℝ)
    (w : Fin nb → ℝ) (s : List (Instr nt nv)) (hs : IsSchedule f T band w s) (i : Fin nt)
    (n : Fin nv) :
    (execAll Mem.zeros s).cell i n = ∑ j, ∑ m, f (T i) (band j m n) * w j ∧
    (execAll Mem.zeros s).cell i n = kernel f T band w i n :=
  ⟨schedule_result f T band w s hs i n,
    (schedule_result f T band w s hs i n).trans (kernel_eq f T band w i n).symm⟩

/-- Witness: the rows in any order form a schedule, and so does an actual interleaving of two
rows. -/
example (f : ℝ → ℝ → ℝ) (T : Fin 2 → ℝ) (band : Fin 1 → Fin 1 → Fin 1 → ℝ) (w : Fin 1 → ℝ) :
    IsSchedule f T band w [.load 0 0, .load 1 0, .store 1 0 (f (T 1) (band 0 0 0) * w 0),
      .store 0 0 (f (T 0) (band 0 0 0) * w 0)] := by
  intro i
  fin_cases i <;> simp [rowProg, Instr.row, List.finRange_succ]

/-! ### C13  independence of the listing -/

/-- Reordering q-points together with their weights, and splitting a q-point into copies that
share its weight: whenever the new list consists of copies of old q-points (`π` says which) and
the weights of the copies of `j` add up to the weight of `j`. -/
theorem C13_q_points {nb' : ℕ} (f : ℝ → ℝ → ℝ) (T : Fin nt → ℝ)
    (band : Fin nb → Fin nf → Fin nv → ℝ) (w : Fin nb → ℝ) (π : Fin nb' → Fin nb)
    (w' : Fin nb' → ℝ) (hw : ∀ j, ∑ j' with π j' = j, w' j' = w j) (i : Fin nt) (n : Fin nv) :
    kernel f T (fun j' => band (π j')) w' i n = kernel f T band w i n := by
  simp only [kernel_eq]
  rw [← Finset.sum_fiberwise (s := Finset.univ) (g := π)]
  refine Finset.sum_congr rfl fun j _ => ?_
  rw [← hw j]
  calc _ = ∑ j' with π j' = j, (∑ m, f (T i) (band j m n)) * w' j' := by
        refine Finset.sum_congr rfl fun j' hj' => ?_
        rw [Finset.mem_filter] at hj'
        rw [hj'.2, Finset.sum_mul]
    _ = _ := by rw [← Finset.mul_sum, Finset.sum_mul]

/-- Reordering the bands of each q-point. -/
theorem C13_bands (f : ℝ → ℝ → ℝ) (T : Fin nt → ℝ) (band : Fin nb → Fin nf → Fin nv → ℝ)
    (w : Fin nb → ℝ) (σ : Fin nb → Fin nv → Equiv.Perm (Fin nf)) (i : Fin nt) (n : Fin nv) :
    kernel f T (fun j m n => band j (σ j n m) n) w i n = kernel f T band w i n := by
  simp only [kernel_eq]
  refine Finset.sum_congr rfl fun j _ => ?_
  exact Equiv.sum_comp (σ j n) fun m => f (T i) (band j m n) * w j

/-- Appending modes of zero or imaginary (listed as non-positive) frequency changes none of the
five quantities. -/
theorem C13_imaginary_modes {extra : ℕ} (k : Consts) (T : Fin nt → ℝ)
    (band : Fin nb → Fin nf → Fin nv → ℝ) (w : Fin nb → ℝ)
    (more : Fin nb → Fin extra → Fin nv → ℝ) (hm : ∀ j m n, more j m n ≤ 0) (i : Fin nt)
    (n : Fin nv) :
    ∀ f ∈ [hoZpe k, hoEth k, hoS k, hoF k, hoCv k],
      kernel f T (fun j => Fin.append (band j) (more j)) w i n = kernel f T band w i n := by
  intro f hf
  have h0 : ∀ t ω, ω ≤ 0 → f t ω = 0 := by
    intro t ω hω
    simp only [List.mem_cons, List.not_mem_nil, or_false] at hf
    rcases hf with rfl | rfl | rfl | rfl | rfl <;> simp [hoZpe, hoEth, hoS, hoF, hoCv, hω]
  simp only [kernel_eq]
  refine Finset.sum_congr rfl fun j _ => ?_
  rw [Fin.sum_univ_add]
  simp only [Fin.append_left, Fin.append_right]
  rw [Finset.sum_eq_zero (s := Finset.univ) (f := fun m => f (T i) (more j m n) * w j), add_zero]
  intro m _
  rw [h0 _ _ (hm j m n), zero_mul]

/-- Witness for C13: one q-point of weight 1 split into two of weights 1/4 and 3/4. -/
example : ∀ j : Fin 1, ∑ j' with (fun _ : Fin 2 => (0 : Fin 1)) j' = j,
    (![1 / 4, 3 / 4] : Fin 2 → ℝ) j' = (fun _ => (1:ℝ)) j := by
  intro j
  fin_cases j
  simp [Fin.sum_univ_two]
  norm_num

end Verif.StatMech
