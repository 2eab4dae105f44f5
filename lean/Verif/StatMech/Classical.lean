/-
Property C165: how far the harmonic functions are from their classical values.
-/
import Verif.StatMech.ClassicalLemmas
import Verif.StatMech.Props

namespace Verif.StatMech
open Verif.Units (Consts)

variable {nt nb nf nv : ℕ}

/-! ### Specification -/

namespace Spec

/-- A quantum of the oscillator in units of `k_B T`. -/
noncomputable def quanta (k : Consts) (T ω : ℝ) : ℝ := k.h * ω / (k.kB * T)

/-- Sum over the modes of all q points, with the weights of the points. -/
noncomputable def weighted (w : Fin nb → ℝ) (f : Fin nb → Fin nf → ℝ) : ℝ := ∑ j, w j * ∑ m, f j m

end Spec
open Spec

/-! ### One oscillator -/

theorem quanta_pos (k : Consts) {T ω : ℝ} (hT : 0 < T) (hω : 0 < ω) : 0 < quanta k T ω := by
  have := k.h_pos; have := k.kB_pos
  unfold quanta; positivity

/-- `1 - exp (-x) = 2 exp (-x/2) sinh (x/2)`. -/
theorem one_sub_exp (x : ℝ) : 1 - Real.exp (-x) = Real.exp (-(x / 2)) * (2 * Real.sinh (x / 2)) := by
  rw [Real.sinh_eq]
  have h1 : Real.exp (-(x / 2)) * Real.exp (x / 2) = 1 := by rw [← Real.exp_add]; simp
  have h2 : Real.exp (-(x / 2)) * Real.exp (-(x / 2)) = Real.exp (-x) := by rw [← Real.exp_add]; ring_nf
  linear_combination -h1 + h2

theorem exp_sub_one (x : ℝ) : Real.exp x - 1 = Real.exp (x / 2) * (2 * Real.sinh (x / 2)) := by
  rw [Real.sinh_eq]
  have h1 : Real.exp (x / 2) * Real.exp (-(x / 2)) = 1 := by rw [← Real.exp_add]; simp
  have h2 : Real.exp (x / 2) * Real.exp (x / 2) = Real.exp x := by rw [← Real.exp_add]; ring_nf
  linear_combination h1 - h2

/-- `x/2 + log (1 - exp (-x)) = log x + log (sinh y / y)`, `y = x / 2`. -/
theorem log_one_sub {x : ℝ} (hx : 0 < x) :
    Real.log (1 - Real.exp (-x)) = Real.log x + Real.log (Real.sinh (x / 2) / (x / 2)) - x / 2 := by
  have hs := sinh_pos' (half_pos hx)
  rw [one_sub_exp, Real.log_mul (Real.exp_pos _).ne' (by positivity), Real.log_exp,
    ← Real.log_mul hx.ne' (by positivity)]
  have : x * (Real.sinh (x / 2) / (x / 2)) = 2 * Real.sinh (x / 2) := by field_simp
  rw [this]
  ring

/-- `x/2 + x / (exp x - 1) = y coth y`. -/
theorem half_add {x : ℝ} (hx : 0 < x) :
    x / 2 + x / (Real.exp x - 1) = x / 2 * Real.cosh (x / 2) / Real.sinh (x / 2) := by
  have hs := sinh_pos' (half_pos hx)
  have he := Real.exp_pos (x / 2)
  have h1 : Real.exp (x / 2) = Real.cosh (x / 2) + Real.sinh (x / 2) := (Real.cosh_add_sinh _).symm
  have h2 := Real.cosh_sq (x / 2)
  rw [exp_sub_one]
  rw [h1] at he ⊢
  have hd : (Real.cosh (x / 2) + Real.sinh (x / 2)) * (2 * Real.sinh (x / 2)) ≠ 0 := by positivity
  rw [div_add_div _ _ two_ne_zero hd, div_eq_div_iff (by positivity) hs.ne']
  linear_combination (-2 * x * Real.sinh (x / 2)) * h2

/-- `exp x (x / (exp x - 1))² = (y / sinh y)²`. -/
theorem cv_sinh {x : ℝ} (hx : 0 < x) :
    Real.exp x * (x / (Real.exp x - 1)) ^ 2 = (x / 2 / Real.sinh (x / 2)) ^ 2 := by
  have hs := sinh_pos' (half_pos hx)
  have h2 : Real.exp x = Real.exp (x / 2) ^ 2 := by rw [sq, ← Real.exp_add]; ring_nf
  rw [exp_sub_one, h2]
  have := Real.exp_pos (x / 2)
  field_simp

theorem osc_energy (k : Consts) {T ω : ℝ} (hT : 0 < T) (hω : 0 < ω) :
    k.N / 1000 * (k.kB * T) ≤ hoZpe k T ω + hoEth k T ω ∧
    hoZpe k T ω + hoEth k T ω ≤ k.N / 1000 * (k.kB * T) * (1 + quanta k T ω ^ 2 / 12) := by
  have hx := quanta_pos k hT hω
  have hN := k.N_pos; have hk := k.kB_pos
  have hs := sinh_pos' (half_pos hx)
  have e : hoZpe k T ω + hoEth k T ω =
      k.N / 1000 * (k.kB * T) * (quanta k T ω / 2 * Real.cosh (quanta k T ω / 2) / Real.sinh (quanta k T ω / 2)) := by
    rw [← half_add hx, hoZpe, hoEth, if_neg (not_le.2 hω), if_neg (by simp [hω, hT.ne'])]
    have h1 : k.h * ω = quanta k T ω * (k.kB * T) := by unfold quanta; field_simp
    simp only [show k.h * ω / (k.kB * T) = quanta k T ω from rfl]
    rw [show (10 : ℝ) ^ (-3 : ℤ) * k.N * k.h * (ω * 0.5) = k.N / 1000 * (k.h * ω) / 2 by norm_num; ring, h1]
    norm_num
    ring
  rw [e]
  have hp : 0 < k.N / 1000 * (k.kB * T) := by positivity
  constructor
  · have : 1 ≤ quanta k T ω / 2 * Real.cosh (quanta k T ω / 2) / Real.sinh (quanta k T ω / 2) := by
      rw [le_div_iff₀ hs, one_mul]; exact sinh_le_mul_cosh (half_pos hx).le
    exact le_mul_of_one_le_right hp.le this
  · refine mul_le_mul_of_nonneg_left ?_ hp.le
    rw [div_le_iff₀ hs]
    have := mul_cosh_le (half_pos hx).le
    rw [show quanta k T ω ^ 2 / 12 = (quanta k T ω / 2) ^ 2 / 3 by ring]
    exact this

theorem osc_free (k : Consts) {T ω : ℝ} (hT : 0 < T) (hω : 0 < ω) :
    k.N / 1000 * (k.kB * T) * Real.log (quanta k T ω) ≤ hoF k T ω ∧
    hoF k T ω ≤ k.N / 1000 * (k.kB * T) * (Real.log (quanta k T ω) + quanta k T ω ^ 2 / 24) := by
  have hx := quanta_pos k hT hω
  have hN := k.N_pos; have hk := k.kB_pos
  have hp : 0 < k.N / 1000 * (k.kB * T) := by positivity
  obtain ⟨h1, h2⟩ := log_sinh_bounds (half_pos hx)
  have e : hoF k T ω = k.N / 1000 * (k.kB * T) *
      (Real.log (quanta k T ω) + Real.log (Real.sinh (quanta k T ω / 2) / (quanta k T ω / 2))) := by
    rw [hoF, if_neg (not_le.2 hω)]
    simp only [if_neg hT.ne', show k.h * ω / (k.kB * T) = quanta k T ω from rfl]
    rw [log_one_sub hx, show k.h * ω = quanta k T ω * (k.kB * T) by unfold quanta; field_simp]
    norm_num
    ring
  rw [e]
  refine ⟨mul_le_mul_of_nonneg_left (by linarith) hp.le, mul_le_mul_of_nonneg_left ?_ hp.le⟩
  linarith [show quanta k T ω ^ 2 / 24 = (quanta k T ω / 2) ^ 2 / 6 by ring]

theorem osc_entropy (k : Consts) {T ω : ℝ} (hT : 0 < T) (hω : 0 < ω) :
    k.N * k.kB * (1 - Real.log (quanta k T ω)) ≤ hoS k T ω ∧
    hoS k T ω ≤ k.N * k.kB * (1 - Real.log (quanta k T ω) + quanta k T ω ^ 2 / 24) := by
  have hx := quanta_pos k hT hω
  have hN := k.N_pos; have hk := k.kB_pos
  have hp : 0 < k.N * k.kB := by positivity
  obtain ⟨h1, h2⟩ := entropy_bounds (half_pos hx)
  have e : hoS k T ω = k.N * k.kB * (quanta k T ω / 2 * Real.cosh (quanta k T ω / 2) / Real.sinh (quanta k T ω / 2) -
      Real.log (Real.sinh (quanta k T ω / 2) / (quanta k T ω / 2)) - Real.log (quanta k T ω)) := by
    rw [hoS, if_neg (by simp [hω, hT.ne'])]
    simp only [show k.h * ω / (k.kB * T) = quanta k T ω from rfl]
    rw [log_one_sub hx, ← half_add hx]
    ring
  rw [e]
  refine ⟨mul_le_mul_of_nonneg_left (by linarith) hp.le, mul_le_mul_of_nonneg_left ?_ hp.le⟩
  linarith [show quanta k T ω ^ 2 / 24 = (quanta k T ω / 2) ^ 2 / 6 by ring]

theorem osc_cv (k : Consts) {T ω : ℝ} (hT : 0 < T) (hω : 0 < ω) :
    k.N * k.kB * (1 - quanta k T ω ^ 2 / 12) ≤ hoCv k T ω ∧ hoCv k T ω ≤ k.N * k.kB := by
  have hx := quanta_pos k hT hω
  have hN := k.N_pos; have hk := k.kB_pos
  have hp : 0 < k.N * k.kB := by positivity
  obtain ⟨h1, h2⟩ := sq_div_sinh_bounds (half_pos hx)
  have e : hoCv k T ω = k.N * k.kB * (quanta k T ω / 2 / Real.sinh (quanta k T ω / 2)) ^ 2 := by
    rw [hoCv, if_neg (by simp [hω, hT.ne'])]
    simp only [show k.h * ω / (k.kB * T) = quanta k T ω from rfl]
    have hq : 0 < Real.exp (quanta k T ω) - 1 := by
      have := Real.add_one_le_exp (quanta k T ω); linarith
    rw [if_neg (by positivity), mul_assoc, cv_sinh hx]
  rw [e]
  refine ⟨mul_le_mul_of_nonneg_left ?_ hp.le, mul_le_of_le_one_right hp.le h2⟩
  linarith [show quanta k T ω ^ 2 / 12 = (quanta k T ω / 2) ^ 2 / 3 by ring]

/-! ### Tables -/

theorem weighted_le {w : Fin nb → ℝ} (hw : ∀ j, 0 ≤ w j) {f g : Fin nb → Fin nf → ℝ} (h : ∀ j m, f j m ≤ g j m) :
    weighted w f ≤ weighted w g :=
  Finset.sum_le_sum fun j _ => mul_le_mul_of_nonneg_left (Finset.sum_le_sum fun m _ => h j m) (hw j)

theorem kernel_weighted (f : ℝ → ℝ → ℝ) (T : Fin nt → ℝ) (band : Fin nb → Fin nf → Fin nv → ℝ) (w : Fin nb → ℝ) (i : Fin nt)
    (n : Fin nv) : kernel f T band w i n = weighted w fun j m => f (T i) (band j m n) := by
  rw [kernel_eq]
  exact Finset.sum_congr rfl fun j _ => by rw [Finset.mul_sum]; exact Finset.sum_congr rfl fun m _ => mul_comm _ _

theorem weighted_mul (w : Fin nb → ℝ) (c : ℝ) (f : Fin nb → Fin nf → ℝ) : weighted w (fun j m => c * f j m) = c * weighted w f := by
  simp only [weighted, Finset.mul_sum]
  exact Finset.sum_congr rfl fun j _ => Finset.sum_congr rfl fun m _ => by ring

theorem weighted_add (w : Fin nb → ℝ) (f g : Fin nb → Fin nf → ℝ) :
    weighted w (fun j m => f j m + g j m) = weighted w f + weighted w g := by
  simp only [weighted, Finset.sum_add_distrib, mul_add]

theorem weighted_one (w : Fin nb → ℝ) : weighted w (fun _ (_ : Fin nf) => (1 : ℝ)) = nf * ∑ j, w j := by
  simp [weighted, Finset.sum_mul, mul_comm]

variable (k : Consts) (T : Fin nt → ℝ) (band : Fin nb → Fin nf → Fin nv → ℝ) (w : Fin nb → ℝ)

/-- C165, energy: vibrational energy is at least `k_B T` per mode, and above it by at most a twelfth of `(hν)² / k_B T`. -/
theorem C165_energy (hw : ∀ j, 0 ≤ w j) (i : Fin nt) (hT : 0 < T i) (n : Fin nv) (hp : ∀ j m, 0 < band j m n) :
    let U := zeroPointEnergy k T band w i n + thermalEnergy k T band w i n
    let U₀ := nf * (∑ j, w j) * (k.N / 1000 * (k.kB * T i))
    U₀ ≤ U ∧ U ≤ U₀ + k.N / 1000 * (k.kB * T i) * weighted w (fun j m => quanta k (T i) (band j m n) ^ 2 / 12) := by
  intro U U₀
  have e : U = weighted w fun j m => hoZpe k (T i) (band j m n) + hoEth k (T i) (band j m n) := by
    rw [weighted_add, ← kernel_weighted, ← kernel_weighted]; rfl
  have e0 : U₀ = k.N / 1000 * (k.kB * T i) * weighted w (fun _ (_ : Fin nf) => (1 : ℝ)) := by
    rw [weighted_one]; simp only [U₀]; ring
  rw [e]
  constructor
  · rw [e0, ← weighted_mul]
    exact weighted_le hw fun j m => by rw [mul_one]; exact (osc_energy k hT (hp j m)).1
  · rw [e0, ← mul_add, ← weighted_add, ← weighted_mul]
    exact weighted_le hw fun j m => (osc_energy k hT (hp j m)).2

/-- C165, heat capacity: at most `k_B` per mode, and below it by at most a twelfth of the squared quanta. -/
theorem C165_heat_capacity (hw : ∀ j, 0 ≤ w j) (i : Fin nt) (hT : 0 < T i) (n : Fin nv) (hp : ∀ j m, 0 < band j m n) :
    let C := isochoricHeatCapacity k T band w i n
    let C₀ := nf * (∑ j, w j) * (k.N * k.kB)
    C₀ - k.N * k.kB * weighted w (fun j m => quanta k (T i) (band j m n) ^ 2 / 12) ≤ C ∧ C ≤ C₀ := by
  intro C C₀
  have e : C = weighted w fun j m => hoCv k (T i) (band j m n) := kernel_weighted _ _ _ _ _ _
  have e0 : C₀ = k.N * k.kB * weighted w (fun _ (_ : Fin nf) => (1 : ℝ)) := by
    rw [weighted_one]; simp only [C₀]; ring
  rw [e]
  constructor
  · rw [e0, sub_le_iff_le_add, ← weighted_mul, ← weighted_mul, ← weighted_add]
    exact weighted_le hw fun j m => by linarith [(osc_cv k hT (hp j m)).1]
  · rw [e0, ← weighted_mul]
    exact weighted_le hw fun j m => by rw [mul_one]; exact (osc_cv k hT (hp j m)).2

/-- C165, free energy: at least the classical `k_B T ln (hν / k_B T)` per mode, and above it by at most a twenty-fourth of
`(hν)² / k_B T`. -/
theorem C165_free_energy (hw : ∀ j, 0 ≤ w j) (i : Fin nt) (hT : 0 < T i) (n : Fin nv) (hp : ∀ j m, 0 < band j m n) :
    let F := vibrationalFreeEnergy k T band w i n
    let F₀ := k.N / 1000 * (k.kB * T i) * weighted w (fun j m => Real.log (quanta k (T i) (band j m n)))
    F₀ ≤ F ∧ F ≤ F₀ + k.N / 1000 * (k.kB * T i) * weighted w (fun j m => quanta k (T i) (band j m n) ^ 2 / 24) := by
  intro F F₀
  have e : F = weighted w fun j m => hoF k (T i) (band j m n) := kernel_weighted _ _ _ _ _ _
  rw [e]
  constructor
  · simp only [F₀]
    rw [← weighted_mul]
    exact weighted_le hw fun j m => (osc_free k hT (hp j m)).1
  · simp only [F₀]
    rw [← mul_add, ← weighted_add, ← weighted_mul]
    exact weighted_le hw fun j m => (osc_free k hT (hp j m)).2

/-- C165, entropy: at least the classical `k_B (1 - ln (hν / k_B T))` per mode, and above it by at most a twenty-fourth of the
squared quanta. -/
theorem C165_entropy (hw : ∀ j, 0 ≤ w j) (i : Fin nt) (hT : 0 < T i) (n : Fin nv) (hp : ∀ j m, 0 < band j m n) :
    let S := entropy k T band w i n
    let S₀ := k.N * k.kB * weighted w (fun j m => 1 - Real.log (quanta k (T i) (band j m n)))
    S₀ ≤ S ∧ S ≤ S₀ + k.N * k.kB * weighted w (fun j m => quanta k (T i) (band j m n) ^ 2 / 24) := by
  intro S S₀
  have e : S = weighted w fun j m => hoS k (T i) (band j m n) := kernel_weighted _ _ _ _ _ _
  rw [e]
  constructor
  · simp only [S₀]
    rw [← weighted_mul]
    exact weighted_le hw fun j m => (osc_entropy k hT (hp j m)).1
  · simp only [S₀]
    rw [← mul_add, ← weighted_add, ← weighted_mul]
    exact weighted_le hw fun j m => (osc_entropy k hT (hp j m)).2

end Verif.StatMech
