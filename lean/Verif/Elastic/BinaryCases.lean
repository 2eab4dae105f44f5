/-
Concrete crystals that meet the hypotheses of C154.
-/
import Verif.Elastic.BinaryProps
import Verif.StatMech.BinaryProps

noncomputable section

namespace Verif.Elastic.Rounded
open Verif.Elastic Verif.Elastic.Rounded.Spec

/-- Binary64 with correctly rounded library functions. -/
def computer : Machine where
  rnd := StatMech.roundBinary
  sin := fun x => StatMech.roundBinary (Real.sin x)
  cos := fun x => StatMech.roundBinary (Real.cos x)

/-- **C154 (computer).**  IEEE 754 with correctly rounded library functions is accurate. -/
theorem C154_computer : Accurate computer := by
  have h (x : ℝ) : |StatMech.roundBinary x - x| ≤ u * |x| := StatMech.roundBinary_err x
  have h2 (x : ℝ) : |StatMech.roundBinary x - x| ≤ 2 * u * |x| :=
    (h x).trans (mul_le_mul_of_nonneg_right (by linarith [u_pos]) (abs_nonneg _))
  exact ⟨h, fun x => h2 _, fun x => h2 _⟩

/-- Compliances of an isotropic solid with Young's modulus 200 GPa and Poisson's ratio 1/4 (per GPa). -/
def steelS : M6 :=
  Matrix.of ![![0.005, -0.00125, -0.00125, 0, 0, 0], ![-0.00125, 0.005, -0.00125, 0, 0, 0],
    ![-0.00125, -0.00125, 0.005, 0, 0, 0], ![0, 0, 0, 0.0125, 0, 0], ![0, 0, 0, 0, 0.0125, 0], ![0, 0, 0, 0, 0, 0.0125]]

/-- Its stiffness (GPa). -/
def steelC : M6 :=
  Matrix.of ![![240, 80, 80, 0, 0, 0], ![80, 240, 80, 0, 0, 0], ![80, 80, 240, 0, 0, 0], ![0, 0, 0, 80, 0, 0],
    ![0, 0, 0, 0, 80, 0], ![0, 0, 0, 0, 0, 80]]

theorem steel_component (a b c d : V3) : component (Elastic.sTensor steelS) a b c d =
    -0.00125 * ((a 0 * b 0 + a 1 * b 1 + a 2 * b 2) * (c 0 * d 0 + c 1 * d 1 + c 2 * d 2)) +
      0.003125 * ((a 0 * c 0 + a 1 * c 1 + a 2 * c 2) * (b 0 * d 0 + b 1 * d 1 + b 2 * d 2) +
        (a 0 * d 0 + a 1 * d 1 + a 2 * d 2) * (b 0 * c 0 + b 1 * c 1 + b 2 * c 2)) := by
  simp only [component, Fin.sum_univ_three, Elastic.sTensor, sc, vm, steelS]
  norm_num
  simp
  ring

theorem steel_size : size (Elastic.sTensor steelS) = 0.06 := by
  simp only [size, Fin.sum_univ_three, Elastic.sTensor, sc, vm, steelS]
  norm_num
  simp [abs_of_pos]
  norm_num

theorem steel_young (θ φ : ℝ) : young (Elastic.sTensor steelS) (Elastic.vector θ φ) = 200 := by
  have h1 := Real.sin_sq_add_cos_sq θ
  have h2 := Real.sin_sq_add_cos_sq φ
  have e : Real.sin θ * Real.cos φ * (Real.sin θ * Real.cos φ) + Real.sin θ * Real.sin φ * (Real.sin θ * Real.sin φ) +
      Real.cos θ * Real.cos θ = 1 := by
    linear_combination Real.sin θ ^ 2 * h2 + h1
  rw [young, steel_component]
  simp only [Elastic.vector, Matrix.cons_val_zero, Matrix.cons_val_one, Matrix.cons_val]
  rw [e]
  norm_num

/-- On the computer Young's modulus is 200 GPa in every direction up to the eleventh decimal. -/
example (θ φ : ℝ) : |youngModulus computer steelS θ φ - 200| ≤ 1e-10 := by
  refine (C154_young C154_computer steelS θ φ (steel_young θ φ).symm (by norm_num) ?_).trans ?_
  · rw [steel_size]
    norm_num
  · rw [steel_size]
    norm_num [u]

/-- The linear compressibility along `z` is 2.5 per TPa. -/
example : |linearCompressibility computer steelS 0 0 - 2.5| ≤ 1e-12 := by
  refine le_trans (le_of_eq ?_) ((C154_compressibility C154_computer steelS 0 0).trans ?_)
  · congr 2
    simp only [compressibility, Fin.sum_univ_three, Elastic.sTensor, sc, vm, steelS, Elastic.vector]
    norm_num
    simp
    norm_num
  · simp only [Fin.sum_univ_three, Elastic.sTensor, sc, vm, steelS]
    norm_num
    simp [abs_of_pos]
    norm_num [u]

/-- The shear modulus for the shear of `z` planes along `x` is 80 GPa. -/
example : |shearModulus computer steelS 0 0 0 - 80| ≤ 1e-10 := by
  have e : (80 : ℝ) = shear (Elastic.sTensor steelS) (Elastic.vector 0 0) (Elastic.vectorChi 0 0 0) := by
    rw [shear, steel_component]
    simp [Elastic.vector, Elastic.vectorChi]
    norm_num
  refine (C154_shear C154_computer steelS 0 0 0 e (by norm_num) ?_).trans ?_
  · rw [steel_size]
    norm_num
  · rw [steel_size]
    norm_num [u]

/-- Poisson's ratio for a tension along `z` and a contraction along `x` is 1/4. -/
example : |poissonRatio computer steelS 0 0 0 - 0.25| ≤ 1e-12 := by
  have e : (0.25 : ℝ) = poisson (Elastic.sTensor steelS) (Elastic.vector 0 0) (Elastic.vectorChi 0 0 0) := by
    rw [poisson, steel_component, steel_component]
    simp [Elastic.vector, Elastic.vectorChi]
    norm_num
  refine (C154_poisson C154_computer steelS 0 0 0 (steel_young 0 0).symm (by norm_num) e ?_).trans ?_
  · rw [steel_size]
    norm_num
  · rw [steel_size]
    norm_num [u, abs_of_pos]

theorem adds_exists (m : Machine) (x : ℝ) (l : List ℝ) : ∃ s, Adds m (x :: l) s := by
  induction l generalizing x with
  | nil => exact ⟨x, .one x⟩
  | cons y l ih =>
    obtain ⟨s, hs⟩ := ih y
    exact ⟨_, (Adds.one x).both hs⟩

theorem steel_conditioned : Conditioned 3 steelC steelS := by
  constructor <;> simp [Fin.sum_univ_three, vm, steelC, steelS, abs_of_pos] <;> norm_num

/-- The Hill average of Young's modulus, in whatever order numpy adds. -/
example {traceC traceS : ℝ} (hC : Adds computer (traces (cTensor steelC)) traceC)
    (hS : Adds computer (traces (sTensor computer steelS)) traceS) :
    |(averages computer steelC steelS traceC traceS).hill.E - 200| ≤ 1e-11 := by
  have h := (C154_averages C154_computer steel_conditioned (by norm_num) hC hS 7.8).2.2.E
  have e : (Soec.mk steelC 7.8 steelS (Elastic.sTensor steelS) (cTensor steelC)).averages.hill.E = 200 := by
    simp [Soec.averages, Elastic.averageRow, Elastic.voigtG, Elastic.reussG, einsum_iijj, Fin.sum_univ_three, cTensor,
      Elastic.sTensor, sc, vm, steelC, steelS]
    norm_num
  rw [e] at h
  refine h.trans ?_
  norm_num [u]

/-- There are such sums. -/
example : ∃ traceC traceS, Adds computer (traces (cTensor steelC)) traceC ∧
    Adds computer (traces (sTensor computer steelS)) traceS := by
  obtain ⟨s, hs⟩ := adds_exists computer (cTensor steelC 0 0 0 0) (traces (cTensor steelC)).tail
  obtain ⟨t, ht⟩ := adds_exists computer (sTensor computer steelS 0 0 0 0) (traces (sTensor computer steelS)).tail
  exact ⟨s, t, hs, ht⟩

end Verif.Elastic.Rounded
