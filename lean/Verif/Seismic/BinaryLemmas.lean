/-
Lemmas about rounded sums of products and eigenvalues.
-/
import Verif.Elastic.BinaryProps
import Verif.Seismic.BinarySpec
import Verif.Seismic.Stiffer
import Verif.Tac

noncomputable section

namespace Verif.Seismic.Rounded
open Verif.Elastic.Spec (dot)
open Verif.Elastic Verif.Elastic.Rounded Verif.Elastic.Rounded.Spec Verif.Seismic.Spec Verif.Seismic.Rounded.Spec

variable {m : Machine}

/-- One more rounding. -/
theorem step_err (hm : Accurate m) {k : ℕ} {x X B : ℝ} (h : |x - X| ≤ ((1 + u) ^ k - 1) * B) (hX : |X| ≤ B) :
    |m.rnd x - X| ≤ ((1 + u) ^ (k + 1) - 1) * B := by
  have h3 := hm.rnd x
  have h4 := abs_add_le (m.rnd x - x) (x - X)
  rw [sub_add_sub_cancel] at h4
  have h5 := abs_add_le (x - X) X
  rw [sub_add_cancel] at h5
  have h6 : u * |x| ≤ u * ((1 + u) ^ k * B) := mul_le_mul_of_nonneg_left (by linarith) u_pos.le
  rw [pow_succ]
  linarith

theorem Dot.err (hm : Accurate m) {l : List (ℝ × ℝ)} {x : ℝ} (h : Dot m l x) :
    1 ≤ l.length ∧ |x - (l.map fun p => p.1 * p.2).sum| ≤ ((1 + u) ^ l.length - 1) * (l.map fun p => |p.1 * p.2|).sum ∧
      |(l.map fun p => p.1 * p.2).sum| ≤ (l.map fun p => |p.1 * p.2|).sum := by
  have hp {i j : ℕ} (h : i ≤ j) : (1 + u) ^ i ≤ (1 + u) ^ j := pow_le_pow_right₀ (by linarith [u_pos]) h
  have h1 : (1 : ℝ) ≤ 1 + u := by linarith [u_pos]
  induction h with
  | one a b =>
    refine ⟨by simp, ?_, by simp⟩
    have := hm.rnd (a * b)
    simpa using this
  | @both l l' x y h h' ih ih' =>
    obtain ⟨i1, i2, i3⟩ := ih
    obtain ⟨j1, j2, j3⟩ := ih'
    simp only [List.map_append, List.sum_append, List.length_append]
    set A := (l.map fun p => |p.1 * p.2|).sum
    set B := (l'.map fun p => |p.1 * p.2|).sum
    set S := (l.map fun p => p.1 * p.2).sum
    set S' := (l'.map fun p => p.1 * p.2).sum
    have hA : 0 ≤ A := (abs_nonneg _).trans i3
    have hB : 0 ≤ B := (abs_nonneg _).trans j3
    have hs : |S + S'| ≤ A + B := (abs_add_le _ _).trans (add_le_add i3 j3)
    refine ⟨by omega, ?_, hs⟩
    obtain ⟨k, hk⟩ : ∃ k, l.length + l'.length = k + 1 := ⟨l.length + l'.length - 1, by omega⟩
    rw [hk]
    refine step_err hm ?_ hs
    have i4 := i2.trans (mul_le_mul_of_nonneg_right (sub_le_sub_right (hp (show l.length ≤ k by omega)) 1) hA)
    have j4 := j2.trans (mul_le_mul_of_nonneg_right (sub_le_sub_right (hp (show l'.length ≤ k by omega)) 1) hB)
    rw [add_sub_add_comm, mul_add]
    exact (abs_add_le _ _).trans (add_le_add i4 j4)
  | @fused l x a b h ih =>
    obtain ⟨i1, i2, i3⟩ := ih
    simp only [List.map_append, List.sum_append, List.length_append, List.map_cons, List.map_nil, List.sum_cons, List.sum_nil,
      add_zero, List.length_cons, List.length_nil, zero_add]
    set A := (l.map fun p => |p.1 * p.2|).sum
    set S := (l.map fun p => p.1 * p.2).sum
    have hs : |S + a * b| ≤ A + |a * b| := (abs_add_le _ _).trans (add_le_add i3 le_rfl)
    refine ⟨by omega, step_err hm ?_ hs, hs⟩
    have : 0 ≤ ((1 + u) ^ l.length - 1) * |a * b| := mul_nonneg (sub_nonneg.2 (one_le_pow₀ h1)) (abs_nonneg _)
    rw [add_sub_add_right_eq_sub, mul_add]
    linarith
  | @perm l l' x hpm h ih =>
    rw [← hpm.length_eq, ← (hpm.map fun p => p.1 * p.2).sum_eq, ← (hpm.map fun p => |p.1 * p.2|).sum_eq]
    exact ih

/-- A rounded sum of products of rounded numbers. -/
theorem sums_bnd (hm : Accurate m) {k : ℕ} (hk : (k : ℝ) ≤ 10) (hc : (1 + u) ^ k - 1 ≤ (k + 0.001) * u) {a b A B P Q : Fin k → ℝ}
    {p q : ℝ} (hp0 : 0 ≤ p) (hq0 : 0 ≤ q) (hp : p ≤ 100) (hq : q ≤ 100) (ha : ∀ i, Bnd p (P i) (a i) (A i))
    (hb : ∀ i, Bnd q (Q i) (b i) (B i)) {r : ℝ} (hr : Sums m a b r) :
    Bnd (p + q + k + 0.01) (∑ i, P i * Q i) r (∑ i, A i * B i) := by
  obtain ⟨-, h1, -⟩ := Dot.err hm hr
  simp only [List.map_map, Function.comp_def, List.length_map, List.length_finRange, ← Fin.sum_univ_def] at h1
  have hab := fun i => (ha i).mul (hb i) (by linarith) (by linarith)
  have hu := u_pos
  set n := p + q + 0.001 with hn
  set S := ∑ i, P i * Q i with hS
  have hS0 : 0 ≤ S := Finset.sum_nonneg fun i _ => (hab i).b_nonneg
  have h3 : |∑ i, a i * b i - ∑ i, A i * B i| ≤ n * u * S := by
    rw [← Finset.sum_sub_distrib, hS, Finset.mul_sum]
    exact (Finset.abs_sum_le_sum_abs _ _).trans (Finset.sum_le_sum fun i _ => (hab i).err)
  have h4 : ∑ i, |a i * b i| ≤ (1 + n * u) * S := by
    rw [hS, Finset.mul_sum]
    refine Finset.sum_le_sum fun i _ => ?_
    have := abs_add_le (a i * b i - A i * B i) (A i * B i)
    rw [sub_add_cancel] at this
    linarith [(hab i).err, (hab i).le]
  refine ⟨?_, ?_, by positivity⟩
  · have h5 := abs_add_le (r - ∑ i, a i * b i) (∑ i, a i * b i - ∑ i, A i * B i)
    rw [sub_add_sub_cancel] at h5
    have hk0 : (0 : ℝ) ≤ k := Nat.cast_nonneg k
    have h6 : ((1 + u) ^ k - 1) * ∑ i, |a i * b i| ≤ (k + 0.001) * u * ((1 + n * u) * S) :=
      mul_le_mul hc h4 (Finset.sum_nonneg fun i _ => abs_nonneg _) (by positivity)
    have hnu : n * u ≤ 1e-6 := by nlinarith [u_le]
    have h7 : (k + 0.001) * u * (n * u) ≤ 0.001 * u := by
      have : (k + 0.001) * (n * u) ≤ 0.001 := by
        have : (k + 0.001) * (n * u) ≤ 11 * 1e-6 := mul_le_mul (by linarith) hnu (by positivity) (by norm_num)
        linarith
      calc (k + 0.001) * u * (n * u) = (k + 0.001) * (n * u) * u := by ring
        _ ≤ _ := mul_le_mul_of_nonneg_right this hu.le
    have h8 := mul_le_mul_of_nonneg_right h7 hS0
    have h9 := h1.trans h6
    have h10 : 0 ≤ u * S := mul_nonneg hu.le hS0
    clear h1 h6
    refine h5.trans ((add_le_add h9 h3).trans ?_)
    rw [hn]
    rw [hn] at h8
    nlinarith
  · exact (Finset.abs_sum_le_sum_abs _ _).trans (Finset.sum_le_sum fun i _ => (hab i).le)

/-- Adding a multiple of the unit matrix. -/
theorem spectrum_shift {A : M3} {w : V3} (h : Spectrum A w) (c : ℝ) :
    Spectrum (Matrix.of fun i j => A i j + if i = j then c else 0) fun i => w i + c := by
  obtain ⟨h1, h2, e, hf, he⟩ := h
  refine ⟨by linarith, by linarith, e, hf, fun i k => ?_⟩
  have := he i k
  simp only [Matrix.of_apply, add_mul, Finset.sum_add_distrib, ite_mul, zero_mul, Finset.sum_ite_eq, Finset.mem_univ, if_true]
  linarith

/-- The eigenvalues of two symmetric matrices whose entries differ by at most `δ`. -/
theorem spectrum_close {A A' : M3} {w w' : V3} (h : Spectrum A w) (h' : Spectrum A' w') {δ : ℝ} (hd : ∀ i j, |A' i j - A i j| ≤ δ)
    (i : Fin 3) : |w' i - w i| ≤ 3 * δ := by
  have key : ∀ {A A' : M3} {w w' : V3}, Spectrum A w → Spectrum A' w' → (∀ i j, |A' i j - A i j| ≤ δ) → w i ≤ w' i + 3 * δ := by
    intro A A' w w' h h' hd
    refine spectrum_mono h (spectrum_shift h' (3 * δ)) (fun y => ?_) i
    have e : dot y (Matrix.mulVec (Matrix.of fun i j => A' i j + if i = j then 3 * δ else 0) y) - dot y (A.mulVec y) =
        (∑ i, ∑ j, y i * y j * (A' i j - A i j)) + 3 * δ * ∑ i, y i * y i := by
      simp only [dot, Matrix.mulVec, dotProduct, Matrix.of_apply, Fin.sum_univ_three]
      norm_num [Fin.ext_iff]
      ring
    have b : |∑ i, ∑ j, y i * y j * (A' i j - A i j)| ≤ δ * (∑ i, |y i|) ^ 2 := by
      rw [sq, Finset.sum_mul_sum, Finset.mul_sum]
      refine (Finset.abs_sum_le_sum_abs _ _).trans (Finset.sum_le_sum fun i _ => ?_)
      rw [Finset.mul_sum]
      refine (Finset.abs_sum_le_sum_abs _ _).trans (Finset.sum_le_sum fun j _ => ?_)
      rw [abs_mul, abs_mul, mul_comm]
      exact mul_le_mul_of_nonneg_right (hd i j) (by positivity)
    have hδ : 0 ≤ δ := (abs_nonneg _).trans (hd 0 0)
    have c : (∑ i, |y i|) ^ 2 ≤ 3 * ∑ i, y i * y i := by
      simp only [Fin.sum_univ_three, ← abs_mul_abs_self (y _)]
      nlinarith [sq_nonneg (|y 0| - |y 1|), sq_nonneg (|y 0| - |y 2|), sq_nonneg (|y 1| - |y 2|)]
    have := (abs_le.1 b).1
    have := mul_le_mul_of_nonneg_left c hδ
    linarith
  have a := key h h' hd
  have b := key h' h fun i j => by rw [abs_sub_comm]; exact hd i j
  rw [abs_le]
  constructor <;> linarith

theorem lower_symm (A : M3) (i j : Fin 3) : lower A i j = lower A j i := by
  fin_cases i <;> fin_cases j <;> rfl

/-- The eigenvalues that the library returns for a computed matrix. -/
theorem eigh_close {η : ℝ} {eigh : M3 → V3} (he : EighAccurate η eigh) {A A' : M3} (hA : ∀ i j, A i j = A j i) {w : V3}
    (h : Spectrum A w) {n B : ℝ} (hb : ∀ i j, Bnd n B (A' i j) (A i j)) (hη : 0 ≤ η) (hn : n ≤ 1000) (i : Fin 3) :
    |eigh (lower A') i - w i| ≤ (3 * n * u + 1.001 * η) * B := by
  have hl : ∀ i j, |lower A' i j - A i j| ≤ n * u * B := fun i j => by
    simp only [lower, Matrix.of_apply]
    split
    · exact (hb i j).err
    · rw [hA]
      exact (hb j i).err
  have hB := (hb 0 0).b_nonneg
  have hs : ∀ i j, |lower A' i j| ≤ 1.001 * B := fun i j => by
    have h1 := abs_add_le (lower A' i j - A i j) (A i j)
    rw [sub_add_cancel] at h1
    have h2 : n * u * B ≤ 0.001 * B := mul_le_mul_of_nonneg_right (by nlinarith [u_le, u_pos]) hB
    linarith [hl i j, (hb i j).le]
  obtain ⟨w', e, h1, h2, h3⟩ := exists_spectrum (lower A') (lower_symm A')
  have hS : Spectrum (lower A') w' := ⟨h1, h2, e, h3⟩
  have a := he.close _ (lower_symm A') _ hS _ hs i
  have b := spectrum_close h hS hl i
  have c := abs_add_le (eigh (lower A') i - w' i) (w' i - w i)
  rw [sub_add_sub_cancel] at c
  linarith

/-- The square root of a number known with a relative error. -/
theorem sqrt_close {w l r : ℝ} (hl : 0 < l) (hr : r ≤ 1 / 50) (h : |w - l| ≤ r * l) : |√w - √l| ≤ 0.51 * r * √l ∧ 0 < w := by
  have hr0 : 0 ≤ r := by
    by_contra hc
    push Not at hc
    have := (abs_nonneg _).trans h
    nlinarith
  have h1 := abs_le.1 h
  have hw : 0.98 * l ≤ w := by nlinarith
  have hw0 : 0 < w := by nlinarith
  refine ⟨?_, hw0⟩
  have s := Real.sqrt_pos.2 hl
  have a : 0.98 * √l ≤ √w := by
    refine Real.le_sqrt_of_sq_le ?_
    rw [mul_pow, Real.sq_sqrt hl.le]
    nlinarith
  have e : (√w - √l) * (√w + √l) = w - l := by
    have := Real.mul_self_sqrt hl.le
    have := Real.mul_self_sqrt hw0.le
    linarith
  have e2 : |√w - √l| * (√w + √l) ≤ r * (√l * √l) := by
    rw [← abs_of_pos (show 0 < √w + √l by linarith), ← abs_mul, e, Real.mul_self_sqrt hl.le]
    exact h
  have e3 : |√w - √l| * (1.98 * √l) ≤ r * (√l * √l) :=
    (mul_le_mul_of_nonneg_left (by linarith) (abs_nonneg _)).trans e2
  have e4 : |√w - √l| * 1.98 ≤ r * √l := by
    refine le_of_mul_le_mul_right ?_ s
    linarith
  have := mul_nonneg hr0 s.le
  nlinarith

/-- A rounding of a number known with a relative error. -/
theorem rnd_close (hm : Accurate m) {x X r : ℝ} (hX : 0 < X) (hr : r ≤ 1 / 50) (h : |x - X| ≤ r * X) :
    |m.rnd x - X| ≤ (r + 1.02 * u) * X := by
  have h3 := hm.rnd x
  have h4 := abs_add_le (m.rnd x - x) (x - X)
  rw [sub_add_sub_cancel] at h4
  have h5 := abs_add_le (x - X) X
  rw [sub_add_cancel, abs_of_pos hX] at h5
  have h6 : u * |x| ≤ u * (1.02 * X) := mul_le_mul_of_nonneg_left (by nlinarith) u_pos.le
  linarith

end Verif.Seismic.Rounded
