/-
Second-order perturbation theory of the eigenvalues of a symmetric 3×3 matrix.
-/
import Verif.Seismic.Eigen

namespace Verif.Seismic
open Verif.Elastic Verif.Elastic.Spec Spec

theorem dot_comm (a b : V3) : dot a b = dot b a := by simp only [dot, mul_comm]

theorem dot_add (a b c : V3) : dot a (b + c) = dot a b + dot a c := by
  simp only [dot, Pi.add_apply, Fin.sum_univ_three]; ring

theorem dot_smul (a b : V3) (t : ℝ) : dot a (t • b) = t * dot a b := by
  simp only [dot, Pi.smul_apply, smul_eq_mul, Fin.sum_univ_three]; ring

theorem dot_self_nonneg (a : V3) : 0 ≤ dot a a :=
  Finset.sum_nonneg fun i _ => mul_self_nonneg _

theorem frame_complete {e : Fin 3 → V3} (h : Frame e) (a b : Fin 3) :
    ∑ j, e j a * e j b = if a = b then 1 else 0 := by
  have := congrFun (congrFun (frame_mul' h) a) b
  rw [Matrix.mul_apply, Matrix.one_apply] at this
  exact this

/-- Every vector is the sum of its components along a frame. -/
theorem frame_expand {e : Fin 3 → V3} (h : Frame e) (y : V3) : y = ∑ j, dot (e j) y • e j := by
  funext a
  have h0 := frame_complete h a 0
  have h1 := frame_complete h a 1
  have h2 := frame_complete h a 2
  simp only [Fin.sum_univ_three] at h0 h1 h2
  simp only [dot, Finset.sum_apply, Pi.smul_apply, smul_eq_mul, Fin.sum_univ_three]
  fin_cases a <;> simp at h0 h1 h2 ⊢
  · linear_combination -(y 0) * h0 - (y 1) * h1 - (y 2) * h2
  · linear_combination -(y 0) * h0 - (y 1) * h1 - (y 2) * h2
  · linear_combination -(y 0) * h0 - (y 1) * h1 - (y 2) * h2

theorem frame_parseval {e : Fin 3 → V3} (h : Frame e) (y : V3) :
    ∑ j, dot (e j) y ^ 2 = dot y y := by
  conv_rhs => rw [frame_expand h y]
  have e' : ∀ z : V3, dot (∑ j, dot (e j) y • e j) z = ∑ j, dot (e j) y * dot (e j) z := by
    intro z
    simp only [dot, Finset.sum_apply, Pi.smul_apply, smul_eq_mul, Fin.sum_univ_three]
    ring
  rw [e', ← frame_expand h y]
  exact Finset.sum_congr rfl fun j _ => sq _

theorem eigen_mulVec {M : M3} {w : ℝ} {e : V3} (h : Eigen M w e) : M.mulVec e = w • e := by
  funext i
  exact h i

theorem dot_mulVec_symm {M : M3} (hM : ∀ i j, M i j = M j i) (a b : V3) :
    dot a (M.mulVec b) = dot (M.mulVec a) b := by
  simp only [dot, Matrix.mulVec, dotProduct, Fin.sum_univ_three]
  rw [hM 1 0, hM 2 0, hM 2 1]
  ring

theorem eigen_symm {M : M3} {w : V3} {e : Fin 3 → V3} (hf : Frame e)
    (h : ∀ i, Eigen M (w i) (e i)) (i j : Fin 3) : M i j = M j i := by
  have hs := spectral hf h
  have ht : M.transpose = M := by
    conv_lhs => rw [hs]
    rw [Matrix.transpose_mul, Matrix.transpose_mul, Matrix.transpose_transpose,
      Matrix.diagonal_transpose, ← Matrix.mul_assoc]
    exact hs.symm
  exact congrFun (congrFun ht j) i

/-- An approximate eigenvector is close to an eigenvalue. -/
theorem residual {M : M3} {w : V3} {e : Fin 3 → V3} (hf : Frame e)
    (h : ∀ i, Eigen M (w i) (e i)) {x : V3} (hx : 1 ≤ dot x x) {l eps : ℝ} (he : 0 ≤ eps)
    (hr : dot (M.mulVec x - l • x) (M.mulVec x - l • x) ≤ eps ^ 2) : ∃ k, |w k - l| ≤ eps := by
  by_contra hne
  push Not at hne
  have hcomp : ∀ j, dot (e j) (M.mulVec x - l • x) = (w j - l) * dot (e j) x := by
    intro j
    have h1 : dot (e j) (M.mulVec x) = w j * dot (e j) x := by
      rw [dot_mulVec_symm (eigen_symm hf h), eigen_mulVec (h j), dot_comm, dot_smul, dot_comm]
    have h2 : dot (e j) (M.mulVec x - l • x) = dot (e j) (M.mulVec x) - l * dot (e j) x := by
      simp only [dot, Pi.sub_apply, Pi.smul_apply, smul_eq_mul, Fin.sum_univ_three]; ring
    rw [h2, h1]; ring
  rw [← frame_parseval hf] at hr
  have hp := frame_parseval hf x
  have hle : ∀ j, eps ^ 2 * dot (e j) x ^ 2 ≤ dot (e j) (M.mulVec x - l • x) ^ 2 := by
    intro j
    rw [hcomp, mul_pow]
    have : eps ^ 2 ≤ (w j - l) ^ 2 := by
      rw [← sq_abs (w j - l)]
      exact pow_le_pow_left₀ he (hne j).le 2
    exact mul_le_mul_of_nonneg_right this (sq_nonneg _)
  have hex : ∃ j, dot (e j) x ≠ 0 := by
    by_contra hz
    push Not at hz
    simp only [hz, Fin.sum_univ_three] at hp
    norm_num at hp
    linarith
  obtain ⟨j, hj⟩ := hex
  have hlt : eps ^ 2 * dot (e j) x ^ 2 < dot (e j) (M.mulVec x - l • x) ^ 2 := by
    rw [hcomp, mul_pow]
    have : eps ^ 2 < (w j - l) ^ 2 := by
      rw [← sq_abs (w j - l)]
      exact pow_lt_pow_left₀ (hne j) he (by norm_num)
    exact mul_lt_mul_of_pos_right this (by positivity)
  have hsum : ∑ j, eps ^ 2 * dot (e j) x ^ 2 < ∑ j, dot (e j) (M.mulVec x - l • x) ^ 2 :=
    Finset.sum_lt_sum (fun j _ => hle j) ⟨j, Finset.mem_univ j, hlt⟩
  rw [← Finset.mul_sum, hp] at hsum
  nlinarith [sq_nonneg eps]

/-- The reduced resolvent: `Σ_{j ≠ i} (e_j · y) / (w_i - w_j) e_j`. -/
noncomputable def reduced (w : V3) (e : Fin 3 → V3) (i : Fin 3) (y : V3) : V3 :=
  ∑ j, (if j = i then 0 else dot (e j) y / (w i - w j)) • e j

theorem dot_reduced {w : V3} {e : Fin 3 → V3} (hf : Frame e) (i : Fin 3) (y : V3) :
    dot (e i) (reduced w e i y) = 0 := by
  have : dot (e i) (reduced w e i y) =
      ∑ j, (if j = i then 0 else dot (e j) y / (w i - w j)) * dot (e i) (e j) := by
    unfold reduced
    simp only [dot, Finset.sum_apply, Pi.smul_apply, smul_eq_mul, Fin.sum_univ_three]
    ring
  rw [this]
  refine Finset.sum_eq_zero fun j _ => ?_
  rw [hf i j]
  by_cases h : j = i
  · simp [h]
  · rw [if_neg (fun h' : i = j => h h'.symm), mul_zero]

/-- `(w_i - M) R y = y - (e_i · y) e_i`. -/
theorem mulVec_reduced {M : M3} {w : V3} {e : Fin 3 → V3} (hf : Frame e)
    (h : ∀ i, Eigen M (w i) (e i)) {i : Fin 3} (hd : ∀ j, j ≠ i → w i ≠ w j) (y : V3) :
    M.mulVec (reduced w e i y) = w i • reduced w e i y - y + dot (e i) y • e i := by
  have h1 : M.mulVec (reduced w e i y) =
      ∑ j, (if j = i then 0 else dot (e j) y / (w i - w j)) • (w j • e j) := by
    unfold reduced
    rw [Matrix.mulVec_sum]
    refine Finset.sum_congr rfl fun j _ => ?_
    rw [Matrix.mulVec_smul, eigen_mulVec (h j)]
  rw [h1]
  funext a
  have hy : ∑ j, dot (e j) y * e j a = y a := by
    conv_rhs => rw [frame_expand hf y]
    simp only [Finset.sum_apply, Pi.smul_apply, smul_eq_mul]
  unfold reduced
  simp only [Finset.sum_apply, Pi.smul_apply, Pi.sub_apply, Pi.add_apply, smul_eq_mul]
  have key : ∀ j, (if j = i then 0 else dot (e j) y / (w i - w j)) * (w j * e j a) =
      w i * ((if j = i then 0 else dot (e j) y / (w i - w j)) * e j a) - dot (e j) y * e j a +
        (if j = i then dot (e j) y * e j a else 0) := by
    intro j
    by_cases hji : j = i
    · simp [hji]
    · simp only [if_neg hji, add_zero]
      have : w i - w j ≠ 0 := sub_ne_zero.2 (hd j hji)
      field_simp
      ring
  rw [Finset.sum_congr rfl fun j _ => key j, Finset.sum_add_distrib, Finset.sum_sub_distrib,
    ← Finset.mul_sum, Finset.sum_ite_eq' Finset.univ i, hy]
  simp

/-- The eigenvalue predicted by second-order perturbation theory. -/
noncomputable def predicted (M1 M2 : M3) (w : V3) (e : Fin 3 → V3) (i : Fin 3) (t : ℝ) : ℝ :=
  w i + t * dot (e i) (M1.mulVec (e i)) +
    t ^ 2 * (dot (e i) (M2.mulVec (e i)) +
      dot (e i) (M1.mulVec (reduced w e i (M1.mulVec (e i)))))

/-- Some eigenvalue is within `K |t|³` of the prediction. -/
theorem quasimode {M0 M1 M2 : M3} {w : V3} {e : Fin 3 → V3} (hf : Frame e)
    (h : ∀ i, Eigen M0 (w i) (e i)) {i : Fin 3} (hd : ∀ j, j ≠ i → w i ≠ w j) :
    ∃ K : ℝ, 0 ≤ K ∧ ∀ t, |t| ≤ 1 → ∀ w', Spectrum (M0 + t • M1 + t ^ 2 • M2) w' →
      ∃ k, |w' k - predicted M1 M2 w e i t| ≤ K * |t| ^ 3 := by
  set μ := dot (e i) (M1.mulVec (e i)) with hμ
  set u := reduced w e i (M1.mulVec (e i)) with hu
  set ν := dot (e i) (M2.mulVec (e i)) + dot (e i) (M1.mulVec u) with hν
  set y2 := M1.mulVec u + M2.mulVec (e i) - μ • u with hy2
  set z := reduced w e i y2 with hz
  have heu : dot (e i) u = 0 := dot_reduced hf i _
  have hez : dot (e i) z = 0 := dot_reduced hf i _
  have hee : dot (e i) (e i) = 1 := by have := hf i i; rwa [if_pos rfl] at this
  have e0 : M0.mulVec (e i) = w i • e i := eigen_mulVec (h i)
  have e1 : M0.mulVec u = w i • u - M1.mulVec (e i) + μ • e i := mulVec_reduced hf h hd _
  have e2 : M0.mulVec z = w i • z - y2 + ν • e i := by
    rw [hz, mulVec_reduced hf h hd]
    congr 2
    have : dot (e i) y2 = dot (e i) (M1.mulVec u) + dot (e i) (M2.mulVec (e i)) -
        μ * dot (e i) u := by
      simp only [hy2, dot, Pi.sub_apply, Pi.add_apply, Pi.smul_apply, smul_eq_mul,
        Fin.sum_univ_three]
      ring
    rw [this, heu, hν]
    ring
  set a := M1.mulVec z + M2.mulVec u - μ • z - ν • u with ha
  set b := M2.mulVec z - ν • z with hb
  refine ⟨Real.sqrt (2 * (dot a a + dot b b)), Real.sqrt_nonneg _, fun t ht w' hw' => ?_⟩
  obtain ⟨-, -, e', hf', he'⟩ := hw'
  have hx : 1 ≤ dot (e i + t • u + t ^ 2 • z) (e i + t • u + t ^ 2 • z) := by
    have : dot (e i + t • u + t ^ 2 • z) (e i + t • u + t ^ 2 • z) =
        dot (e i) (e i) + 2 * t * dot (e i) u + 2 * t ^ 2 * dot (e i) z +
          dot (t • u + t ^ 2 • z) (t • u + t ^ 2 • z) := by
      simp only [dot, Pi.add_apply, Pi.smul_apply, smul_eq_mul, Fin.sum_univ_three]
      ring
    rw [this, hee, heu, hez]
    linarith [dot_self_nonneg (t • u + t ^ 2 • z)]
  refine residual hf' he' hx (by positivity) ?_
  have hr : (M0 + t • M1 + t ^ 2 • M2).mulVec (e i + t • u + t ^ 2 • z) -
      predicted M1 M2 w e i t • (e i + t • u + t ^ 2 • z) = t ^ 3 • (a + t • b) := by
    have hp : predicted M1 M2 w e i t = w i + t * μ + t ^ 2 * ν := rfl
    rw [hp]
    simp only [Matrix.add_mulVec, Matrix.smul_mulVec, Matrix.mulVec_add, Matrix.mulVec_smul, e0, e1,
      e2, hy2, ha, hb]
    funext k
    simp only [Pi.add_apply, Pi.sub_apply, Pi.smul_apply, smul_eq_mul]
    ring
  rw [hr]
  have h1 : dot (t ^ 3 • (a + t • b)) (t ^ 3 • (a + t • b)) =
      t ^ 6 * dot (a + t • b) (a + t • b) := by
    simp only [dot, Pi.add_apply, Pi.smul_apply, smul_eq_mul, Fin.sum_univ_three]
    ring
  have h2 : dot (a + t • b) (a + t • b) ≤ 2 * (dot a a + dot b b) := by
    have h3 : dot (a + t • b) (a + t • b) + dot (a - t • b) (a - t • b) =
        2 * dot a a + 2 * (t ^ 2 * dot b b) := by
      simp only [dot, Pi.add_apply, Pi.sub_apply, Pi.smul_apply, smul_eq_mul, Fin.sum_univ_three]
      ring
    have h4 : t ^ 2 ≤ 1 := by
      rw [← sq_abs]
      exact pow_le_one₀ (abs_nonneg t) ht
    have h5 := mul_le_mul_of_nonneg_right h4 (dot_self_nonneg b)
    linarith [dot_self_nonneg (a - t • b)]
  rw [h1, mul_pow, Real.sq_sqrt (by linarith [dot_self_nonneg a, dot_self_nonneg b]), ← pow_mul,
    show (3 * 2 : ℕ) = 6 from rfl, show |t| ^ 6 = t ^ 6 from by
      rw [show (6 : ℕ) = 2 * 3 from rfl, pow_mul, sq_abs, pow_mul], mul_comm]
  exact mul_le_mul_of_nonneg_right h2 (by positivity)

/-- Second-order expansion of the sorted eigenvalues along a quadratic curve of matrices whose
eigenvalues at `t = 0` are distinct. -/
theorem eigen_expansion {M0 M1 M2 : M3} {w : V3} {e : Fin 3 → V3} (hf : Frame e)
    (h : ∀ i, Eigen M0 (w i) (e i)) (h01 : w 0 < w 1) (h12 : w 1 < w 2) :
    ∃ K δ : ℝ, 0 < δ ∧ ∀ t, |t| ≤ δ → ∀ w', Spectrum (M0 + t • M1 + t ^ 2 • M2) w' → ∀ i,
      |w' i - predicted M1 M2 w e i t| ≤ K * |t| ^ 3 := by
  have hd : ∀ i j, j ≠ i → w i ≠ w j := by
    intro i j hij
    fin_cases i <;> fin_cases j <;> simp at hij ⊢ <;> intro h' <;> linarith
  choose K hK0 hK using fun i => quasimode (M1 := M1) (M2 := M2) hf h (hd i)
  set B : Fin 3 → ℝ := fun i => |dot (e i) (M1.mulVec (e i))| +
    |dot (e i) (M2.mulVec (e i)) + dot (e i) (M1.mulVec (reduced w e i (M1.mulVec (e i))))| with hB
  have hB0 : ∀ i, 0 ≤ B i := fun i => by positivity
  set S := ∑ i, (B i + K i) with hS
  have hS0 : 0 ≤ S := Finset.sum_nonneg fun i _ => add_nonneg (hB0 i) (hK0 i)
  have hiS : ∀ i, B i + K i ≤ S := fun i =>
    Finset.single_le_sum (f := fun i => B i + K i)
      (fun j _ => add_nonneg (hB0 j) (hK0 j)) (Finset.mem_univ i)
  set g := min (w 1 - w 0) (w 2 - w 1) with hg
  have hg0 : 0 < g := lt_min (sub_pos.2 h01) (sub_pos.2 h12)
  refine ⟨S, min 1 (g / (4 * (S + 1))), lt_min one_pos (by positivity), fun t ht w' hw' => ?_⟩
  have ht1 : |t| ≤ 1 := ht.trans (min_le_left _ _)
  have ht2 : |t| * (4 * (S + 1)) ≤ g :=
    (le_div_iff₀ (by positivity)).1 (ht.trans (min_le_right _ _))
  have ht0 := abs_nonneg t
  choose k hk using fun i => hK i t ht1 w' hw'
  have ht3 : |t| ^ 3 ≤ |t| := by
    calc |t| ^ 3 ≤ |t| ^ 1 := pow_le_pow_of_le_one ht0 ht1 (by norm_num)
      _ = |t| := pow_one _
  have ht22 : |t| ^ 2 ≤ |t| := by
    calc |t| ^ 2 ≤ |t| ^ 1 := pow_le_pow_of_le_one ht0 ht1 (by norm_num)
      _ = |t| := pow_one _
  have near : ∀ i, |w' (k i) - w i| ≤ g / 4 := by
    intro i
    have h1 : |predicted M1 M2 w e i t - w i| ≤ |t| * B i := by
      have : predicted M1 M2 w e i t - w i = t * dot (e i) (M1.mulVec (e i)) +
          t ^ 2 * (dot (e i) (M2.mulVec (e i)) +
            dot (e i) (M1.mulVec (reduced w e i (M1.mulVec (e i))))) := by
        unfold predicted; ring
      rw [this]
      refine (abs_add_le _ _).trans ?_
      rw [abs_mul, abs_mul, abs_pow, hB]
      have := mul_le_mul_of_nonneg_right ht22 (abs_nonneg (dot (e i) (M2.mulVec (e i)) +
            dot (e i) (M1.mulVec (reduced w e i (M1.mulVec (e i))))))
      linarith
    have h2 := hk i
    have h3 : K i * |t| ^ 3 ≤ |t| * K i := by
      rw [mul_comm]
      exact mul_le_mul_of_nonneg_right ht3 (hK0 i)
    have h4 : |w' (k i) - w i| ≤ |t| * (B i + K i) := by
      calc |w' (k i) - w i| = |(w' (k i) - predicted M1 M2 w e i t) +
            (predicted M1 M2 w e i t - w i)| := by congr 1; ring
        _ ≤ _ := abs_add_le _ _
        _ ≤ |t| * (B i + K i) := by rw [mul_add]; linarith
    have h5 := mul_le_mul_of_nonneg_left (hiS i) ht0
    linarith
  obtain ⟨m1, m2, -⟩ := hw'
  have mono : ∀ a b : Fin 3, a ≤ b → w' a ≤ w' b := by
    intro a b hab
    fin_cases a <;> fin_cases b <;> simp at hab ⊢ <;> first | exact m1 | exact m2 | exact m1.trans m2
  have ordered : ∀ a b, w' a < w' b → a < b := fun a b hab =>
    lt_of_not_ge fun hba => absurd (mono b a hba) (not_le.2 hab)
  have n0 := abs_le.1 (near 0)
  have n1 := abs_le.1 (near 1)
  have n2 := abs_le.1 (near 2)
  have g1 : g ≤ w 1 - w 0 := min_le_left _ _
  have g2 : g ≤ w 2 - w 1 := min_le_right _ _
  have o1 : k 0 < k 1 := ordered _ _ (by linarith [n0.2, n1.1])
  have o2 : k 1 < k 2 := ordered _ _ (by linarith [n1.2, n2.1])
  have hki : ∀ i, k i = i := by
    have k0 : k 0 = 0 ∧ k 1 = 1 ∧ k 2 = 2 := by
      generalize k 0 = a at o1
      generalize k 1 = b at o1 o2
      generalize k 2 = c at o2
      revert a b c
      decide
    intro i
    fin_cases i
    · exact k0.1
    · exact k0.2.1
    · exact k0.2.2
  intro i
  have h6 := hk i
  rw [hki i] at h6
  refine h6.trans (mul_le_mul_of_nonneg_right ?_ (by positivity))
  linarith [hiS i, hB0 i]

end Verif.Seismic
