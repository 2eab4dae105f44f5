/-
C154: the elastic properties in the arithmetic of the computer.
-/
import Verif.Elastic.BinaryLemmas

noncomputable section

namespace Verif.Elastic.Rounded
open Verif.Elastic Verif.Elastic.Rounded.Spec

variable {m : Machine} {n n' b b' x X y Y : ℝ}

theorem product_bnd (hm : Accurate m) (S : M6) {a a' b b' c c' d d' : V3} {p q r s : ℝ}
    (ha : ∀ i, Bnd p 1 (a i) (a' i)) (hb : ∀ i, Bnd q 1 (b i) (b' i)) (hc : ∀ i, Bnd r 1 (c i) (c' i))
    (hd : ∀ i, Bnd s 1 (d i) (d' i)) (hp : p ≤ 10) (hq : q ≤ 10) (hr : r ≤ 10) (hs : s ≤ 10) (ht : p + q + r + s ≤ 28.1) :
    Bnd 116 (size (Elastic.sTensor S)) (accumulate m quads (product m (sTensor m S) a b c d))
      (component (Elastic.sTensor S) a' b' c' d') := by
  refine quads_bnd hm S _ _ _ _ _ fun t => ?_
  have h1 := ((ha t.1).mul (hb t.2.1) (by linarith) (by linarith)).rnd hm (by linarith)
  have h2 := (h1.mul (hc t.2.2.1) (by linarith) (by linarith)).rnd hm (by linarith)
  have h3 := (h2.mul (hd t.2.2.2) (by linarith) (by linarith)).rnd hm (by linarith)
  have h4 := (h3.mul (bnd_tensor hm S t.1 t.2.1 t.2.2.1 t.2.2.2) (by linarith) (by linarith)).rnd hm (by linarith)
  have h5 := h4.mono (n' := 34) (b' := |Elastic.sTensor S t.1 t.2.1 t.2.2.1 t.2.2.2|) (by linarith) (by simp)
  have e : a' t.1 * b' t.2.1 * c' t.2.2.1 * d' t.2.2.2 * Elastic.sTensor S t.1 t.2.1 t.2.2.1 t.2.2.2 =
    Elastic.sTensor S t.1 t.2.1 t.2.2.1 t.2.2.2 * a' t.1 * b' t.2.1 * c' t.2.2.1 * d' t.2.2.2 := by ring
  rw [e] at h5
  exact h5

theorem young_bnd (hm : Accurate m) (S : M6) {a a' : V3} (ha : ∀ i, Bnd 5.01 1 (a i) (a' i)) :
    Bnd 116 (size (Elastic.sTensor S))
      (accumulate m quads fun t => m.rnd (m.rnd (m.rnd (m.rnd (sTensor m S t.1 t.2.1 t.2.2.1 t.2.2.2 * a t.1) * a t.2.1) *
        a t.2.2.1) * a t.2.2.2)) (component (Elastic.sTensor S) a' a' a' a') := by
  refine quads_bnd hm S _ _ _ _ _ fun t => ?_
  have h1 := ((bnd_tensor hm S t.1 t.2.1 t.2.2.1 t.2.2.2).mul (ha t.1) (by norm_num) (by norm_num)).rnd hm (by norm_num)
  have h2 := (h1.mul (ha t.2.1) (by norm_num) (by norm_num)).rnd hm (by norm_num)
  have h3 := (h2.mul (ha t.2.2.1) (by norm_num) (by norm_num)).rnd hm (by norm_num)
  have h4 := (h3.mul (ha t.2.2.2) (by norm_num) (by norm_num)).rnd hm (by norm_num)
  exact h4.mono (by norm_num) (by simp)

/-- The rounded reciprocal. -/
theorem recip_err (hm : Accurate m) {n b x X κ : ℝ} (h : Bnd n b x X) (hX : X ≠ 0) (hb : b ≤ κ * |X|) (hκ : 1 ≤ κ)
    (hn : n * u * κ ≤ 1 / 100) : |m.rnd (1 / x) - 1 / X| ≤ (1.0204 * n + 1) * u * κ * |1 / X| := by
  have h1 := h.inv hX hb hn
  have h2 := hm.rnd (1 / x)
  have h3 := abs_add_le (m.rnd (1 / x) - 1 / x) (1 / x - 1 / X)
  rw [sub_add_sub_cancel] at h3
  have h4 := abs_add_le (1 / x - 1 / X) (1 / X)
  rw [sub_add_cancel] at h4
  have hp : 0 ≤ |1 / X| := abs_nonneg _
  have h5 : u * |1 / x| ≤ u * (1.0102 * n * u * κ * |1 / X| + |1 / X|) := mul_le_mul_of_nonneg_left (by linarith) u_pos.le
  have h6 : 0 ≤ n * u * κ := mul_nonneg (mul_nonneg h.nonneg u_pos.le) (by linarith)
  have h7 : u * (1.0102 * n * u * κ * |1 / X|) ≤ 0.0102 * (n * u * κ) * |1 / X| := by
    have : u * (1.0102 * (n * u * κ)) ≤ 0.0102 * (n * u * κ) := by nlinarith [u_le, u_pos]
    calc u * (1.0102 * n * u * κ * |1 / X|) = u * (1.0102 * (n * u * κ)) * |1 / X| := by ring
      _ ≤ _ := mul_le_mul_of_nonneg_right this hp
  have h8 : u * |1 / X| ≤ u * κ * |1 / X| := by
    have : u * 1 ≤ u * κ := mul_le_mul_of_nonneg_left hκ u_pos.le
    nlinarith
  calc |m.rnd (1 / x) - 1 / X| ≤ u * (1.0102 * n * u * κ * |1 / X|) + u * |1 / X| + 1.0102 * n * u * κ * |1 / X| := by
        rw [mul_add] at h5
        linarith
    _ ≤ 0.0102 * (n * u * κ) * |1 / X| + u * κ * |1 / X| + 1.0102 * n * u * κ * |1 / X| := by linarith
    _ = _ := by ring

theorem condition_ge {n b x X : ℝ} (h : Bnd n b x X) (hX : X ≠ 0) : 1 ≤ b * |1 / X| := by
  have := abs_pos.2 hX
  rw [abs_div, abs_one, mul_one_div, le_div_iff₀ this, one_mul]
  exact h.le

theorem condition_mul {b X : ℝ} (hX : X ≠ 0) : b = b * |1 / X| * |X| := by
  have := abs_pos.2 hX
  rw [abs_div, abs_one]
  field_simp

/-- **C154 (Young's modulus).**  The relative error of Young's modulus is at most 120 units of rounding times the amount of
cancellation in it: the sum of the absolute values of the compliances over its reciprocal. -/
theorem C154_young (hm : Accurate m) (S : M6) (θ φ : ℝ) {E : ℝ} (hE : E = young (Elastic.sTensor S) (Elastic.vector θ φ)) (h0 : E ≠ 0)
    (h1 : size (Elastic.sTensor S) * |E| ≤ 10 ^ 11) :
    |youngModulus m S θ φ - E| ≤ 120 * u * (size (Elastic.sTensor S) * |E|) * |E| := by
  subst hE
  have h := young_bnd hm S (bnd_vector hm θ φ)
  unfold young at *
  have hX : component (Elastic.sTensor S) (Elastic.vector θ φ) (Elastic.vector θ φ) (Elastic.vector θ φ)
      (Elastic.vector θ φ) ≠ 0 := by
    rintro e
    simp [e] at h0
  have hk := condition_ge h hX
  refine (recip_err hm h hX (condition_mul hX).le hk ?_).trans ?_
  · nlinarith [u_le, u_pos]
  · refine mul_le_mul_of_nonneg_right (mul_le_mul_of_nonneg_right ?_ (by linarith)) (abs_nonneg _)
    nlinarith [u_pos]

/-- **C154 (linear compressibility).**  The error of the linear compressibility is at most 45 units of rounding times the sum of
the absolute values of the compliances in it. -/
theorem C154_compressibility (hm : Accurate m) (S : M6) (θ φ : ℝ) :
    |linearCompressibility m S θ φ - compressibility (Elastic.sTensor S) (Elastic.vector θ φ)| ≤
      45 * u * (1000 * ∑ i, ∑ j, ∑ k, |Elastic.sTensor S i j k k|) := by
  have hv := bnd_vector hm θ φ
  have h := triples_bnd hm (fun t => m.rnd (m.rnd (vector m θ φ t.1 * vector m θ φ t.2.1) * sTensor m S t.1 t.2.1 t.2.2 t.2.2))
    (fun t => Elastic.sTensor S t.1 t.2.1 t.2.2 t.2.2 * Elastic.vector θ φ t.1 * Elastic.vector θ φ t.2.1)
    (fun t => |Elastic.sTensor S t.1 t.2.1 t.2.2 t.2.2|) fun t => by
      have h1 := ((hv t.1).mul (hv t.2.1) (by norm_num) (by norm_num)).rnd hm (by norm_num)
      have h2 := (h1.mul (bnd_tensor hm S t.1 t.2.1 t.2.2 t.2.2) (by norm_num) (by norm_num)).rnd hm (by norm_num)
      have h3 := h2.mono (n' := 14) (b' := |Elastic.sTensor S t.1 t.2.1 t.2.2 t.2.2|) (by norm_num) (by simp)
      rwa [mul_comm (_ * _), ← mul_assoc] at h3
  exact (((h.scale (c := 1000) (by norm_num)).rnd hm (by norm_num)).mono (n' := 45) (by norm_num) le_rfl).err

/-- **C154 (shear modulus).**  The same for the shear modulus. -/
theorem C154_shear (hm : Accurate m) (S : M6) (θ φ χ : ℝ) {G : ℝ}
    (hG : G = shear (Elastic.sTensor S) (Elastic.vector θ φ) (Elastic.vectorChi θ φ χ)) (h0 : G ≠ 0)
    (h1 : 4 * size (Elastic.sTensor S) * |G| ≤ 10 ^ 11) :
    |shearModulus m S θ φ χ - G| ≤ 121 * u * (4 * size (Elastic.sTensor S) * |G|) * |G| := by
  subst hG
  have hv := bnd_vector hm θ φ
  have hw := bnd_vectorChi hm θ φ χ
  have h := ((product_bnd hm S hv hw hv hw (by norm_num) (by norm_num) (by norm_num) (by norm_num) (by norm_num)).scale
    (c := 4) (by norm_num)).rnd hm (by norm_num)
  unfold shear at *
  have hX : 4 * component (Elastic.sTensor S) (Elastic.vector θ φ) (Elastic.vectorChi θ φ χ) (Elastic.vector θ φ)
      (Elastic.vectorChi θ φ χ) ≠ 0 := by
    rintro e
    simp only [e, div_zero, ne_eq, not_true_eq_false] at h0
  have hk := condition_ge h hX
  refine (recip_err hm h hX (condition_mul hX).le hk ?_).trans ?_
  · nlinarith [u_le, u_pos]
  · refine mul_le_mul_of_nonneg_right (mul_le_mul_of_nonneg_right ?_ (by linarith)) (abs_nonneg _)
    nlinarith [u_pos]

/-- **C154 (Poisson's ratio).**  Poisson's ratio is wrong by at most 120 units of rounding times the cancellation in Young's modulus
(and times one plus itself). -/
theorem C154_poisson (hm : Accurate m) (S : M6) (θ φ χ : ℝ) {E ν : ℝ}
    (hE : E = young (Elastic.sTensor S) (Elastic.vector θ φ)) (h0 : E ≠ 0)
    (hν : ν = poisson (Elastic.sTensor S) (Elastic.vector θ φ) (Elastic.vectorChi θ φ χ))
    (h1 : size (Elastic.sTensor S) * |E| ≤ 10 ^ 11) :
    |poissonRatio m S θ φ χ - ν| ≤ 120 * u * (size (Elastic.sTensor S) * |E|) * (1 + |ν|) := by
  subst hE hν
  have hv := bnd_vector hm θ φ
  have hw := bnd_vectorChi hm θ φ χ
  have g1 := product_bnd hm S hv hv hw hw (by norm_num) (by norm_num) (by norm_num) (by norm_num) (by norm_num)
  have g2 := product_bnd hm S hv hv hv hv (by norm_num) (by norm_num) (by norm_num) (by norm_num) (by norm_num)
  unfold young at *
  have hX : component (Elastic.sTensor S) (Elastic.vector θ φ) (Elastic.vector θ φ) (Elastic.vector θ φ)
      (Elastic.vector θ φ) ≠ 0 := by
    rintro e
    simp [e] at h0
  have hk := condition_ge g2 hX
  unfold poissonRatio poissonAlong poisson
  set X1 := component (Elastic.sTensor S) (Elastic.vector θ φ) (Elastic.vector θ φ) (Elastic.vectorChi θ φ χ)
    (Elastic.vectorChi θ φ χ)
  set X2 := component (Elastic.sTensor S) (Elastic.vector θ φ) (Elastic.vector θ φ) (Elastic.vector θ φ) (Elastic.vector θ φ)
  set x1 := accumulate m quads (product m (sTensor m S) (vector m θ φ) (vector m θ φ) (vectorChi m θ φ χ) (vectorChi m θ φ χ))
  set x2 := accumulate m quads (product m (sTensor m S) (vector m θ φ) (vector m θ φ) (vector m θ φ) (vector m θ φ))
  set σ := size (Elastic.sTensor S)
  set κ := σ * |1 / X2| with hκ
  have hu := u_pos
  have hu' := u_le
  have hi := g2.inv hX (condition_mul hX).le (by nlinarith)
  rw [← hκ] at hi
  have hX' : 0 < |X2| := abs_pos.2 hX
  -- the quotient before its rounding
  have e : -x1 / x2 - -X1 / X2 = -((x1 - X1) * (1 / x2)) - X1 / X2 * (X2 * (1 / x2 - 1 / X2)) := by
    field_simp
    ring
  have t0 : |1 / x2| ≤ 1.01 * |1 / X2| := by
    have := abs_add_le (1 / x2 - 1 / X2) (1 / X2)
    rw [sub_add_cancel] at this
    have h2 : 1.0102 * 116 * u * κ ≤ 0.01 := by nlinarith
    nlinarith [abs_nonneg (1 / X2)]
  have t1 : |(x1 - X1) * (1 / x2)| ≤ 1.01 * (116 * u * κ) := by
    rw [abs_mul]
    calc |x1 - X1| * |1 / x2| ≤ 116 * u * σ * (1.01 * |1 / X2|) :=
          mul_le_mul g1.err t0 (abs_nonneg _) ((abs_nonneg _).trans g1.err)
      _ = _ := by rw [hκ]; ring
  have t2 : |X1 / X2 * (X2 * (1 / x2 - 1 / X2))| ≤ |X1 / X2| * (1.0102 * 116 * u * κ) := by
    rw [abs_mul]
    refine mul_le_mul_of_nonneg_left ?_ (abs_nonneg _)
    rw [abs_mul]
    calc |X2| * |1 / x2 - 1 / X2| ≤ |X2| * (1.0102 * 116 * u * κ * |1 / X2|) := mul_le_mul_of_nonneg_left hi (abs_nonneg _)
      _ = _ := by
        rw [abs_div, abs_one]
        field_simp
  have e3 : |-X1 / X2| = |X1 / X2| := by rw [neg_div, abs_neg]
  have t3 : |-x1 / x2 - -X1 / X2| ≤ 1.0102 * 116 * u * κ * (1 + |X1 / X2|) := by
    rw [e]
    refine (abs_sub _ _).trans ?_
    rw [abs_neg]
    nlinarith
  have t4 := hm.rnd (-x1 / x2)
  have t5 := abs_add_le (m.rnd (-x1 / x2) - -x1 / x2) (-x1 / x2 - -X1 / X2)
  rw [sub_add_sub_cancel] at t5
  have t6 := abs_add_le (-x1 / x2 - -X1 / X2) (-X1 / X2)
  rw [sub_add_cancel, e3] at t6
  rw [e3]
  set ν := |X1 / X2|
  have hν : 0 ≤ ν := abs_nonneg _
  have t7 : |-x1 / x2| ≤ 1.01 * (1 + ν) := by
    have h2 : 1.0102 * 116 * u * κ ≤ 0.01 := by nlinarith
    nlinarith
  have t8 : u * |-x1 / x2| ≤ u * κ * (1.01 * (1 + ν)) := by
    calc u * |-x1 / x2| ≤ u * (1.01 * (1 + ν)) := mul_le_mul_of_nonneg_left t7 hu.le
      _ ≤ _ := by
        refine mul_le_mul_of_nonneg_right ?_ (by positivity)
        nlinarith
  have : 0 ≤ u * κ * (1 + ν) := by positivity
  nlinarith

/-! ### Averages -/

theorem Adds.err (hm : Accurate m) {l : List ℝ} {x : ℝ} (h : Adds m l x) :
    1 ≤ l.length ∧ |x - l.sum| ≤ ((1 + u) ^ (l.length - 1) - 1) * (l.map fun y => |y|).sum ∧
      |l.sum| ≤ (l.map fun y => |y|).sum := by
  induction h with
  | one x => simp
  | @both l l' x y h h' ih ih' =>
    obtain ⟨i1, i2, i3⟩ := ih
    obtain ⟨j1, j2, j3⟩ := ih'
    refine ⟨by simp; omega, ?_, ?_⟩
    · rw [List.sum_append, List.map_append, List.sum_append, List.length_append]
      set A := (l.map fun y => |y|).sum
      set B := (l'.map fun y => |y|).sum
      have hA : 0 ≤ A := (abs_nonneg _).trans i3
      have hB : 0 ≤ B := (abs_nonneg _).trans j3
      have hu := u_pos
      have hp {i j : ℕ} (h : i ≤ j) : (1 + u) ^ i ≤ (1 + u) ^ j := pow_le_pow_right₀ (by linarith) h
      set k := l.length + l'.length - 2 with hk
      have hk1 : l.length + l'.length - 1 = k + 1 := by omega
      have i4 : |x - l.sum| ≤ ((1 + u) ^ k - 1) * A :=
        i2.trans (mul_le_mul_of_nonneg_right (by linarith [hp (show l.length - 1 ≤ k by omega)]) hA)
      have j4 : |y - l'.sum| ≤ ((1 + u) ^ k - 1) * B :=
        j2.trans (mul_le_mul_of_nonneg_right (by linarith [hp (show l'.length - 1 ≤ k by omega)]) hB)
      have h1 : |x + y - (l.sum + l'.sum)| ≤ ((1 + u) ^ k - 1) * (A + B) := by
        rw [add_sub_add_comm, mul_add]
        exact (abs_add_le _ _).trans (add_le_add i4 j4)
      have h2 : |l.sum + l'.sum| ≤ A + B := (abs_add_le _ _).trans (add_le_add i3 j3)
      have h3 := hm.rnd (x + y)
      have h4 := abs_add_le (m.rnd (x + y) - (x + y)) (x + y - (l.sum + l'.sum))
      rw [sub_add_sub_cancel] at h4
      have h5 := abs_add_le (x + y - (l.sum + l'.sum)) (l.sum + l'.sum)
      rw [sub_add_cancel] at h5
      have h6 : u * |x + y| ≤ u * ((1 + u) ^ k * (A + B)) := mul_le_mul_of_nonneg_left (by linarith) hu.le
      rw [hk1, pow_succ]
      linarith
    · rw [List.sum_append, List.map_append, List.sum_append]
      exact (abs_add_le _ _).trans (add_le_add i3 j3)
  | @perm l l' x hp h ih =>
    rw [← hp.length_eq, ← hp.sum_eq, ← (hp.map fun y => |y|).sum_eq]
    exact ih

theorem sum_traces (T : T4) (f : ℝ → ℝ) : ((traces T).map f).sum = ∑ i, ∑ j, f (T i i j j) := by
  simp only [traces, sum_flatMap, Fin.sum_univ_def, List.map_map, Function.comp_def]

theorem length_traces (T : T4) : (traces T).length = 9 := by simp [traces]

theorem traces_bnd (hm : Accurate m) {n : ℝ} (hn : n ≤ 10) {T T' : T4}
    (h : ∀ i j, Bnd n |T' i i j j| (T i i j j) (T' i i j j)) {x : ℝ} (hx : Adds m (traces T) x) :
    Bnd (n + 8.01) (∑ i, ∑ j, |T' i i j j|) x (∑ i, ∑ j, T' i i j j) := by
  obtain ⟨-, h1, h2⟩ := hx.err hm
  have e := sum_traces T id
  rw [List.map_id] at e
  simp only [id] at e
  rw [e] at h1 h2
  rw [sum_traces, length_traces] at h1
  have hn0 : 0 ≤ n := (h 0 0).nonneg
  have hu := u_pos
  have h3 : |∑ i, ∑ j, T i i j j - ∑ i, ∑ j, T' i i j j| ≤ n * u * ∑ i, ∑ j, |T' i i j j| := by
    simp only [← Finset.sum_sub_distrib, Finset.mul_sum]
    refine (Finset.abs_sum_le_sum_abs _ _).trans (Finset.sum_le_sum fun i _ => ?_)
    exact (Finset.abs_sum_le_sum_abs _ _).trans (Finset.sum_le_sum fun j _ => (h i j).err)
  have h4 : ∑ i, ∑ j, |T i i j j| ≤ (1 + n * u) * ∑ i, ∑ j, |T' i i j j| := by
    simp only [Finset.mul_sum]
    refine Finset.sum_le_sum fun i _ => Finset.sum_le_sum fun j _ => ?_
    have := abs_add_le (T i i j j - T' i i j j) (T' i i j j)
    rw [sub_add_cancel] at this
    linarith [(h i j).err]
  set B := ∑ i, ∑ j, |T' i i j j| with hB
  have hB0 : 0 ≤ B := Finset.sum_nonneg fun i _ => Finset.sum_nonneg fun j _ => abs_nonneg _
  refine ⟨?_, ?_, by linarith⟩
  · have h5 := abs_add_le (x - ∑ i, ∑ j, T i i j j) (∑ i, ∑ j, T i i j j - ∑ i, ∑ j, T' i i j j)
    rw [sub_add_sub_cancel] at h5
    have c : (1 + u) ^ 8 - 1 ≤ 8.001 * u := by norm_num [u]
    have c0 : 0 ≤ (1 + u) ^ 8 - 1 := by norm_num [u]
    have h6 : ((1 + u) ^ (9 - 1) - 1) * ∑ i, ∑ j, |T i i j j| ≤ 8.001 * u * ((1 + n * u) * B) := by
      refine mul_le_mul c h4 (Finset.sum_nonneg fun i _ => Finset.sum_nonneg fun j _ => abs_nonneg _) (by positivity)
    have hnu : n * u ≤ 0.001 := by nlinarith [u_le]
    have h7 : 8.001 * u * (n * u) ≤ 0.009 * u := by nlinarith
    have h8 := mul_le_mul_of_nonneg_right h7 hB0
    have h9 := h1.trans h6
    clear h1 h6 c c0
    refine h5.trans ((add_le_add h9 h3).trans ?_)
    linarith
  · refine (Finset.abs_sum_le_sum_abs _ _).trans (Finset.sum_le_sum fun i _ => ?_)
    exact Finset.abs_sum_le_sum_abs _ _

theorem sum3_bnd (hm : Accurate m) (x y z : ℝ) :
    Bnd 2.01 (|x| + |y| + |z|) (m.rnd (m.rnd (x + y) + z)) (x + y + z) := by
  have h1 := ((Bnd.exact x).add (Bnd.exact y)).rnd hm (by norm_num)
  have h2 := (h1.add ((Bnd.exact z).mono (n' := 0 + 1.001) (by norm_num) le_rfl)).rnd hm (by norm_num)
  exact h2.mono (by norm_num) le_rfl

theorem voigt_bnd (hm : Accurate m) (C : M6) :
    Bnd 6.1 ((|C 0 0| + |C 1 1| + |C 2 2| + (|C 0 1| + |C 0 2| + |C 1 2|) + 3 * (|C 3 3| + |C 4 4| + |C 5 5|)) / 15)
      (voigtG m C) (Elastic.voigtG C) := by
  have h1 := ((sum3_bnd hm (C 0 0) (C 1 1) (C 2 2)).sub (sum3_bnd hm (C 0 1) (C 0 2) (C 1 2))).rnd hm (by norm_num)
  have h2 := ((sum3_bnd hm (C 3 3) (C 4 4) (C 5 5)).scale (c := 3) (by norm_num)).rnd hm (by norm_num)
  have h3 := (((h1.add h2).rnd hm (by norm_num)).scale (c := 1 / 15) (by norm_num))
  have h4 := h3.rnd hm (by norm_num)
  have h5 := h4.mono (n' := 6.1) (by norm_num) le_rfl
  simp only [one_div_mul_eq_div] at h5
  exact h5

theorem reuss_bnd (hm : Accurate m) (S : M6) :
    Bnd 5.1 (4 * (|S 0 0| + |S 1 1| + |S 2 2|) + 4 * (|S 0 1| + |S 0 2| + |S 1 2|) + 3 * (|S 3 3| + |S 4 4| + |S 5 5|))
      (m.rnd (m.rnd (m.rnd (4 * m.rnd (m.rnd (S 0 0 + S 1 1) + S 2 2)) -
        m.rnd (4 * m.rnd (m.rnd (S 0 1 + S 0 2) + S 1 2))) + m.rnd (3 * m.rnd (m.rnd (S 3 3 + S 4 4) + S 5 5))))
      (4 * (S 0 0 + S 1 1 + S 2 2) - 4 * (S 0 1 + S 0 2 + S 1 2) + 3 * (S 3 3 + S 4 4 + S 5 5)) := by
  have h1 := ((((sum3_bnd hm (S 0 0) (S 1 1) (S 2 2)).scale (c := 4) (by norm_num)).rnd hm (by norm_num)).sub
    (((sum3_bnd hm (S 0 1) (S 0 2) (S 1 2)).scale (c := 4) (by norm_num)).rnd hm (by norm_num))).rnd hm (by norm_num)
  have h2 := (((sum3_bnd hm (S 3 3) (S 4 4) (S 5 5)).scale (c := 3) (by norm_num)).rnd hm (by norm_num)).mono
    (n' := 2.01 + 1.001 + 1.001) (by norm_num) le_rfl
  exact ((h1.add h2).rnd hm (by norm_num)).mono (by norm_num) le_rfl

/-- A positive number that is not much smaller than its terms. -/
theorem Bnd.relative {n b x X κ : ℝ} (h : Bnd n b x X) (hX : 0 < X) (hb : b ≤ κ * X) (hn : n * κ ≤ n') : Bnd n' X x X := by
  have hκ : 0 ≤ n * κ := by
    refine mul_nonneg h.nonneg ?_
    by_contra hneg
    push Not at hneg
    nlinarith [h.b_nonneg]
  refine ⟨h.err.trans ?_, (abs_of_pos hX).le, hκ.trans hn⟩
  calc n * u * b ≤ n * u * (κ * X) := mul_le_mul_of_nonneg_left hb (mul_nonneg h.nonneg u_pos.le)
    _ = n * κ * (u * X) := by ring
    _ ≤ n' * (u * X) := mul_le_mul_of_nonneg_right hn (mul_nonneg u_pos.le hX.le)
    _ = _ := by ring

theorem Bnd.recip (h : Bnd n X x X) (hX : 0 < X) {c : ℝ} (hc : 0 ≤ c) (hn : n ≤ 10 ^ 12) :
    Bnd (1.0102 * n) (c / X) (c / x) (c / X) := by
  have hi := h.inv hX.ne' (κ := 1) (by rw [one_mul, abs_of_pos hX]) (by nlinarith [u_le, u_pos])
  have hp : 0 < 1 / X := by positivity
  rw [abs_of_pos hp, mul_one] at hi
  have h1 : Bnd (1.0102 * n) (1 / X) (1 / x) (1 / X) := ⟨hi, (abs_of_pos hp).le, by linarith [h.nonneg]⟩
  simpa only [mul_one_div] using h1.scale hc

/-- A product of numbers with many roundings. -/
theorem Bnd.mul' (h : Bnd n b x X) (h' : Bnd n' b' y Y) (hn : n ≤ 10 ^ 12) : Bnd (n + 1.001 * n') (b * b') (x * y) (X * Y) := by
  refine ⟨?_, by rw [abs_mul]; exact mul_le_mul h.le h'.le (abs_nonneg _) h.b_nonneg, by linarith [h.nonneg, h'.nonneg]⟩
  have e : x * y - X * Y = (x - X) * (y - Y) + X * (y - Y) + (x - X) * Y := by ring
  have h1 : |(x - X) * (y - Y)| ≤ n * u * b * (n' * u * b') := by
    rw [abs_mul]
    exact mul_le_mul h.err h'.err (abs_nonneg _) ((abs_nonneg _).trans h.err)
  have h2 : |X * (y - Y)| ≤ b * (n' * u * b') := by
    rw [abs_mul]
    exact mul_le_mul h.le h'.err (abs_nonneg _) h.b_nonneg
  have h3 : |(x - X) * Y| ≤ n * u * b * b' := by
    rw [abs_mul]
    exact mul_le_mul h.err h'.le (abs_nonneg _) ((abs_nonneg _).trans h.err)
  have h4 : n * u ≤ 0.001 := by nlinarith [u_le, u_pos]
  have h5 : n * u * (b * (n' * u * b')) ≤ 0.001 * (b * (n' * u * b')) :=
    mul_le_mul_of_nonneg_right h4 (mul_nonneg h.b_nonneg ((abs_nonneg _).trans h'.err))
  rw [e]
  refine (abs_add_le _ _).trans ((add_le_add (abs_add_le _ _) le_rfl).trans ?_)
  nlinarith

/-- One row of the averages. -/
theorem row_close (hm : Accurate m) {k g K G n κ : ℝ} (hk : Bnd n K k K) (hg : Bnd n G g G) (hK : 0 < K) (hG : 0 < G)
    (hκ : 1 ≤ κ) (hκ' : κ ≤ 10 ^ 10) (hn : n = 12.3 * κ) :
    CloseRow (18 * u * κ) (65 * u * κ) (averageRow m k g) (Elastic.averageRow K G) := by
  have hn0 := hk.nonneg
  have weak {x X : ℝ} (h : Bnd n X x X) (hX : 0 < X) : |x - X| ≤ 18 * u * κ * X := by
    have := (h.mono (n' := 18 * κ) (b' := X) (by linarith) le_rfl).err
    linarith
  have hg3 := (hg.scale (c := 3) (by norm_num)).rnd hm (by linarith)
  refine ⟨weak hk hK, weak hg hG, ?_, ?_⟩
  · have hk9 := (hk.scale (c := 9) (by norm_num)).rnd hm (by linarith)
    have r1 := (hg3.recip (by positivity) (c := 1) (by norm_num) (by linarith)).rnd hm (by linarith)
    have r2 := (hk9.recip (by positivity) (c := 1) (by norm_num) (by linarith)).rnd hm (by linarith)
    have r3 := (r1.add r2).rnd hm (by linarith)
    have r4 := (r3.recip (by positivity) (c := 1) (by norm_num) (by linarith)).rnd hm (by linarith)
    have r5 := (r4.mono (n' := 18 * κ) (by linarith) le_rfl).err
    simp only [averageRow, Elastic.averageRow]
    linarith
  · have hk3 := (hk.scale (c := 3) (by norm_num)).rnd hm (by linarith)
    have hd := (hk3.add (hg.mono (n' := n + 1.001) (by linarith) le_rfl)).rnd hm (by linarith)
    have hq := (hg3.mul' (hd.recip (by positivity) (c := 1) (by norm_num) (by linarith)) (by linarith)).rnd hm (by linarith)
    simp only [mul_one_div] at hq
    have hq3 : 3 * G / (3 * K + G) ≤ 3 := by
      rw [div_le_iff₀ (by positivity)]
      nlinarith
    have hq' := hq.mono (b' := 3) le_rfl hq3
    have h1 := (((Bnd.exact 1).mono hq'.nonneg (abs_one.le)).sub hq').rnd hm (by linarith)
    have h2 := (h1.scale (c := 1 / 2) (by norm_num)).rnd hm (by linarith)
    simp only [one_div_mul_eq_div] at h2
    have h3 := h2.err
    simp only [averageRow, Elastic.averageRow]
    refine h3.trans ?_
    rw [hn]
    nlinarith [u_pos, mul_pos u_pos (show 0 < κ by linarith)]

/-- **C154 (averages).**  All nine averaged moduli have a relative error of at most 18 units of rounding times the amount of
cancellation in the four sums behind them, and the three Poisson's ratios an error of at most 65 such units, in whatever order
numpy adds the terms of the bulk moduli. -/
theorem C154_averages (hm : Accurate m) {C S : M6} {κ : ℝ} (h : Conditioned κ C S) (hκ : κ ≤ 10 ^ 10) {traceC traceS : ℝ}
    (hC : Adds m (traces (cTensor C)) traceC) (hS : Adds m (traces (sTensor m S)) traceS) (ρ : ℝ) :
    let r := averages m C S traceC traceS
    let R := (Soec.mk C ρ S (Elastic.sTensor S) (cTensor C)).averages
    CloseRow (18 * u * κ) (65 * u * κ) r.voigt R.voigt ∧ CloseRow (18 * u * κ) (65 * u * κ) r.reuss R.reuss ∧
      CloseRow (18 * u * κ) (65 * u * κ) r.hill R.hill := by
  have hone : 1 ≤ κ := by
    have h1 := h.bulkV_le
    have h2 := h.bulkV
    have h3 : ∑ i : Fin 3, ∑ j : Fin 3, C (vm i i) (vm j j) ≤ ∑ i : Fin 3, ∑ j : Fin 3, |C (vm i i) (vm j j)| :=
      Finset.sum_le_sum fun i _ => Finset.sum_le_sum fun j _ => le_abs_self _
    by_contra hlt
    push Not at hlt
    nlinarith
  have hsc (i j : Fin 3) : Elastic.sTensor S i i j j = S (vm i i) (vm j j) := by
    have : sc (vm i i) (vm j j) = 1 := by fin_cases i <;> fin_cases j <;> norm_num [sc, vm]
    rw [Elastic.sTensor, this, one_mul]
  -- bulk moduli
  have b1 := traces_bnd hm (n := 0) (by norm_num) (T' := cTensor C) (fun i j => Bnd.exact _) hC
  have b2 : Bnd (8.01 * κ) (einsum_iijj (cTensor C)) traceC (einsum_iijj (cTensor C)) :=
    b1.relative h.bulkV h.bulkV_le (by linarith)
  have KV0 : 0 < einsum_iijj (cTensor C) / 9 := div_pos h.bulkV (by norm_num)
  have KV : Bnd (10.2 * κ) (einsum_iijj (cTensor C) / 9) (m.rnd (traceC / 9)) (einsum_iijj (cTensor C) / 9) := by
    have := ((b2.scale (c := 1 / 9) (by norm_num)).rnd hm (by linarith)).mono (n' := 10.2 * κ) (by linarith) le_rfl
    simpa only [one_div_mul_eq_div] using this
  have s0 : 0 < einsum_iijj (Elastic.sTensor S) := by
    have := h.bulkR
    simp only [einsum_iijj, hsc]
    exact this
  have s1 := traces_bnd hm (n := 1) (by norm_num) (T' := Elastic.sTensor S) (fun i j => bnd_tensor hm S i i j j) hS
  have s2 : Bnd (9.01 * κ) (einsum_iijj (Elastic.sTensor S)) traceS (einsum_iijj (Elastic.sTensor S)) :=
    s1.relative s0 (by
      have := h.bulkR_le
      simp only [hsc]
      exact this) (by linarith)
  have KR0 : 0 < 1 / einsum_iijj (Elastic.sTensor S) := by positivity
  have KR := ((s2.recip s0 (c := 1) (by norm_num) (by linarith)).rnd hm (by linarith)).mono (n' := 10.2 * κ) (by linarith) le_rfl
  -- shear moduli
  have GV0 : 0 < Elastic.voigtG C := div_pos h.shearV (by norm_num)
  have GV : Bnd (10.2 * κ) (Elastic.voigtG C) (voigtG m C) (Elastic.voigtG C) :=
    (voigt_bnd hm C).relative GV0 (κ := κ) (by
      have := div_le_div_of_nonneg_right h.shearV_le (show (0 : ℝ) ≤ 15 by norm_num)
      rw [mul_div_assoc] at this
      exact this) (by linarith)
  have GR0 : 0 < Elastic.reussG S := div_pos (by norm_num) h.shearR
  have GR : Bnd (10.2 * κ) (Elastic.reussG S) (reussG m S) (Elastic.reussG S) :=
    ((((reuss_bnd hm S).relative h.shearR h.shearR_le le_rfl).recip h.shearR (c := 15) (by norm_num) (by linarith)).rnd hm
      (by linarith)).mono (by linarith) le_rfl
  have hill {v r V R : ℝ} (hv : Bnd (10.2 * κ) V v V) (hr : Bnd (10.2 * κ) R r R) :
      Bnd (12.3 * κ) (0.5 * (V + R)) (m.rnd (0.5 * m.rnd (v + r))) (0.5 * (V + R)) :=
    ((((hv.add hr).rnd hm (by linarith)).scale (c := 0.5) (by norm_num)).rnd hm (by linarith)).mono (by linarith) le_rfl
  have wide {x X : ℝ} (hx : Bnd (10.2 * κ) X x X) : Bnd (12.3 * κ) X x X := hx.mono (by linarith) le_rfl
  exact ⟨row_close hm (wide KV) (wide GV) KV0 GV0 hone hκ rfl, row_close hm (wide KR) (wide GR) KR0 GR0 hone hκ rfl,
    row_close hm (hill KV KR) (hill GV GR) (by linarith) (by linarith) hone hκ rfl⟩

end Verif.Elastic.Rounded
