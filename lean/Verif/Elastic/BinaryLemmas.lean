/-
Lemmas about rounding errors for C154.
-/
import Verif.Elastic.BinarySpec
import Verif.Elastic.Props

noncomputable section

namespace Verif.Elastic.Rounded
open Verif.Elastic Verif.Elastic.Rounded.Spec

theorem u_pos : 0 < u := by norm_num [u]

theorem u_le : u ≤ 1.2e-16 := by norm_num [u]

/-- `x` is `X` up to `n` roundings of a number of the size `b`. -/
structure Bnd (n b x X : ℝ) : Prop where
  err : |x - X| ≤ n * u * b
  le : |X| ≤ b
  nonneg : 0 ≤ n

variable {n n' b b' x X y Y : ℝ} {m : Machine}

theorem Bnd.b_nonneg (h : Bnd n b x X) : 0 ≤ b := (abs_nonneg _).trans h.le

theorem Bnd.exact (x : ℝ) : Bnd 0 |x| x x := ⟨by simp, le_rfl, le_rfl⟩

theorem Bnd.mono (h : Bnd n b x X) (hn : n ≤ n') (hb : b ≤ b') : Bnd n' b' x X :=
  ⟨h.err.trans (mul_le_mul (mul_le_mul_of_nonneg_right hn u_pos.le) hb h.b_nonneg
    (mul_nonneg (h.nonneg.trans hn) u_pos.le)), h.le.trans hb, h.nonneg.trans hn⟩

theorem Bnd.rnd (h : Bnd n b x X) (hm : Accurate m) (hn : n ≤ 10 ^ 12) : Bnd (n + 1.001) b (m.rnd x) X := by
  refine ⟨?_, h.le, by linarith [h.nonneg]⟩
  have h1 := hm.rnd x
  have h2 : |x| ≤ n * u * b + b := by
    have := abs_add_le (x - X) X
    rw [sub_add_cancel] at this
    linarith [h.err, h.le]
  have h3 := abs_add_le (m.rnd x - x) (x - X)
  rw [sub_add_sub_cancel] at h3
  have h4 : u * |x| ≤ u * (n * u * b + b) := mul_le_mul_of_nonneg_left h2 u_pos.le
  have h5 : n * u ≤ 0.001 := by nlinarith [u_le, u_pos]
  have h6 : u * (n * u * b) ≤ u * (0.001 * b) :=
    mul_le_mul_of_nonneg_left (mul_le_mul_of_nonneg_right h5 h.b_nonneg) u_pos.le
  have := h.err
  nlinarith

theorem Bnd.mul (h : Bnd n b x X) (h' : Bnd n' b' y Y) (hn : n ≤ 1000) (hn' : n' ≤ 1000) :
    Bnd (n + n' + 0.001) (b * b') (x * y) (X * Y) := by
  refine ⟨?_, by rw [abs_mul]; exact mul_le_mul h.le h'.le (abs_nonneg _) h.b_nonneg, by linarith [h.nonneg, h'.nonneg]⟩
  have e : x * y - X * Y = (x - X) * (y - Y) + X * (y - Y) + (x - X) * Y := by ring
  have h1 : |(x - X) * (y - Y)| ≤ n * u * b * (n' * u * b') := by
    rw [abs_mul]
    exact mul_le_mul h.err h'.err (abs_nonneg _) ((abs_nonneg _).trans h.err)
  have h2 : |X * (y - Y)| ≤ b * (n' * u * b') := by
    rw [abs_mul]
    exact mul_le_mul h.le h'.err (abs_nonneg _) h.b_nonneg
  have h3 : |(x - X) * Y| ≤ n * u * b * b' := by
    rw [abs_mul]
    exact mul_le_mul h.err h'.le (abs_nonneg _) ((abs_nonneg _).trans h.err)
  have h4 : n * (n' * u) ≤ 0.001 := by
    have : n' * u ≤ 1e-6 := by nlinarith [u_le, u_pos]
    nlinarith [h.nonneg, mul_nonneg h'.nonneg u_pos.le]
  have h5 : n * u * b * (n' * u * b') ≤ 0.001 * u * (b * b') := by
    have : 0 ≤ u * (b * b') := mul_nonneg u_pos.le (mul_nonneg h.b_nonneg h'.b_nonneg)
    nlinarith
  rw [e]
  refine (abs_add_le _ _).trans ((add_le_add (abs_add_le _ _) le_rfl).trans ?_)
  nlinarith

theorem Bnd.scale (h : Bnd n b x X) {c : ℝ} (hc : 0 ≤ c) : Bnd n (c * b) (c * x) (c * X) := by
  refine ⟨?_, by rw [abs_mul, abs_of_nonneg hc]; exact mul_le_mul_of_nonneg_left h.le hc, h.nonneg⟩
  rw [← mul_sub, abs_mul, abs_of_nonneg hc]
  calc c * |x - X| ≤ c * (n * u * b) := mul_le_mul_of_nonneg_left h.err hc
    _ = _ := by ring

/-- The reciprocal of a number that is not much smaller than its terms. -/
theorem Bnd.inv (h : Bnd n b x X) (hX : X ≠ 0) {κ : ℝ} (hκ : b ≤ κ * |X|) (hn : n * u * κ ≤ 1 / 100) :
    |1 / x - 1 / X| ≤ 1.0102 * n * u * κ * |1 / X| := by
  have hX' : 0 < |X| := abs_pos.2 hX
  have h0 : n * u * b ≤ n * u * κ * |X| := by
    rw [mul_assoc _ κ]
    exact mul_le_mul_of_nonneg_left hκ (mul_nonneg h.nonneg u_pos.le)
  have h1 : |x - X| ≤ n * u * κ * |X| := h.err.trans h0
  have h2 : 0.99 * |X| ≤ |x| := by
    have := abs_sub_abs_le_abs_sub X x
    rw [abs_sub_comm X x] at this
    nlinarith
  have h3 : 0 < |x| := lt_of_lt_of_le (by positivity) h2
  have hx : x ≠ 0 := abs_pos.1 h3
  have e : 1 / x - 1 / X = (X - x) / (x * X) := by
    field_simp
  have hk : 0 ≤ n * u * κ := by
    by_contra hneg
    push Not at hneg
    nlinarith [abs_nonneg (x - X)]
  rw [e, abs_div, abs_mul, abs_div, abs_one, abs_sub_comm, div_le_iff₀ (by positivity)]
  have e2 : 1.0102 * n * u * κ * (1 / |X|) * (|x| * |X|) = 1.0102 * (n * u * κ) * |x| := by
    field_simp
  rw [e2]
  have : n * u * κ * (0.99 * |X|) ≤ n * u * κ * |x| := mul_le_mul_of_nonneg_left h2 hk
  nlinarith

theorem Bnd.add (h : Bnd n b x X) (h' : Bnd n b' y Y) : Bnd n (b + b') (x + y) (X + Y) := by
  refine ⟨?_, (abs_add_le _ _).trans (add_le_add h.le h'.le), h.nonneg⟩
  rw [add_sub_add_comm, mul_add]
  exact (abs_add_le _ _).trans (add_le_add h.err h'.err)

theorem Bnd.neg (h : Bnd n b x X) : Bnd n b (-x) (-X) :=
  ⟨by rw [← neg_sub_neg, neg_neg, neg_neg, abs_sub_comm]; simpa [neg_sub_neg, abs_sub_comm] using h.err, by
    rw [abs_neg]; exact h.le, h.nonneg⟩

theorem Bnd.sub (h : Bnd n b x X) (h' : Bnd n b' y Y) : Bnd n (b + b') (x - y) (X - Y) := by
  simpa [sub_eq_add_neg] using h.add h'.neg

theorem bnd_sin (hm : Accurate m) (t : ℝ) : Bnd 2 |Real.sin t| (m.sin t) (Real.sin t) := ⟨hm.sin t, le_rfl, by norm_num⟩

theorem bnd_cos (hm : Accurate m) (t : ℝ) : Bnd 2 |Real.cos t| (m.cos t) (Real.cos t) := ⟨hm.cos t, le_rfl, by norm_num⟩

theorem bnd_vector (hm : Accurate m) (θ φ : ℝ) (i : Fin 3) :
    Bnd 5.01 1 (vector m θ φ i) (Elastic.vector θ φ i) := by
  have s1 := Real.abs_sin_le_one θ
  have s2 := Real.abs_sin_le_one φ
  have c1 := Real.abs_cos_le_one θ
  have c2 := Real.abs_cos_le_one φ
  fin_cases i
  · exact (((bnd_sin hm θ).mul (bnd_cos hm φ) (by norm_num) (by norm_num)).rnd hm (by norm_num)).mono (by norm_num)
      (mul_le_one₀ s1 (abs_nonneg _) c2)
  · exact (((bnd_sin hm θ).mul (bnd_sin hm φ) (by norm_num) (by norm_num)).rnd hm (by norm_num)).mono (by norm_num)
      (mul_le_one₀ s1 (abs_nonneg _) s2)
  · exact (bnd_cos hm θ).mono (by norm_num) c1

theorem cauchy (p q r s : ℝ) (h1 : p ^ 2 + q ^ 2 = 1) (h2 : r ^ 2 + s ^ 2 = 1) : |p| * |r| + |q| * |s| ≤ 1 := by
  have := sq_nonneg (|p| - |r|)
  have := sq_nonneg (|q| - |s|)
  have := sq_abs p
  have := sq_abs q
  have := sq_abs r
  have := sq_abs s
  nlinarith

theorem bnd_vectorChi (hm : Accurate m) (θ φ χ : ℝ) (i : Fin 3) :
    Bnd 9.02 1 (vectorChi m θ φ χ i) (Elastic.vectorChi θ φ χ i) := by
  have c1 := Real.abs_cos_le_one θ
  have two (p q : ℝ → ℝ) (p' q' : ℝ → ℝ) (hp : Bnd 2 |p' φ| (p φ) (p' φ)) (hq : Bnd 2 |q' φ| (q φ) (q' φ)) :
      Bnd 8.01 (|p' φ| * |Real.cos χ|) (m.rnd (m.rnd (m.cos θ * p φ) * m.cos χ)) (Real.cos θ * p' φ * Real.cos χ) ∧
      Bnd 8.01 (|q' φ| * |Real.sin χ|) (m.rnd (q φ * m.sin χ)) (q' φ * Real.sin χ) := by
    constructor
    · have h := ((((bnd_cos hm θ).mul hp (by norm_num) (by norm_num)).rnd hm (by norm_num)).mul (bnd_cos hm χ)
        (by norm_num) (by norm_num)).rnd hm (by norm_num)
      refine h.mono (by norm_num) (mul_le_mul_of_nonneg_right ?_ (abs_nonneg _))
      exact mul_le_of_le_one_left (abs_nonneg _) c1
    · exact ((hq.mul (bnd_sin hm χ) (by norm_num) (by norm_num)).rnd hm (by norm_num)).mono (by norm_num) le_rfl
  fin_cases i
  · obtain ⟨h1, h2⟩ := two m.cos m.sin Real.cos Real.sin (bnd_cos hm φ) (bnd_sin hm φ)
    exact ((h1.sub h2).rnd hm (by norm_num)).mono (by norm_num)
      (cauchy _ _ _ _ (Real.cos_sq_add_sin_sq φ) (Real.cos_sq_add_sin_sq χ))
  · obtain ⟨h1, h2⟩ := two m.sin m.cos Real.sin Real.cos (bnd_sin hm φ) (bnd_cos hm φ)
    exact ((h1.add h2).rnd hm (by norm_num)).mono (by norm_num)
      (cauchy _ _ _ _ (Real.sin_sq_add_cos_sq φ) (Real.cos_sq_add_sin_sq χ))
  · have h := (((bnd_sin hm θ).neg.mul (bnd_cos hm χ) (by norm_num) (by norm_num)).rnd hm (by norm_num))
    exact h.mono (by norm_num) (mul_le_one₀ (Real.abs_sin_le_one θ) (abs_nonneg _) (Real.abs_cos_le_one χ))

theorem bnd_tensor (hm : Accurate m) (S : M6) (i j k l : Fin 3) :
    Bnd 1 |Elastic.sTensor S i j k l| (sTensor m S i j k l) (Elastic.sTensor S i j k l) :=
  ⟨by rw [one_mul]; exact hm.rnd _, le_rfl, by norm_num⟩

/-! ### Sums -/

theorem accumulate_bnd (hm : Accurate m) {ι : Type} (L : List ι) (q Q B : ι → ℝ) (hn : 0 ≤ n)
    (h : ∀ i ∈ L, Bnd n (B i) (q i) (Q i)) :
    |accumulate m L q - (L.map Q).sum| ≤ ((1 + n * u) * (1 + u) ^ L.length - 1) * (L.map B).sum ∧
      |(L.map Q).sum| ≤ (L.map B).sum := by
  unfold accumulate
  induction L using List.reverseRecOn with
  | nil => simp
  | append_singleton L i ih =>
    obtain ⟨ih1, ih2⟩ := ih fun j hj => h j (by simp [hj])
    have hi := h i (by simp)
    simp only [List.foldl_append, List.foldl_cons, List.foldl_nil, List.map_append, List.map_cons, List.map_nil,
      List.sum_append, List.sum_cons, List.sum_nil, add_zero, List.length_append, List.length_cons, List.length_nil, zero_add]
    set r := L.foldl (fun acc i => m.rnd (acc + q i)) 0
    set S := (L.map Q).sum
    set A := (L.map B).sum
    have hu := u_pos
    set ε := n * u with hεd
    have hε : 0 ≤ ε := mul_nonneg hn hu.le
    set G := (1 + ε) * (1 + u) ^ L.length with hG
    have hG1 : 1 + ε ≤ G := by
      have : (1 : ℝ) ≤ (1 + u) ^ L.length := one_le_pow₀ (by linarith)
      nlinarith
    have hA : 0 ≤ A := (abs_nonneg _).trans ih2
    have h1 : |r + q i - (S + Q i)| ≤ (G - 1) * A + ε * B i := by
      have := abs_add_le (r - S) (q i - Q i)
      rw [show r - S + (q i - Q i) = r + q i - (S + Q i) by ring] at this
      linarith [hi.err]
    have h2 : |S + Q i| ≤ A + B i := (abs_add_le _ _).trans (add_le_add ih2 hi.le)
    refine ⟨?_, h2⟩
    have h0 := hm.rnd (r + q i)
    have h3 := abs_add_le (r + q i - (S + Q i)) (S + Q i)
    rw [sub_add_cancel] at h3
    have h4 := abs_add_le (m.rnd (r + q i) - (r + q i)) (r + q i - (S + Q i))
    rw [sub_add_sub_cancel] at h4
    have h5 : u * |r + q i| ≤ u * ((G - 1) * A + ε * B i + (A + B i)) := mul_le_mul_of_nonneg_left (by linarith) hu.le
    have h6 : (1 + ε) * (1 + u) ^ (L.length + 1) = G * (1 + u) := by rw [hG, pow_succ]; ring
    rw [h6]
    have h7 : 0 ≤ (G - (1 + ε)) * (1 + u) * B i :=
      mul_nonneg (mul_nonneg (by linarith) (by linarith)) hi.b_nonneg
    linarith

theorem sum_flatMap {ι κ : Type} (l : List ι) (g : ι → List κ) (f : κ → ℝ) :
    ((l.flatMap g).map f).sum = (l.map fun i => ((g i).map f).sum).sum := by
  induction l with
  | nil => rfl
  | cons i l ih => simp [List.flatMap_cons, ih]

theorem sum_triples (f : Fin 3 × Fin 3 × Fin 3 → ℝ) : (triples.map f).sum = ∑ i, ∑ j, ∑ k, f (i, j, k) := by
  simp only [triples, sum_flatMap, Fin.sum_univ_def, List.map_map, Function.comp_def]

theorem sum_quads (f : Fin 3 × Fin 3 × Fin 3 × Fin 3 → ℝ) :
    (quads.map f).sum = ∑ i, ∑ j, ∑ k, ∑ l, f (i, j, k, l) := by
  have h (i : Fin 3) : (triples.map fun t => f (i, t)).sum = ∑ j, ∑ k, ∑ l, f (i, j, k, l) :=
    sum_triples fun t => f (i, t)
  rw [quads, sum_flatMap, Fin.sum_univ_def]
  simp only [List.map_map, Function.comp_def, h]

theorem length_triples : triples.length = 27 := by decide

theorem length_quads : quads.length = 81 := by decide +kernel

/-- The contraction of the compliances with four directions. -/
theorem quads_bnd (hm : Accurate m) (S : M6) (q : Fin 3 × Fin 3 × Fin 3 × Fin 3 → ℝ) (a b c d : V3)
    (h : ∀ t, Bnd 34 |Elastic.sTensor S t.1 t.2.1 t.2.2.1 t.2.2.2| (q t)
      (Elastic.sTensor S t.1 t.2.1 t.2.2.1 t.2.2.2 * a t.1 * b t.2.1 * c t.2.2.1 * d t.2.2.2)) :
    Bnd 116 (size (Elastic.sTensor S)) (accumulate m quads q) (component (Elastic.sTensor S) a b c d) := by
  obtain ⟨h1, h2⟩ := accumulate_bnd hm quads q _ _ (by norm_num) fun t _ => h t
  rw [sum_quads, sum_quads, length_quads] at h1
  rw [sum_quads, sum_quads] at h2
  refine ⟨h1.trans (mul_le_mul_of_nonneg_right ?_ ((abs_nonneg _).trans h2)), h2, by norm_num⟩
  norm_num [u]

theorem triples_bnd (hm : Accurate m) (q Q B : Fin 3 × Fin 3 × Fin 3 → ℝ) (h : ∀ t, Bnd 14 (B t) (q t) (Q t)) :
    Bnd 42 (∑ i, ∑ j, ∑ k, B (i, j, k)) (accumulate m triples q) (∑ i, ∑ j, ∑ k, Q (i, j, k)) := by
  obtain ⟨h1, h2⟩ := accumulate_bnd hm triples q _ _ (by norm_num) fun t _ => h t
  rw [sum_triples, sum_triples, length_triples] at h1
  rw [sum_triples, sum_triples] at h2
  refine ⟨h1.trans (mul_le_mul_of_nonneg_right ?_ ((abs_nonneg _).trans h2)), h2, by norm_num⟩
  norm_num [u]

end Verif.Elastic.Rounded
