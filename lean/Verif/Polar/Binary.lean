/-
Property C175: the sections of Young's modulus and of the linear compressibility (/repo/quantas/soec/soec.py:313-382) in the
arithmetic of the computer: the angles, the directions and the contractions are all rounded.
-/
import Verif.Elastic.BinaryProps
import Verif.Grid.Angles
import Verif.Polar.Spec

noncomputable section

namespace Verif.Polar
open Verif.Elastic Verif.Elastic.Rounded Verif.Elastic.Rounded.Spec Verif.Polar.Spec
open Verif.Grid.Binary (sectionAngles degrees64 pi64)

/-! ### The code -/

/-- `(np.pi/2)*np.ones(nrad)` (soec.py:316, 346), one entry. -/
def half64 : ℚ := Grid.Binary.rnd (Grid.Binary.rnd (pi64 / 2) * 1)

/-- The polar angle and the azimuth of a node of a plane for the angle `t` of the circle (soec.py:316-356). -/
def angles64 : Plane → ℚ → ℚ × ℚ
  | .xy, t => (half64, t)
  | .xz, t => (t, 0)
  | .yz, t => (t, half64)

/-- `polar[plane]['E']` (soec.py:318, 333, 348, 360, 367, 374 and soec_obj.py:426-433).  Simplification: `m` gives the sines and
cosines and rounds the contractions, and the angles are rounded to the nearest binary64 number. -/
def young64 (m : Machine) (S : M6) (n : ℕ) (k : Plane) : List (List ℝ) :=
  (sectionAngles n).map fun t => [(degrees64 t : ℝ), youngModulus m S (angles64 k t).1 (angles64 k t).2]

/-- `polar[plane]['LC']` (soec.py:320, 335, 350, 361, 368, 375 and soec_obj.py:435-444): the positive and the negative part. -/
def compressibility64 (m : Machine) (S : M6) (n : ℕ) (k : Plane) : List (List ℝ) :=
  (sectionAngles n).map fun t =>
    let x := linearCompressibility m S (angles64 k t).1 (angles64 k t).2
    [(degrees64 t : ℝ), max 0 x, max 0 (-x)]

/-! ### Lemmas -/

theorem half64_eq : half64 = 1 / 2 * pi64 := by
  have e : pi64 / 2 = 1 / 2 * pi64 := by ring
  rw [half64, e, Grid.Binary.half_pi, mul_one, Grid.Binary.half_pi]

theorem half64_near : |(half64 : ℝ) - Real.pi / 2| ≤ u := by
  have h := Grid.Binary.pi64_nearest.2
  rw [half64_eq]
  push_cast
  have e : 1 / 2 * (pi64 : ℝ) - Real.pi / 2 = -(1 / 2 * (Real.pi - pi64)) := by ring
  rw [e, abs_neg, abs_mul, abs_of_pos (by norm_num : (0 : ℝ) < 1 / 2)]
  unfold u
  norm_num at h ⊢
  linarith

/-- The rounded direction of a node. -/
theorem node_bnd {m : Machine} (hm : Accurate m) (k : Plane) {t : ℚ} {T : ℝ} (ht : |(t : ℝ) - T| ≤ 19 * u) (l : Fin 3) :
    Bnd 25.1 1 (vector m (angles64 k t).1 (angles64 k t).2 l) (direction k T l) := by
  have hh := half64_near
  have hu := u_pos
  have b := bnd_vector hm (angles64 k t).1 (angles64 k t).2 l
  have e : ∃ x y, direction k T = Elastic.vector x y ∧ |((angles64 k t).1 : ℝ) - x| + |((angles64 k t).2 : ℝ) - y| ≤ 20 * u := by
    cases k
    · refine ⟨Real.pi / 2, T, ?_, by simp only [angles64]; linarith⟩
      simp [direction, Elastic.vector]
    · refine ⟨T, 0, ?_, by simp only [angles64, Rat.cast_zero, sub_self, abs_zero]; linarith⟩
      simp [direction, Elastic.vector]
    · refine ⟨T, Real.pi / 2, ?_, by simp only [angles64]; linarith⟩
      simp [direction, Elastic.vector]
  obtain ⟨x, y, e, h⟩ := e
  have L := Grid.Binary.vector_lipschitz (angles64 k t).1 (angles64 k t).2 x y l
  refine ⟨?_, ?_, by norm_num⟩
  · rw [e]
    have := abs_sub_le (vector m (angles64 k t).1 (angles64 k t).2 l) (Elastic.vector (angles64 k t).1 (angles64 k t).2 l)
      (Elastic.vector x y l)
    have := b.err
    linarith
  · rw [e]
    exact (bnd_vector hm x y l).le

theorem young_sum {m : Machine} (hm : Accurate m) (S : M6) {a a' : V3} (ha : ∀ i, Bnd 25.1 1 (a i) (a' i)) :
    Bnd 188 (size (Elastic.sTensor S))
      (accumulate m quads fun t => m.rnd (m.rnd (m.rnd (m.rnd (sTensor m S t.1 t.2.1 t.2.2.1 t.2.2.2 * a t.1) * a t.2.1) *
        a t.2.2.1) * a t.2.2.2)) (component (Elastic.sTensor S) a' a' a' a') := by
  have key : ∀ t : Fin 3 × Fin 3 × Fin 3 × Fin 3, Bnd 106 |Elastic.sTensor S t.1 t.2.1 t.2.2.1 t.2.2.2|
      (m.rnd (m.rnd (m.rnd (m.rnd (sTensor m S t.1 t.2.1 t.2.2.1 t.2.2.2 * a t.1) * a t.2.1) * a t.2.2.1) * a t.2.2.2))
      (Elastic.sTensor S t.1 t.2.1 t.2.2.1 t.2.2.2 * a' t.1 * a' t.2.1 * a' t.2.2.1 * a' t.2.2.2) := fun t => by
    have h1 := ((bnd_tensor hm S t.1 t.2.1 t.2.2.1 t.2.2.2).mul (ha t.1) (by norm_num) (by norm_num)).rnd hm (by norm_num)
    have h2 := (h1.mul (ha t.2.1) (by norm_num) (by norm_num)).rnd hm (by norm_num)
    have h3 := (h2.mul (ha t.2.2.1) (by norm_num) (by norm_num)).rnd hm (by norm_num)
    have h4 := (h3.mul (ha t.2.2.2) (by norm_num) (by norm_num)).rnd hm (by norm_num)
    exact h4.mono (by norm_num) (by simp)
  obtain ⟨h1, h2⟩ := accumulate_bnd hm quads _ _ _ (by norm_num) fun t _ => key t
  rw [sum_quads, sum_quads, length_quads] at h1
  rw [sum_quads, sum_quads] at h2
  refine ⟨h1.trans (mul_le_mul_of_nonneg_right ?_ ((abs_nonneg _).trans h2)), h2, by norm_num⟩
  norm_num [u]

theorem compressibility_sum {m : Machine} (hm : Accurate m) (S : M6) {a a' : V3} (ha : ∀ i, Bnd 25.1 1 (a i) (a' i)) :
    |compressibilityAlong m (sTensor m S) a - compressibility (Elastic.sTensor S) a'| ≤
      85 * u * (1000 * ∑ i, ∑ j, ∑ k, |Elastic.sTensor S i j k k|) := by
  have key : ∀ t : Fin 3 × Fin 3 × Fin 3, Bnd 54 |Elastic.sTensor S t.1 t.2.1 t.2.2 t.2.2|
      (m.rnd (m.rnd (a t.1 * a t.2.1) * sTensor m S t.1 t.2.1 t.2.2 t.2.2))
      (Elastic.sTensor S t.1 t.2.1 t.2.2 t.2.2 * a' t.1 * a' t.2.1) := fun t => by
    have h1 := ((ha t.1).mul (ha t.2.1) (by norm_num) (by norm_num)).rnd hm (by norm_num)
    have h2 := (h1.mul (bnd_tensor hm S t.1 t.2.1 t.2.2 t.2.2) (by norm_num) (by norm_num)).rnd hm (by norm_num)
    have h3 := h2.mono (n' := 54) (b' := |Elastic.sTensor S t.1 t.2.1 t.2.2 t.2.2|) (by norm_num) (by simp)
    rwa [mul_comm (_ * _), ← mul_assoc] at h3
  obtain ⟨h1, h2⟩ := accumulate_bnd hm triples _ _ _ (by norm_num) fun t _ => key t
  rw [sum_triples, sum_triples, length_triples] at h1
  rw [sum_triples, sum_triples] at h2
  have h : Bnd 82 (∑ i, ∑ j, ∑ k, |Elastic.sTensor S i j k k|)
      (accumulate m triples fun t => m.rnd (m.rnd (a t.1 * a t.2.1) * sTensor m S t.1 t.2.1 t.2.2 t.2.2))
      (∑ i, ∑ j, ∑ k, Elastic.sTensor S i j k k * a' i * a' j) := by
    refine ⟨h1.trans (mul_le_mul_of_nonneg_right ?_ ((abs_nonneg _).trans h2)), h2, by norm_num⟩
    norm_num [u]
  exact (((h.scale (c := 1000) (by norm_num)).rnd hm (by norm_num)).mono (n' := 85) (by norm_num) le_rfl).err

/-- The nodes of the circle. -/
theorem node_near {n : ℕ} (hn : 2 ≤ n) (hmax : n ≤ 2 ^ 49) {i : ℕ} (hi : i < n) :
    ∃ t, (sectionAngles n)[i]? = some t ∧ |(t : ℝ) - radians (angle n i)| ≤ 19 * u ∧
      |(degrees64 t : ℝ) - angle n i| ≤ 5 * u * angle n i := by
  obtain ⟨hlen, -, -, h⟩ := Grid.Binary.C173_sections n hn hmax
  have hi' : i < (sectionAngles n).length := by rwa [hlen]
  have n1 : (0 : ℝ) < (n : ℝ) - 1 := by
    have : (2 : ℝ) ≤ n := by exact_mod_cast hn
    linarith
  refine ⟨_, List.getElem?_eq_getElem hi', ?_, ?_⟩
  · have e : radians (angle n i) = 2 * Real.pi * i / ((n : ℝ) - 1) := by
      unfold radians angle
      field_simp
      ring
    rw [e]
    refine (h i hi').2.2.trans ?_
    have hx : 2 * Real.pi * i / ((n : ℝ) - 1) ≤ 2 * Real.pi := by
      rw [div_le_iff₀ n1]
      have : (i : ℝ) + 1 ≤ n := by exact_mod_cast hi
      exact mul_le_mul_of_nonneg_left (by linarith) (by have := Real.pi_pos; linarith)
    have p := Real.pi_lt_d4
    unfold u
    norm_num at p ⊢
    linarith
  · have hd := Grid.Binary.C173_degrees n hn i hi'
    have := (Rat.cast_le (K := ℝ)).2 hd
    push_cast at this
    unfold angle u
    refine this.trans (le_of_eq ?_)
    ring

/-! ### C175 -/

/-- C175, Young's modulus: row `i` of a section holds the angle `360 i / (n - 1)` and Young's modulus along the direction of that angle
on the plane, up to 200 units of rounding times the cancellation in it (see C154). -/
theorem C175_young (m : Machine) (hm : Accurate m) (S : M6) (n : ℕ) (hn : 2 ≤ n) (hmax : n ≤ 2 ^ 49) (k : Plane) (i : ℕ) (hi : i < n)
    (E : ℝ) (hE : E = young (Elastic.sTensor S) (direction k (radians (angle n i)))) (h0 : E ≠ 0)
    (h1 : size (Elastic.sTensor S) * |E| ≤ 10 ^ 11) :
    (young64 m S n k).length = n ∧ ∃ d e, (young64 m S n k)[i]? = some [d, e] ∧
      |d - angle n i| ≤ 5 * u * angle n i ∧ |e - E| ≤ 200 * u * (size (Elastic.sTensor S) * |E|) * |E| := by
  obtain ⟨t, e, ht, hd⟩ := node_near hn hmax hi
  refine ⟨by simp [young64, (Grid.Binary.C173_sections n hn hmax).1], _, _, by rw [young64, List.getElem?_map, e]; rfl, hd, ?_⟩
  subst hE
  have h := young_sum hm S (node_bnd hm k ht)
  unfold young at *
  set D := direction k (radians (angle n i))
  have hX : component (Elastic.sTensor S) D D D D ≠ 0 := by
    rintro e
    simp [e] at h0
  have hk := condition_ge h hX
  refine (recip_err hm h hX (condition_mul hX).le hk ?_).trans ?_
  · nlinarith [u_le, u_pos]
  · refine mul_le_mul_of_nonneg_right (mul_le_mul_of_nonneg_right ?_ (by linarith)) (abs_nonneg _)
    nlinarith [u_pos]

/-- C175, linear compressibility: row `i` of a section holds the angle and the positive and negative parts of the linear
compressibility along the direction of that angle, up to 85 units of rounding of the sum of the absolute values of its terms. -/
theorem C175_compressibility (m : Machine) (hm : Accurate m) (S : M6) (n : ℕ) (hn : 2 ≤ n) (hmax : n ≤ 2 ^ 49) (k : Plane) (i : ℕ)
    (hi : i < n) (L : ℝ) (hL : L = compressibility (Elastic.sTensor S) (direction k (radians (angle n i)))) :
    (compressibility64 m S n k).length = n ∧ ∃ d p q, (compressibility64 m S n k)[i]? = some [d, p, q] ∧
      |d - angle n i| ≤ 5 * u * angle n i ∧ 0 ≤ p ∧ 0 ≤ q ∧ (p = 0 ∨ q = 0) ∧
      |p - max 0 L| ≤ 85 * u * (1000 * ∑ a, ∑ b, ∑ c, |Elastic.sTensor S a b c c|) ∧
      |q - max 0 (-L)| ≤ 85 * u * (1000 * ∑ a, ∑ b, ∑ c, |Elastic.sTensor S a b c c|) := by
  obtain ⟨t, e, ht, hd⟩ := node_near hn hmax hi
  subst hL
  have h := compressibility_sum hm S (node_bnd hm k ht)
  refine ⟨by simp [compressibility64, (Grid.Binary.C173_sections n hn hmax).1], _, _, _,
    by rw [compressibility64, List.getElem?_map, e]; rfl, hd, le_max_left _ _, le_max_left _ _, ?_, ?_, ?_⟩
  · rcases le_total (linearCompressibility m S (angles64 k t).1 (angles64 k t).2) 0 with h | h
    · exact .inl (max_eq_left h)
    · exact .inr (max_eq_left (by linarith))
  · rw [max_comm 0, max_comm 0]
    exact (abs_max_sub_max_le_abs _ _ _).trans h
  · rw [max_comm 0, max_comm 0]
    refine (abs_max_sub_max_le_abs _ _ _).trans ?_
    rw [neg_sub_neg, abs_sub_comm]
    exact h

end Verif.Polar
