/-
C146: polynomials in the arithmetic of the computer.  Model of the two ways in which Quantas evaluates a fitted polynomial
(/repo/quantas/utils/math/fast_math.pyx and /repo/quantas/utils/math/polynomials.py), with every operation rounded, and the
bounds of their errors.
-/
import Verif.StatMech.BinarySum
import Verif.StatMech.BinaryProps

noncomputable section

namespace Verif.Poly.Rounded
open Verif.StatMech Verif.StatMech.Spec

/-! ### Model -/

/-- `multi_interpolate_array` and `multi_interpolate_scalar` for one row of coefficients and one abscissa (fast_math.pyx:22-42,
46-58): `result += coeff * pow(x, n)` for `n = 0, 1, …`.  `power` is `pow` of the C library for a whole exponent. -/
def interpolate (a : Arith) (power : ℝ → ℕ → ℝ) (c : List ℝ) (x : ℝ) : ℝ :=
  c.zipIdx.foldl (fun acc p => a.rnd (acc + a.rnd (p.1 * power x p.2))) 0

/-- `np.polynomial.polynomial.polyval` (numpy; polynomials.py:45-47, 63): `c0 = c[-i] + c0*x` from the highest coefficient.
Simplification: numpy starts with `c[-1] + x*0`, which is the rounded last coefficient also here. -/
def horner (a : Arith) (c : List ℝ) (x : ℝ) : ℝ := c.foldr (fun y acc => a.rnd (y + a.rnd (acc * x))) 0

/-- One row of `multi_interpolate_array` (fast_math.pyx:36-40): the coefficients in the outer loop, the abscissae in the inner
one; every passage adds one term to every cell of the row. -/
def interpolateRow (a : Arith) (power : ℝ → ℕ → ℝ) (c X : List ℝ) : List ℝ :=
  c.zipIdx.foldl (fun row p => List.zipWith (fun acc x => a.rnd (acc + a.rnd (p.1 * power x p.2))) row X)
    (List.replicate X.length 0)

/-! ### Specification -/

/-- The value of the polynomial. -/
def Spec.value (c : List ℝ) (x : ℝ) : ℝ := (c.zipIdx.map fun p => p.1 * x ^ p.2).sum

/-- The sum of the absolute values of its terms. -/
def Spec.size (c : List ℝ) (x : ℝ) : ℝ := (c.zipIdx.map fun p => |p.1 * x ^ p.2|).sum

/-- `pow` is good to one unit in the last place. -/
def Spec.AccuratePower (power : ℝ → ℕ → ℝ) : Prop := ∀ x n, |power x n - x ^ n| ≤ 2 * u * |x ^ n|

open Spec (value size AccuratePower)

/-! ### Proof work -/

theorem zipIdx_shift (c : List ℝ) (f : ℝ × ℕ → ℝ) (k : ℕ) :
    ((c.zipIdx (k + 1)).map f).sum = ((c.zipIdx k).map fun p => f (p.1, p.2 + 1)).sum := by
  induction c generalizing k with
  | nil => rfl
  | cons y c ih => simp [List.zipIdx_cons, ih]

theorem value_cons (y : ℝ) (c : List ℝ) (x : ℝ) : value (y :: c) x = y + value c x * x := by
  unfold value
  rw [List.zipIdx_cons, List.map_cons, List.sum_cons, zipIdx_shift c (fun p => p.1 * x ^ p.2) 0, ← List.sum_map_mul_right]
  simp [pow_succ, mul_assoc]

theorem size_cons (y : ℝ) (c : List ℝ) (x : ℝ) : size (y :: c) x = |y| + size c x * |x| := by
  unfold size
  rw [List.zipIdx_cons, List.map_cons, List.sum_cons, zipIdx_shift c (fun p => |p.1 * x ^ p.2|) 0, ← List.sum_map_mul_right]
  simp [pow_succ, mul_assoc, abs_mul]

theorem size_nonneg (c : List ℝ) (x : ℝ) : 0 ≤ size c x :=
  List.sum_nonneg fun y hy => by
    obtain ⟨p, -, rfl⟩ := List.mem_map.1 hy
    exact abs_nonneg _

theorem value_le_size (c : List ℝ) (x : ℝ) : |value c x| ≤ size c x := by
  induction c with
  | nil => simp [value, size]
  | cons y c ih =>
    rw [value_cons, size_cons]
    refine (abs_add_le _ _).trans (add_le_add_right ?_ _)
    rw [abs_mul]
    exact mul_le_mul_of_nonneg_right ih (abs_nonneg _)

/-- Adding up rounded terms. -/
theorem sum_err {a : Arith} (ha : Accurate a) {ι : Type} (q Q : ι → ℝ) {ε : ℝ} (hε : 0 ≤ ε) (L : List ι)
    (h : ∀ i ∈ L, |q i - Q i| ≤ ε * |Q i|) :
    |L.foldl (fun acc i => a.rnd (acc + q i)) 0 - (L.map Q).sum| ≤
      ((1 + ε) * (1 + u) ^ L.length - 1) * (L.map fun i => |Q i|).sum ∧
    |(L.map Q).sum| ≤ (L.map fun i => |Q i|).sum := by
  induction L using List.reverseRecOn with
  | nil => simp
  | append_singleton L i ih =>
    obtain ⟨ih1, ih2⟩ := ih fun j hj => h j (by simp [hj])
    have hi := h i (by simp)
    simp only [List.foldl_append, List.foldl_cons, List.foldl_nil, List.map_append, List.map_cons, List.map_nil,
      List.sum_append, List.sum_cons, List.sum_nil, add_zero, List.length_append, List.length_cons, List.length_nil, zero_add]
    set r := L.foldl (fun acc i => a.rnd (acc + q i)) 0
    set S := (L.map Q).sum
    set A := (L.map fun i => |Q i|).sum
    have hu := u_pos
    set G := (1 + ε) * (1 + u) ^ L.length with hG
    have hG1 : 1 + ε ≤ G := by
      have : (1 : ℝ) ≤ (1 + u) ^ L.length := one_le_pow₀ (by linarith)
      nlinarith
    have hA : 0 ≤ A := (abs_nonneg _).trans ih2
    have h1 : |r + q i - (S + Q i)| ≤ (G - 1) * A + ε * |Q i| := by
      have := abs_add_le (r - S) (q i - Q i)
      rw [show r - S + (q i - Q i) = r + q i - (S + Q i) by ring] at this
      linarith
    have h2 : |S + Q i| ≤ A + |Q i| := (abs_add_le _ _).trans (by linarith)
    refine ⟨(err_rnd ha h1).trans ?_, h2⟩
    have h3 : u * (|S + Q i| + ((G - 1) * A + ε * |Q i|)) ≤ u * (A + |Q i| + ((G - 1) * A + ε * |Q i|)) :=
      mul_le_mul_of_nonneg_left (by linarith) hu.le
    have h4 : (1 + ε) * (1 + u) ^ (L.length + 1) = G * (1 + u) := by rw [hG, pow_succ]; ring
    rw [h4]
    have h5 : 0 ≤ (G - (1 + ε)) * (1 + u) * |Q i| :=
      mul_nonneg (mul_nonneg (by linarith) (by linarith)) (abs_nonneg _)
    linarith

theorem zipIdx_length (c : List ℝ) : c.zipIdx.length = c.length := by simp

/-! ### Properties -/

/-- C146: a polynomial evaluated by adding the powers is wrong by at most `(1 + u)^(n + 3) - 1` times the sum of the absolute
values of its terms. -/
theorem C146_interpolate (a : Arith) (ha : Accurate a) (power : ℝ → ℕ → ℝ) (hp : AccuratePower power) (c : List ℝ) (x : ℝ) :
    |interpolate a power c x - value c x| ≤ ((1 + u) ^ (c.length + 3) - 1) * size c x := by
  have hu := u_pos
  have h := (sum_err ha (fun p : ℝ × ℕ => a.rnd (p.1 * power x p.2)) (fun p => p.1 * x ^ p.2) (ε := (1 + u) ^ 3 - 1)
    (sub_nonneg.2 (one_le_pow₀ (by linarith))) c.zipIdx (by
      intro p _
      have h1 := hp x p.2
      have h2 : |p.1 * power x p.2 - p.1 * x ^ p.2| ≤ 2 * u * |p.1 * x ^ p.2| := by
        rw [← mul_sub, abs_mul, abs_mul]
        calc |p.1| * |power x p.2 - x ^ p.2| ≤ |p.1| * (2 * u * |x ^ p.2|) := mul_le_mul_of_nonneg_left h1 (abs_nonneg _)
          _ = _ := by ring
      refine (err_rnd ha h2).trans ?_
      have h3 : 2 * u + u * (1 + 2 * u) ≤ (1 + u) ^ 3 - 1 := by nlinarith [pow_pos hu 3, sq_nonneg u]
      calc _ = (2 * u + u * (1 + 2 * u)) * |p.1 * x ^ p.2| := by ring
        _ ≤ _ := mul_le_mul_of_nonneg_right h3 (abs_nonneg _))).1
  rw [zipIdx_length] at h
  have e : (1 + ((1 + u) ^ 3 - 1)) * (1 + u) ^ c.length - 1 = (1 + u) ^ (c.length + 3) - 1 := by ring
  rw [e] at h
  exact h

/-- C146: Horner's scheme is wrong by at most `(1 + u)^(2 n) - 1` times the sum of the absolute values of the terms. -/
theorem C146_horner (a : Arith) (ha : Accurate a) (c : List ℝ) (x : ℝ) :
    |horner a c x - value c x| ≤ ((1 + u) ^ (2 * c.length) - 1) * size c x := by
  have hu := u_pos
  induction c with
  | nil => simp [horner, value, size]
  | cons y c ih =>
    rw [value_cons, size_cons]
    show |a.rnd (y + a.rnd (horner a c x * x)) - (y + value c x * x)| ≤ _
    set G := (1 + u) ^ (2 * c.length) with hG
    have hG1 : 1 ≤ G := one_le_pow₀ (by linarith)
    have hA := size_nonneg c x
    have hv := value_le_size c x
    set A := size c x
    set V := value c x
    set B := A * |x| with hB
    have hB0 : 0 ≤ B := mul_nonneg hA (abs_nonneg _)
    have hVx : |V * x| ≤ B := by rw [abs_mul]; exact mul_le_mul_of_nonneg_right hv (abs_nonneg _)
    have h1 : |horner a c x * x - V * x| ≤ (G - 1) * B := by
      rw [← sub_mul, abs_mul]
      calc _ ≤ (G - 1) * A * |x| := mul_le_mul_of_nonneg_right ih (abs_nonneg _)
        _ = _ := by ring
    have h2 : |a.rnd (horner a c x * x) - V * x| ≤ (G * (1 + u) - 1) * B := by
      refine (err_rnd ha h1).trans ?_
      have : u * (|V * x| + (G - 1) * B) ≤ u * (B + (G - 1) * B) := mul_le_mul_of_nonneg_left (by linarith) hu.le
      calc _ ≤ (G - 1) * B + u * (B + (G - 1) * B) := by linarith
        _ = _ := by ring
    have h3 : |y + a.rnd (horner a c x * x) - (y + V * x)| ≤ (G * (1 + u) - 1) * B := by
      rwa [add_sub_add_left_eq_sub]
    have h4 : |y + V * x| ≤ |y| + B := (abs_add_le _ _).trans (by linarith)
    refine (err_rnd ha h3).trans ?_
    have h5 : u * (|y + V * x| + (G * (1 + u) - 1) * B) ≤ u * (|y| + B + (G * (1 + u) - 1) * B) :=
      mul_le_mul_of_nonneg_left (by linarith) hu.le
    have h6 : (1 + u) ^ (2 * (y :: c).length) = G * (1 + u) * (1 + u) := by
      rw [hG, List.length_cons, show 2 * (c.length + 1) = 2 * c.length + 1 + 1 by ring, pow_succ, pow_succ]
    rw [h6]
    have h7 : u * |y| ≤ (G * (1 + u) * (1 + u) - 1) * |y| := by
      refine mul_le_mul_of_nonneg_right ?_ (abs_nonneg _)
      nlinarith [mul_nonneg (sub_nonneg.2 hG1) (by positivity : (0 : ℝ) ≤ (1 + u) * (1 + u))]
    linarith

/-- C146: for a polynomial of at most 1000 coefficients, the two ways of evaluating it give values within `8 n · 1e-16` of each
other, and of the exact value, relative to the sum of the absolute values of the terms. -/
theorem C146_agree (a : Arith) (ha : Accurate a) (power : ℝ → ℕ → ℝ) (hp : AccuratePower power) (c : List ℝ) (x : ℝ)
    (h1 : 1 ≤ c.length) (h2 : c.length ≤ 1000) :
    |horner a c x - value c x| ≤ 3e-16 * c.length * size c x ∧
    |interpolate a power c x - value c x| ≤ 5e-16 * c.length * size c x ∧
    |interpolate a power c x - horner a c x| ≤ 8e-16 * c.length * size c x := by
  have hS := size_nonneg c x
  have g : ∀ m : ℕ, 1 ≤ m → m ≤ 10 ^ 9 → (1 + u) ^ m - 1 ≤ 1.2e-16 * m := by
    intro m h h'
    obtain ⟨n, rfl⟩ : ∃ n, m = n + 1 := ⟨m - 1, by omega⟩
    have := growth_le (n := n) (by omega)
    rw [growth] at this
    push_cast
    exact this
  have g1 := g (2 * c.length) (by omega) (by omega)
  have g2 := g (c.length + 3) (by omega) (by omega)
  push_cast at g1 g2
  have hl : (1 : ℝ) ≤ c.length := by exact_mod_cast h1
  have k1 : |horner a c x - value c x| ≤ 3e-16 * c.length * size c x :=
    (C146_horner a ha c x).trans (mul_le_mul_of_nonneg_right (g1.trans (by norm_num; linarith)) hS)
  have k2 : |interpolate a power c x - value c x| ≤ 5e-16 * c.length * size c x :=
    (C146_interpolate a ha power hp c x).trans (mul_le_mul_of_nonneg_right (g2.trans (by norm_num; linarith)) hS)
  refine ⟨k1, k2, ?_⟩
  have := abs_sub (interpolate a power c x - value c x) (horner a c x - value c x)
  rw [sub_sub_sub_cancel_right] at this
  refine this.trans ((add_le_add k2 k1).trans (le_of_eq ?_))
  ring

/-- C146: when the terms have one sign, as for a frequency that grows with the volume, the errors are relative errors. -/
theorem C146_one_sign (c : List ℝ) (x : ℝ) (hc : ∀ y ∈ c, 0 ≤ y) (hx : 0 ≤ x) : size c x = value c x := by
  induction c with
  | nil => rfl
  | cons y c ih =>
    rw [value_cons, size_cons, ih fun z hz => hc z (by simp [hz]), abs_of_nonneg hx, abs_of_nonneg (hc y (by simp))]

/-- C146: the form for arrays and the form for one number give the same value, in every bit: the order of the two loops does not
matter. -/
theorem C146_scalar_array (a : Arith) (power : ℝ → ℕ → ℝ) (c X : List ℝ) :
    interpolateRow a power c X = X.map (interpolate a power c) := by
  have key : ∀ (L : List (ℝ × ℕ)) (X row : List ℝ), row.length = X.length →
      L.foldl (fun row p => List.zipWith (fun acc x => a.rnd (acc + a.rnd (p.1 * power x p.2))) row X) row =
        List.zipWith (fun r x => L.foldl (fun acc p => a.rnd (acc + a.rnd (p.1 * power x p.2))) r) row X := by
    intro L X
    induction L with
    | nil =>
      intro row h
      simp only [List.foldl_nil]
      induction X generalizing row with
      | nil => simpa using h
      | cons x X ih =>
        cases row with
        | nil => simp at h
        | cons r row => simpa using ih row (by simpa using h)
    | cons p L ih =>
      intro row h
      rw [List.foldl_cons, ih _ (by simp [h])]
      simp only [List.foldl_cons]
      clear ih
      induction X generalizing row with
      | nil => simp
      | cons x X ih =>
        cases row with
        | nil => simp
        | cons r row => simpa using ih row (by simpa using h)
  rw [interpolateRow, key _ _ _ (by simp)]
  induction X with
  | nil => rfl
  | cons x X ih => simpa [List.replicate_succ, interpolate] using ih

/-- IEEE 754 with a correctly rounded power. -/
theorem power_binary64 : AccuratePower fun x n => roundBinary (x ^ n) := fun x n => by
  have := roundBinary_err (x ^ n)
  have h := mul_nonneg u_pos.le (abs_nonneg (x ^ n))
  linarith

/-- A cubic in the volume, at 18.7 Å³. -/
example := C146_agree binary64 C145_binary64 (fun x n => roundBinary (x ^ n)) power_binary64 [412.5, -17.25, 0.5, -1/64] 18.7
  (by simp) (by simp)

example : size [2, 3, 1] 10 = value [2, 3, 1] 10 := C146_one_sign _ _ (by simp) (by norm_num)

/-- The last coefficient is taken as it is by numpy; here it may be rounded once. -/
example (a : Arith) (ha : Accurate a) (y x : ℝ) : |horner a [y] x - y| ≤ ((1 + u) ^ 2 - 1) * |y| := by
  simpa [value, size] using C146_horner a ha [y] x

end Verif.Poly.Rounded
