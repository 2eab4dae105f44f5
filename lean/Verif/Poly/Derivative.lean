/-
Property C139: the derivative of tabulated data (/repo/quantas/utils/math/derivative.py).
-/
import Mathlib.Analysis.Calculus.Deriv.MeanValue
import Mathlib.Analysis.Calculus.Deriv.Pow
import Verif.Tac

namespace Verif.Poly.Tabulated

/-! ### Model -/

/-- The exceptions of `derivative`: its own `LenError` (derivative.py:13-14) and the ValueError of numpy. -/
inductive Raised | lenError | valueError
  deriving DecidableEq

/-- The element `i` of `np.gradient(y)` (numpy, unit spacing): central differences inside, one-sided ones at the ends. -/
noncomputable def gradientAt (y : List ℝ) (i : ℕ) : ℝ :=
  if i = 0 then y.getD 1 0 - y.getD 0 0
  else if i = y.length - 1 then y.getD i 0 - y.getD (i - 1) 0
  else (y.getD (i + 1) 0 - y.getD (i - 1) 0) / 2

/-- `np.gradient(y)` (numpy); ValueError for fewer than two elements. -/
noncomputable def gradient (y : List ℝ) : Except Raised (List ℝ) :=
  if y.length < 2 then .error .valueError else .ok ((List.range y.length).map fun (i : ℕ) => gradientAt y i)

/-- `a / b` of two arrays of two or more elements (numpy): ValueError for different lengths.  Division by zero, which gives an
infinity and a warning, gives 0 here. -/
noncomputable def divide (a b : List ℝ) : Except Raised (List ℝ) :=
  if a.length = b.length then .ok (List.zipWith (· / ·) a b) else .error .valueError

/-- `derivative` (derivative.py:17-38). -/
noncomputable def derivative (X Y : List ℝ) : Except Raised (List ℝ) :=
  if X.length ≤ 1 ∧ Y.length ≤ 1 then .error .lenError
  else (gradient Y).bind fun dy => (gradient X).bind fun dx => divide dy dx

/-! ### Lemmas -/

theorem gradientAt_eq (x : ℕ → ℝ) {n i : ℕ} (hn : 2 ≤ n) (hi : i < n) :
    gradientAt ((List.range n).map x) i =
      (x (min (i + 1) (n - 1)) - x (i - 1)) / (if i = 0 ∨ i = n - 1 then 1 else 2) := by
  have g : ∀ j, j < n → ((List.range n).map x).getD j 0 = x j := fun j hj => by
    simp [List.getD, hj]
  rw [gradientAt]
  simp only [List.length_map, List.length_range]
  by_cases h0 : i = 0
  · subst h0
    rw [if_pos rfl, if_pos (Or.inl rfl), g 1 (by omega), g 0 (by omega), div_one]
    congr 2
    omega
  · by_cases h1 : i = n - 1
    · rw [if_neg h0, if_pos h1, if_pos (Or.inr h1), g i hi, g (i - 1) (by omega), div_one]
      congr 2
      omega
    · rw [if_neg h0, if_neg h1, if_neg (by tauto), g (i + 1) (by omega), g (i - 1) (by omega)]
      congr 3
      omega

theorem derivative_eq (x y : ℕ → ℝ) {n : ℕ} (hn : 2 ≤ n) :
    derivative ((List.range n).map x) ((List.range n).map y) = .ok ((List.range n).map fun (i : ℕ) =>
      (y (min (i + 1) (n - 1)) - y (i - 1)) / (x (min (i + 1) (n - 1)) - x (i - 1))) := by
  have hl : ∀ z : ℕ → ℝ, ((List.range n).map z).length = n := fun z => by simp
  have hg : ∀ z : ℕ → ℝ, gradient ((List.range n).map z) =
      .ok ((List.range n).map fun (i : ℕ) => gradientAt ((List.range n).map z) i) := fun z => by
    rw [gradient, hl, if_neg (by omega)]
  rw [derivative, hl, hl, if_neg (by omega), hg, hg]
  simp only [Except.bind, divide, List.length_map, List.length_range, if_true, List.zipWith_map_left, List.zipWith_map_right,
    List.zipWith_self]
  congr 1
  refine List.map_congr_left fun i hi => ?_
  rw [List.mem_range] at hi
  rw [gradientAt_eq y hn hi, gradientAt_eq x hn hi]
  split
  · rw [div_one, div_one]
  · rw [div_div_div_cancel_right₀ (by norm_num)]

/-! ### Theorems -/

/-- **C139.** Values `f (x i)` tabulated at increasing points of a differentiable function: each element of the result is the
derivative of `f` at a point between the neighbours. -/
theorem C139_between {f f' : ℝ → ℝ} {x : ℕ → ℝ} {n : ℕ} (hn : 2 ≤ n) (hx : ∀ i j, i < j → j < n → x i < x j)
    (hf : ∀ t, x 0 ≤ t → t ≤ x (n - 1) → HasDerivAt f (f' t) t) :
    ∃ d, derivative ((List.range n).map x) ((List.range n).map fun (i : ℕ) => f (x i)) = .ok d ∧ d.length = n ∧
      ∀ i, i < n → ∃ t, x (i - 1) < t ∧ t < x (min (i + 1) (n - 1)) ∧ d[i]? = some (f' t) := by
  refine ⟨_, derivative_eq x (fun i => f (x i)) hn, by simp, fun i hi => ?_⟩
  have hab : x (i - 1) < x (min (i + 1) (n - 1)) := hx _ _ (by omega) (by omega)
  have hle : ∀ j k, j ≤ k → k < n → x j ≤ x k := fun j k h h' => by
    rcases h.lt_or_eq with h | rfl
    · exact (hx j k h h').le
    · exact le_rfl
  have hd : ∀ t, x (i - 1) ≤ t → t ≤ x (min (i + 1) (n - 1)) → HasDerivAt f (f' t) t := fun t h1 h2 =>
    hf t ((hle 0 _ (by omega) (by omega)).trans h1) (h2.trans (hle _ _ (by omega) (by omega)))
  obtain ⟨t, ht, he⟩ := exists_hasDerivAt_eq_slope f f' hab
    (fun t ht => (hd t ht.1 ht.2).continuousAt.continuousWithinAt) (fun t ht => hd t ht.1.le ht.2.le)
  exact ⟨t, ht.1, ht.2, by simp [hi, he]⟩

/-- **C139.** The derivative of a straight line is its slope at every point, the ends included. -/
theorem C139_line {a b : ℝ} {x : ℕ → ℝ} {n : ℕ} (hn : 2 ≤ n) (hx : ∀ i j, i < j → j < n → x i < x j) :
    derivative ((List.range n).map x) ((List.range n).map fun (i : ℕ) => a * x i + b) = .ok (List.replicate n a) := by
  rw [derivative_eq x _ hn]
  congr 1
  refine List.ext_getElem (by simp) fun i h _ => ?_
  have hi : i < n := by simpa using h
  have hab : x (i - 1) < x (min (i + 1) (n - 1)) := hx _ _ (by omega) (by omega)
  have : x (min (i + 1) (n - 1)) - x (i - 1) ≠ 0 := (sub_pos.2 hab).ne'
  simp only [List.getElem_map, List.getElem_range, List.getElem_replicate]
  rw [div_eq_iff this]
  ring

/-- **C139.** On an evenly spaced grid the derivative of a parabola is exact at every inner point; at the ends it is wrong by `a h`. -/
theorem C139_parabola {a b c x0 h : ℝ} {n : ℕ} (hn : 2 ≤ n) (hh : 0 < h) :
    ∃ d, derivative ((List.range n).map fun (i : ℕ) => x0 + i * h)
        ((List.range n).map fun (i : ℕ) => a * (x0 + i * h) ^ 2 + b * (x0 + i * h) + c) = .ok d ∧ d.length = n ∧
      (∀ i, 0 < i → i + 1 < n → d[i]? = some (2 * a * (x0 + i * h) + b)) ∧
      d[0]? = some (2 * a * x0 + b + a * h) ∧
      d[n - 1]? = some (2 * a * (x0 + (n - 1 : ℕ) * h) + b - a * h) := by
  refine ⟨_, derivative_eq (fun i => x0 + i * h) (fun i => a * (x0 + i * h) ^ 2 + b * (x0 + i * h) + c) hn, by simp,
    fun i h0 h1 => ?_, ?_, ?_⟩
  · obtain ⟨j, rfl⟩ : ∃ j, i = j + 1 := ⟨i - 1, by omega⟩
    have e : min (j + 1 + 1) (n - 1) = j + 2 := by omega
    have hlt : j + 1 < n := by omega
    simp only [List.getElem?_map, List.getElem?_range hlt, Option.map_some, e, Nat.add_sub_cancel, Option.some.injEq]
    push_cast
    have : x0 + (↑j + 2) * h - (x0 + ↑j * h) ≠ 0 := by
      have : x0 + (↑j + 2) * h - (x0 + ↑j * h) = 2 * h := by ring
      rw [this]; positivity
    rw [div_eq_iff this]
    ring
  · have e : min (0 + 1) (n - 1) = 1 := by omega
    have hlt : 0 < n := by omega
    simp only [List.getElem?_map, List.getElem?_range hlt, Option.map_some, e, Nat.zero_sub, Option.some.injEq]
    push_cast
    have : x0 + 1 * h - (x0 + 0 * h) ≠ 0 := by
      have : x0 + 1 * h - (x0 + 0 * h) = h := by ring
      rw [this]; exact hh.ne'
    rw [div_eq_iff this]
    ring
  · obtain ⟨m, rfl⟩ : ∃ m, n = m + 2 := ⟨n - 2, by omega⟩
    have e : min (m + 2 - 1 + 1) (m + 2 - 1) = m + 1 := by omega
    have e2 : m + 2 - 1 - 1 = m := by omega
    have e3 : m + 2 - 1 = m + 1 := by omega
    have hlt : m + 2 - 1 < m + 2 := by omega
    simp only [List.getElem?_map, List.getElem?_range hlt, Option.map_some, e, e2, Option.some.injEq]
    rw [e3]
    push_cast
    have : x0 + (↑m + 1) * h - (x0 + ↑m * h) ≠ 0 := by
      have : x0 + (↑m + 1) * h - (x0 + ↑m * h) = h := by ring
      rw [this]; exact hh.ne'
    rw [div_eq_iff this]
    ring

/-- **C139.** Arrays of fewer than two points, and arrays of different lengths, are refused; two arrays of the same length, two or
more, are accepted. -/
theorem C139_refused (X Y : List ℝ) :
    (∃ e, derivative X Y = .error e) ↔ X.length < 2 ∨ Y.length < 2 ∨ X.length ≠ Y.length := by
  constructor
  · rintro ⟨e, he⟩
    by_contra h
    push Not at h
    obtain ⟨h1, h2, h3⟩ := h
    rw [derivative, if_neg (by omega), gradient, if_neg (by omega), gradient, if_neg (by omega)] at he
    simp only [Except.bind, divide, List.length_map, List.length_range, h3, if_true] at he
    cases he
  · intro h
    rw [derivative]
    split
    · exact ⟨_, rfl⟩
    · next hs =>
      by_cases h2 : Y.length < 2
      · rw [gradient, if_pos h2]; exact ⟨_, rfl⟩
      · by_cases h1 : X.length < 2
        · rw [gradient, if_neg h2, gradient, if_pos h1]; exact ⟨_, rfl⟩
        · have h3 : Y.length ≠ X.length := by rcases h with h | h | h <;> [omega; omega; exact fun e => h e.symm]
          rw [gradient, if_neg h2, gradient, if_neg h1]
          simp only [Except.bind, divide, List.length_map, List.length_range, h3, if_false]
          exact ⟨_, rfl⟩

/-- **C139.** The error announced for too few points is raised exactly when both arrays have fewer than two; every other refusal
is a ValueError of numpy. -/
theorem C139_kind (X Y : List ℝ) :
    (derivative X Y = .error .lenError ↔ X.length < 2 ∧ Y.length < 2) ∧
    (derivative X Y = .error .valueError ↔ (2 ≤ X.length ∨ 2 ≤ Y.length) ∧ X.length ≠ Y.length) := by
  rw [derivative]
  split
  · next h => exact ⟨⟨fun _ => by omega, fun _ => rfl⟩, ⟨nofun, fun h' => by omega⟩⟩
  · next h =>
    by_cases hy : Y.length < 2
    · rw [gradient, if_pos hy]
      exact ⟨⟨nofun, fun h' => by omega⟩, ⟨fun _ => by omega, fun _ => rfl⟩⟩
    · by_cases hx : X.length < 2
      · rw [gradient, if_neg hy, gradient, if_pos hx]
        exact ⟨⟨nofun, fun h' => by omega⟩, ⟨fun _ => by omega, fun _ => rfl⟩⟩
      · rw [gradient, if_neg hy, gradient, if_neg hx]
        simp only [Except.bind, divide, List.length_map, List.length_range]
        by_cases he : Y.length = X.length
        · rw [if_pos he]
          exact ⟨⟨nofun, fun h' => by omega⟩, ⟨nofun, fun h' => absurd he.symm h'.2⟩⟩
        · rw [if_neg he]
          exact ⟨⟨nofun, fun h' => by omega⟩, ⟨fun _ => ⟨by omega, fun e => he e.symm⟩, fun _ => rfl⟩⟩

/-! ### Non-vacuity -/

/-- Three unevenly spaced points of the cube. -/
example : ∃ d, derivative ((List.range 3).map fun (i : ℕ) => (i : ℝ) ^ 2) ((List.range 3).map fun (i : ℕ) => ((i : ℝ) ^ 2) ^ 3) = .ok d ∧
    d.length = 3 ∧ ∀ i, i < 3 → ∃ t, (((i - 1 : ℕ) : ℝ)) ^ 2 < t ∧ t < ((min (i + 1) (3 - 1) : ℕ) : ℝ) ^ 2 ∧ d[i]? = some (3 * t ^ 2) :=
  C139_between (f := fun t => t ^ 3) (f' := fun t => 3 * t ^ 2) (x := fun i => (i : ℝ) ^ 2) (by norm_num)
    (fun i j h _ => by have : (i : ℝ) < j := by exact_mod_cast h
                       have : (0 : ℝ) ≤ i := by positivity
                       nlinarith)
    (fun t _ _ => by simpa using hasDerivAt_pow 3 t)

/-- The values of that example. -/
example : derivative [0, 1, 4] [0, 1, 64] = .ok [1, 16, 21] := by
  have := derivative_eq (fun i => (i : ℝ) ^ 2) (fun i => ((i : ℝ) ^ 2) ^ 3) (n := 3) (by norm_num)
  norm_num [List.range_succ] at this
  exact this

example : ∃ e, derivative [1] [1, 2] = .error e := (C139_refused _ _).2 (Or.inl (by simp))

end Verif.Poly.Tabulated
