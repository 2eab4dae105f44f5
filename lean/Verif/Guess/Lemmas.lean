/- Lemmas for the starting values. -/
import Verif.Poly.LeastSquares
import Verif.Guess.Spec

namespace Verif.Guess
open Verif.Py Verif.Poly Verif.Poly.Spec Verif.Guess.Spec

variable {nx nc : ℕ}

theorem polyval_ofFn (c : Fin nc → ℝ) (x : ℝ) : polyval (List.ofFn c) x = value c x := by
  rw [Poly.polyval_eq_sum]; exact (Poly.C21_ranks.sum_ofFn c x).symm

/-- Data on a polynomial of the family give back its coefficients. -/
theorem fit_exact {X Y : Fin nx → ℝ} (hX : Function.Injective X) (hn : nc ≤ nx)
    {c d : Fin nc → ℝ} (hc : IsLeastSquares X Y c) (hd : ∀ k, Y k = value d (X k)) : c = d :=
  value_injective hX hn fun k => (leastSquares_exact hc hd k).trans (hd k)

/-- A least-squares polynomial is determined by the data. -/
theorem fit_unique {X Y : Fin nx → ℝ} (hX : Function.Injective X) (hn : nc ≤ nx)
    {c d : Fin nc → ℝ} (hc : IsLeastSquares X Y c) (hd : IsLeastSquares X Y d) : c = d := by
  have h := leastSquares_linear (t := 0) hX hn hc hd (e := d) (by simpa using hd)
  funext j
  have := congrFun h j
  simpa using this.symm

/-- Reordering the data does not change the residual. -/
theorem ssres_perm (σ : Equiv.Perm (Fin nx)) (X Y : Fin nx → ℝ) (c : Fin nc → ℝ) :
    ssres (X ∘ σ) (Y ∘ σ) c = ssres X Y c :=
  Equiv.sum_comp σ fun k => (Y k - value c (X k)) ^ 2

theorem leastSquares_perm (σ : Equiv.Perm (Fin nx)) {X Y : Fin nx → ℝ} {c : Fin nc → ℝ}
    (h : IsLeastSquares (X ∘ σ) (Y ∘ σ) c) : IsLeastSquares X Y c := fun c' => by
  rw [← ssres_perm σ, ← ssres_perm σ X Y c']
  exact h c'

/-- Changing the units of the data changes the coefficients accordingly. -/
theorem value_scale (c : Fin nc → ℝ) {s : ℝ} (hs : s ≠ 0) (t x : ℝ) :
    value (fun j => t * c j / s ^ (j : ℕ)) (s * x) = t * value c x := by
  simp only [value, Finset.mul_sum]
  refine Finset.sum_congr rfl fun j _ => ?_
  rw [mul_pow]
  have : s ^ (j : ℕ) ≠ 0 := pow_ne_zero _ hs
  field_simp

theorem ssres_scale (X Y : Fin nx → ℝ) (c : Fin nc → ℝ) {s : ℝ} (hs : s ≠ 0) (t : ℝ) :
    ssres (fun k => s * X k) (fun k => t * Y k) (fun j => t * c j / s ^ (j : ℕ)) =
      t ^ 2 * ssres X Y c := by
  simp only [ssres, Finset.mul_sum]
  refine Finset.sum_congr rfl fun k _ => ?_
  rw [value_scale c hs]; ring

theorem leastSquares_scale {X Y : Fin nx → ℝ} {c : Fin nc → ℝ} {s t : ℝ} (hs : s ≠ 0) (ht : t ≠ 0)
    (h : IsLeastSquares X Y c) :
    IsLeastSquares (fun k => s * X k) (fun k => t * Y k) (fun j => t * c j / s ^ (j : ℕ)) := by
  intro c'
  have e : c' = fun j => t * ((fun j => c' j * s ^ (j : ℕ) / t) j) / s ^ (j : ℕ) := by
    funext j
    have : s ^ (j : ℕ) ≠ 0 := pow_ne_zero _ hs
    field_simp
  rw [e, ssres_scale _ _ _ hs, ssres_scale _ _ _ hs]
  exact mul_le_mul_of_nonneg_left (h _) (sq_nonneg _)

theorem differentiable_polyval (c : List ℝ) : Differentiable ℝ (polyval c) :=
  fun x => (hasDerivAt_polyval c x).differentiableAt

/-! ### the root of least modulus -/

theorem smallest_mem {zs : List ℂ} {z : ℂ} (h : smallest zs = .ok z) :
    z ∈ zs ∧ ∀ w ∈ zs, Complex.normSq z ≤ Complex.normSq w := by
  cases zs with
  | nil => cases h
  | cons a l =>
    simp only [smallest, Except.ok.injEq] at h
    subst h
    have key : ∀ (l : List ℂ) (a : ℂ),
        let r := l.foldl (fun best w => if Complex.normSq w < Complex.normSq best then w else best) a
        r ∈ a :: l ∧ ∀ w ∈ a :: l, Complex.normSq r ≤ Complex.normSq w := by
      intro l
      induction l with
      | nil => intro a; simp
      | cons b l ih =>
        intro a
        simp only [List.foldl_cons]
        by_cases hb : Complex.normSq b < Complex.normSq a
        · rw [if_pos hb]
          obtain ⟨h1, h2⟩ := ih b
          refine ⟨List.mem_cons_of_mem _ h1, ?_⟩
          intro w hw
          rcases List.mem_cons.1 hw with rfl | hw
          · exact le_trans (h2 b (by simp)) hb.le
          · exact h2 w hw
        · rw [if_neg hb]
          obtain ⟨h1, h2⟩ := ih a
          refine ⟨?_, ?_⟩
          · rcases List.mem_cons.1 h1 with h | h
            · rw [h]; simp
            · simp [h]
          · intro w hw
            rcases List.mem_cons.1 hw with rfl | hw
            · exact h2 _ (by simp)
            · rcases List.mem_cons.1 hw with rfl | hw
              · exact le_trans (h2 a (by simp)) (not_lt.1 hb)
              · exact h2 w (by simp [hw])
    exact key l a

theorem smallest_ok {zs : List ℂ} (h : zs ≠ []) : ∃ z, smallest zs = .ok z := by
  cases zs with
  | nil => exact absurd rfl h
  | cons a l => exact ⟨_, rfl⟩

end Verif.Guess
