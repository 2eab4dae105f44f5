/- Proof work for polynomials. -/
import Mathlib.Analysis.Calculus.Deriv.Pow
import Mathlib.Analysis.Calculus.Deriv.Add
import Mathlib.Analysis.Calculus.Deriv.Mul
import Mathlib.Analysis.Calculus.DerivativeTest
import Mathlib.Analysis.Calculus.Deriv.MeanValue
import Verif.Poly.Model

namespace Verif.Poly

theorem foldl_add_eq {α : Type*} (l : List α) (f : α → ℝ) (a : ℝ) :
    l.foldl (fun acc j => acc + f j) a = a + (l.map f).sum := by
  induction l generalizing a with
  | nil => simp
  | cons x xs ih => simp [ih, add_assoc]

theorem foldl_finRange (n : ℕ) (f : Fin n → ℝ) :
    (List.finRange n).foldl (fun acc j => acc + f j) 0 = ∑ j, f j := by
  rw [foldl_add_eq, zero_add, Fin.sum_univ_def]

section
variable {K : Type*} [CommRing K]

@[simp] theorem polyval_nil (x : K) : polyval [] x = 0 := rfl
@[simp] theorem polyval_cons (a : K) (c : List K) (x : K) :
    polyval (a :: c) x = a + polyval c x * x := rfl

theorem polyval_eq_sum (c : List K) (x : K) :
    polyval c x = ∑ i : Fin c.length, c.get i * x ^ (i : ℕ) := by
  induction c with
  | nil => simp
  | cons a c ih =>
    rw [polyval_cons, ih]
    rw [Finset.sum_mul]
    show _ = ∑ i : Fin (c.length + 1), _
    rw [Fin.sum_univ_succ]
    simp only [List.get_cons_zero, Fin.val_zero, pow_zero, mul_one]
    congr 1
    refine Finset.sum_congr rfl fun i _ => ?_
    show c.get i * x ^ (i : ℕ) * x = c.get i * x ^ ((i : ℕ) + 1)
    ring

/-- Weighted evaluation used for the derivative: `∑ (m + i) c_i x^i`. -/
theorem polyval_zipIdx (c : List K) (m : ℕ) (x : K) :
    polyval ((c.zipIdx m).map fun p => (p.2 : K) * p.1) x =
      m * polyval c x + polyval ((c.zipIdx 0).map fun p => (p.2 : K) * p.1) x := by
  induction c generalizing m with
  | nil => simp
  | cons a c ih =>
    simp only [List.zipIdx_cons, List.map_cons, polyval_cons]
    rw [ih (m + 1), ih (0 + 1)]
    push_cast
    ring

theorem polyval_polyder_cons (a : K) (c : List K) (x : K) :
    polyval (polyder (a :: c)) x = polyval c x + polyval (polyder c) x * x := by
  have h : ∀ c : List K, polyval ((c.zipIdx 0).map fun p => (p.2 : K) * p.1) x =
      polyval (polyder c) x * x := by
    intro c
    cases c with
    | nil => simp [polyder]
    | cons b c => simp [polyder, List.zipIdx_cons]
  simp only [polyder, List.zipIdx_cons, List.map_cons, List.tail_cons]
  rw [polyval_zipIdx, h]
  simp [polyder]

theorem polyder_map {L : Type*} [CommRing L] (φ : K →+* L) (c : List K) :
    polyder (c.map φ) = (polyder c).map φ := by
  simp [polyder, List.zipIdx_map, List.map_tail, Function.comp_def]

theorem polyval_map {L : Type*} [CommRing L] (φ : K →+* L) (c : List K) (x : K) :
    polyval (c.map φ) (φ x) = φ (polyval c x) := by
  induction c with
  | nil => simp
  | cons a c ih => simp [ih]
end

theorem hasDerivAt_polyval (c : List ℝ) (x : ℝ) :
    HasDerivAt (polyval c) (polyval (polyder c) x) x := by
  induction c with
  | nil => exact hasDerivAt_const x (0:ℝ)
  | cons a c ih =>
    have h : HasDerivAt (fun t => a + polyval c t * t)
        (polyval (polyder c) x * x + polyval c x * 1) x :=
      (ih.mul (hasDerivAt_id x)).const_add a
    refine h.congr_deriv ?_
    rw [polyval_polyder_cons]; ring

theorem deriv_polyval (c : List ℝ) : deriv (polyval c) = polyval (polyder c) :=
  funext fun x => (hasDerivAt_polyval c x).deriv

theorem polyval_addConst (c : List ℝ) (a x : ℝ) :
    polyval (addConst c a) x = polyval c x + a := by
  cases c with
  | nil => simp [addConst]
  | cons b c => simp [addConst]; ring

theorem polyval_addConst_complex (c : List ℝ) (a : ℝ) (x : ℂ) :
    polyval ((addConst c a).map (fun r => (r : ℂ))) x =
      polyval (c.map (fun r => (r : ℂ))) x + a := by
  cases c with
  | nil => simp [addConst]
  | cons b c => simp [addConst]; ring

/-- A point with zero slope and positive curvature is a strict local minimum. -/
theorem strict_local_min {f : ℝ → ℝ} (hf : Differentiable ℝ f) {x : ℝ} (h1 : deriv f x = 0)
    (h2 : 0 < deriv (deriv f) x) : ∀ᶠ y in nhdsWithin x {x}ᶜ, f x < f y := by
  have hs := eventually_nhdsWithin_sign_eq_of_deriv_pos h2 h1
  obtain ⟨ε, hε, hb⟩ := Metric.eventually_nhds_iff.1 hs
  have hR : StrictMonoOn f (Set.Ico x (x + ε)) := by
    refine strictMonoOn_of_deriv_pos (convex_Ico _ _) hf.continuous.continuousOn fun y hy => ?_
    rw [interior_Ico] at hy
    have := hb (y := y) (by rw [Real.dist_eq, abs_lt]; constructor <;> linarith [hy.1, hy.2])
    rw [sign_pos (sub_pos.2 hy.1)] at this
    exact sign_eq_one_iff.1 this
  have hL : StrictAntiOn f (Set.Ioc (x - ε) x) := by
    refine strictAntiOn_of_deriv_neg (convex_Ioc _ _) hf.continuous.continuousOn fun y hy => ?_
    rw [interior_Ioc] at hy
    have := hb (y := y) (by rw [Real.dist_eq, abs_lt]; constructor <;> linarith [hy.1, hy.2])
    rw [sign_neg (sub_neg.2 hy.2)] at this
    exact sign_eq_neg_one_iff.1 this
  rw [eventually_nhdsWithin_iff]
  refine Metric.eventually_nhds_iff.2 ⟨ε, hε, fun y hy hne => ?_⟩
  rw [Real.dist_eq, abs_lt] at hy
  have hne : y ≠ x := hne
  rcases lt_or_gt_of_ne hne with h | h
  · exact hL ⟨by linarith, h.le⟩ ⟨by linarith, le_refl _⟩ h
  · exact hR ⟨le_refl _, by linarith⟩ ⟨h.le, by linarith⟩ h

end Verif.Poly
