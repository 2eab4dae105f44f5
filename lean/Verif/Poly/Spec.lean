/-
Specification for the polynomial helpers.
-/
import Verif.Poly.Model

namespace Verif.Poly.Spec

/-- A correct root finder: for a list of coefficients that are not all zero it lists exactly the
complex zeros; for the zero polynomial it lists nothing (numpy's behaviour). -/
structure RootFinder (roots : List ℝ → List ℂ) : Prop where
  zeros : ∀ c : List ℝ, (∃ a ∈ c, a ≠ 0) → ∀ z : ℂ,
    z ∈ roots c ↔ ∑ i : Fin c.length, ((c.get i : ℝ) : ℂ) * z ^ (i : ℕ) = 0
  none : ∀ c : List ℝ, (∀ a ∈ c, a = 0) → roots c = []

/-- Value at `x` of the polynomial with coefficients `c 0, c 1, ...`. -/
def value {n : ℕ} (c : Fin n → ℝ) (x : ℝ) : ℝ := ∑ j, c j * x ^ (j : ℕ)

/-- Sum of squared residuals of a fit. -/
def ssres {nx nc : ℕ} (X Y : Fin nx → ℝ) (c : Fin nc → ℝ) : ℝ := ∑ k, (Y k - value c (X k)) ^ 2

/-- Mean of the data. -/
noncomputable def mean {nx : ℕ} (Y : Fin nx → ℝ) : ℝ := (∑ k, Y k) / nx

/-- Total sum of squares of the data. -/
noncomputable def sstot {nx : ℕ} (Y : Fin nx → ℝ) : ℝ := ∑ k, (Y k - mean Y) ^ 2

/-- `c` is a least-squares fit of degree below `nc`. -/
def IsLeastSquares {nx nc : ℕ} (X Y : Fin nx → ℝ) (c : Fin nc → ℝ) : Prop :=
  ∀ c' : Fin nc → ℝ, ssres X Y c ≤ ssres X Y c'

end Verif.Poly.Spec
