/-
Specification of the starting values, in terms of curves through or near the data.
-/
import Mathlib.Analysis.Calculus.Deriv.Basic
import Verif.Poly.Spec
import Verif.Guess.Model

namespace Verif.Guess.Spec
open Verif.Poly.Spec

/-- The polynomial fit is a least-squares fit. -/
def Fits (polyfit : Polyfit) : Prop :=
  ∀ (n : ℕ) (X Y : Fin n → ℝ) (deg : ℕ), IsLeastSquares X Y (polyfit n X Y deg)

/-- The bulk modulus of a pressure-volume curve: `-V dP/dV`. -/
noncomputable def modulusP (P : ℝ → ℝ) (V : ℝ) : ℝ := -V * deriv P V

/-- The bulk modulus of an energy-volume curve: `V d²E/dV²`. -/
noncomputable def modulusE (E : ℝ → ℝ) (V : ℝ) : ℝ := V * deriv (deriv E) V

end Verif.Guess.Spec
