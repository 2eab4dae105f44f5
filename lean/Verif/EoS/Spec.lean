/- Thermodynamic meaning of the equation-of-state parameters. -/
import Mathlib.Analysis.Calculus.Deriv.Basic
import Verif.EoS.Model

namespace Verif.EoS.Spec

/-- Isothermal bulk modulus of a curve `P(V)`: `K = -V dP/dV`. -/
noncomputable def bulk (P : ℝ → ℝ) (V : ℝ) : ℝ := -V * deriv P V

/-- Pressure derivative along the curve: `dX/dP = (dX/dV) / (dP/dV)`. -/
noncomputable def dP (P X : ℝ → ℝ) (V : ℝ) : ℝ := deriv X V / deriv P V

/-- `K' = dK/dP`. -/
noncomputable def bulkPrime (P : ℝ → ℝ) : ℝ → ℝ := dP P (bulk P)

/-- `K'' = d2K/dP2`. -/
noncomputable def bulkSecond (P : ℝ → ℝ) : ℝ → ℝ := dP P (bulkPrime P)

/-- Parameter sets for which no denominator of the closed formula vanishes. -/
def Regular : Formulation → Pars → Prop
  | .murnaghan, q => q.Kp ≠ 0
  | .tait, q => 1 + q.Kp ≠ 0 ∧ 1 + q.Kp + q.K0 * q.Kpp ≠ 0 ∧ q.Kp ^ 2 + q.Kp - q.K0 * q.Kpp ≠ 0
  | _, _ => True

/-- Parameter sets for which a formulation describes a solid that stiffens under compression at
every volume: each coefficient of the strain expansion is non-negative. -/
def Stiffening : Formulation → Pars → Prop
  | .murnaghan, q => 0 < q.Kp
  | .birchMurnaghan, q => 4 ≤ q.Kp ∧ 0 ≤ q.K0 * q.Kpp + (q.Kp - 4) * (q.Kp - 3) + 35 / 9
  | .naturalStrain, q => 2 ≤ q.Kp ∧ 0 ≤ 1 + q.Kpp * q.K0 + (q.Kp - 2) + (q.Kp - 2) ^ 2
  | .vinet, q => 1 ≤ q.Kp
  | .tait, q => 0 < q.Kp ∧ q.Kpp ≤ 0 ∧ 0 < 1 + q.Kp + q.K0 * q.Kpp

/-- `K'` of a second-order fit in the literature: the value for which the strain expansion of the
formulation stops after its first term, and three times that value for a linear modulus. -/
noncomputable def secondOrderKp : Formulation → Bool → ℝ → ℝ
  | .murnaghan, _, Kp => Kp
  | .birchMurnaghan, linear, _ => if linear then 3 * 4 else 4
  | .naturalStrain, linear, _ => if linear then 3 * 2 else 2
  | .vinet, linear, _ => if linear then 3 * 1 else 1
  | .tait, linear, _ => if linear then 3 * 4 else 4

/-- Domain of the E(V) formulas (denominators `K'` and `K' - 1`). -/
def ERegular : EForm → ℝ → Prop
  | .murnaghan, Kp => Kp ≠ 0 ∧ Kp ≠ 1
  | .vinet, Kp => Kp ≠ 1
  | _, _ => True

end Verif.EoS.Spec
