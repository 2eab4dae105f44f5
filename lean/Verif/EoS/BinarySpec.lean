/-
What a user expects of the equations of state in the arithmetic of the computer.
-/
import Verif.EoS.BinaryModel
import Verif.Elastic.BinarySpec

noncomputable section

namespace Verif.EoS.Rounded.Spec
open Verif.EoS
open Verif.Elastic.Rounded.Spec (u)

/-- Operations are rounded to 53 binary digits, the functions of the library are off by at most one unit in the last place. -/
structure Accurate (m : Machine) : Prop where
  rnd : ∀ x, |m.rnd x - x| ≤ u * |x|
  pow : ∀ x y, 0 < x → |m.pow x y - x ^ y| ≤ 2 * u * x ^ y
  npow : ∀ x n, |m.npow x n - x ^ n| ≤ 2 * u * |x ^ n|
  log : ∀ x, 0 < x → |m.log x - Real.log x| ≤ 2 * u * |Real.log x|
  exp : ∀ x, |m.exp x - Real.exp x| ≤ 2 * u * Real.exp x

/-- Parameters and volume of a solid under study: between two thirds and three halves of the reference volume, with a pressure
derivative of the bulk modulus between 1 and 12 (12 is the value of a linearised fit). -/
structure Solid (p : Pars) (V : ℝ) : Prop where
  posK : 0 < p.K0
  posV0 : 0 < p.V0
  posV : 0 < V
  compressed : 2 / 3 * p.V0 ≤ V
  expanded : V ≤ 3 / 2 * p.V0
  Kp : 1 ≤ p.Kp ∧ p.Kp ≤ 12

/-- The second pressure derivative is of a sensible size; the modified Tait equation needs it between `-K'/K0` and 0, and the
equations of Murnaghan and Vinet do not use it. -/
def Curvature (f : Formulation) (p : Pars) : Prop :=
  match f with
  | .tait => -p.Kp ≤ p.K0 * p.Kpp ∧ p.K0 * p.Kpp ≤ 0
  | .birchMurnaghan | .naturalStrain => |p.K0 * p.Kpp| ≤ 120
  | .murnaghan | .vinet => True

/-- The arithmetic of IEEE 754 leaves 1 alone, and every power of 1 is 1. -/
structure KeepsOne (m : Machine) : Prop where
  rnd : m.rnd 1 = 1
  pow : ∀ y, m.pow 1 y = 1

/-- Rounding and powers keep the order of numbers. -/
structure Ordered (m : Machine) : Prop where
  rnd : Monotone m.rnd
  pow : ∀ x y z, 0 < x → x ≤ y → 0 ≤ z → m.pow x z ≤ m.pow y z

/-- The accuracy of the pressure, in parts of the bulk modulus. -/
def tolerance : Formulation → ℝ
  | .tait => 1e-10
  | _ => 1e-12

end Verif.EoS.Rounded.Spec
