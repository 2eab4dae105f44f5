/-
What the sections of the elastic properties mean, independently of the code.
-/
import Verif.Polar.Model
import Verif.Elastic.Spec
import Verif.Seismic.Spec

noncomputable section

namespace Verif.Polar.Spec
open Verif.Py Verif.Elastic Verif.Elastic.Spec Verif.Seismic.Spec

/-- The direction at the angle `t` (radians) on a plane: on (xy) the angle is measured from x to y, on (xz)
from z to x and on (yz) from z to y. -/
def direction : Plane → ℝ → V3
  | .xy, t => ![Real.cos t, Real.sin t, 0]
  | .xz, t => ![Real.sin t, 0, Real.cos t]
  | .yz, t => ![0, Real.sin t, Real.cos t]

/-- The angle in degrees of the node `i` of `n` nodes, equally spaced over the closed circle. -/
def angle (n i : ℕ) : ℝ := 360 * i / (n - 1)

/-- `E` is Young's modulus along `a`: the inverse of the elongation under a unit tension. -/
def IsYoung (C : M6) (a : V3) (E : ℝ) : Prop :=
  ∃ ε, Hooke C ε (uniaxial 1 a) ∧ E * along ε a a = 1

/-- `β` is the linear compressibility along `a`: the shortening under a unit pressure. -/
def IsCompressibility (C : M6) (a : V3) (β : ℝ) : Prop :=
  ∃ ε, Hooke C ε (hydrostatic 1) ∧ β = -along ε a a

/-- `G` is the shear modulus for the directions `a` and `b`. -/
def IsShear (C : M6) (a b : V3) (G : ℝ) : Prop :=
  ∃ ε, Hooke C ε (shear 1 a b) ∧ G * (2 * along ε a b) = 1

/-- `ν` is Poisson's ratio: the contraction along `b` over the elongation along `a` under a tension along
`a`. -/
def IsPoisson (C : M6) (a b : V3) (ν : ℝ) : Prop :=
  ∃ ε, Hooke C ε (uniaxial 1 a) ∧ ν * along ε a a = -along ε b b

/-- The value belongs to some direction orthogonal to `a`. -/
def Attained (a : V3) (P : V3 → ℝ → Prop) (x : ℝ) : Prop := ∃ b, Orthonormal a b ∧ P b x

/-- The values listed for a quantity along the direction `a`, for a solid with stiffness `C` (GPa) and the
density (kg m^-3).
* Young's modulus;
* the positive and the negative part of the linear compressibility (TPa^-1);
* a smaller and a larger shear modulus, each attained by some orthogonal direction;
* the negative and the positive part of a smaller Poisson's ratio, and a larger one, both attained;
* the three phase velocities (km/s), in ascending order. -/
def Listed (C : M6) (density : ℝ) (a : V3) : Var → List ℝ → Prop
  | .E, l => ∃ E, l = [E] ∧ IsYoung C a E
  | .LC, l => ∃ p q β, l = [p, q] ∧ IsCompressibility C a β ∧ 0 ≤ p ∧ 0 ≤ q ∧ (p = 0 ∨ q = 0) ∧
      p - q = 1000 * β
  | .G, l => ∃ lo hi, l = [lo, hi] ∧ lo ≤ hi ∧ Attained a (IsShear C a) lo ∧ Attained a (IsShear C a) hi
  | .Nu, l => ∃ n p lo hi, l = [n, p, hi] ∧ n ≤ 0 ∧ 0 ≤ p ∧ (n = 0 ∨ p = 0) ∧ n + p = lo ∧ lo ≤ hi ∧
      Attained a (IsPoisson C a) lo ∧ Attained a (IsPoisson C a) hi
  | .waves, l => ∃ V, PhaseVelocities C density a V ∧ l = [V 0, V 1, V 2]

/-- What a descent method delivers: a value of the function that is not above the value at the start. -/
def Descends (powell : Powell) : Prop :=
  ∀ f x, (powell f x).value = f (powell f x).point ∧ (powell f x).value ≤ f x

/-- The quantities that have a section: the velocities need the density. -/
def available (density : ℝ) (v : Var) : Prop := v = .waves → 0 < density

end Verif.Polar.Spec
