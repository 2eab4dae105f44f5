/-
What the elastic properties mean, independently of the code: Hooke's law in Voigt's notation,
isotropic and orthorhombic matrices, orthonormal pairs.
-/
import Mathlib.LinearAlgebra.Matrix.PosDef
import Verif.Elastic.Model

namespace Verif.Elastic.Spec
open Verif.Elastic

/-- A second-rank tensor. -/
abbrev T2 := Fin 3 → Fin 3 → ℝ

/-- Symmetric second-rank tensor. -/
def Symm (t : T2) : Prop := ∀ i j, t i j = t j i

/-- Stress in Voigt's notation: xx, yy, zz, yz, xz, xy. -/
def voigtStress (σ : T2) : Fin 6 → ℝ := ![σ 0 0, σ 1 1, σ 2 2, σ 1 2, σ 0 2, σ 0 1]

/-- Strain in Voigt's notation, with engineering shears (twice the tensor components). -/
def voigtStrain (ε : T2) : Fin 6 → ℝ := ![ε 0 0, ε 1 1, ε 2 2, 2 * ε 1 2, 2 * ε 0 2, 2 * ε 0 1]

/-- Hooke's law: the strain `ε` is the response of a crystal of stiffness `C` to the stress `σ`. -/
def Hooke (C : M6) (ε σ : T2) : Prop :=
  Symm ε ∧ Symm σ ∧ ∀ I, voigtStress σ I = ∑ J, C I J * voigtStrain ε J

/-- Dot product. -/
def dot (a b : V3) : ℝ := ∑ i, a i * b i

/-- Component of a tensor along a pair of directions: `a · t · b`. -/
def along (t : T2) (a b : V3) : ℝ := ∑ i, ∑ j, a i * t i j * b j

/-- Unit vector. -/
def UnitVector (a : V3) : Prop := dot a a = 1

/-- Pair of orthonormal vectors. -/
def Orthonormal (a b : V3) : Prop := UnitVector a ∧ UnitVector b ∧ dot a b = 0

/-- Uniaxial tension of intensity `p` along `a`. -/
def uniaxial (p : ℝ) (a : V3) : T2 := fun i j => p * (a i * a j)

/-- Hydrostatic pressure `p` (compressive). -/
def hydrostatic (p : ℝ) : T2 := fun i j => if i = j then -p else 0

/-- Pure shear of intensity `p` on the pair of directions `a`, `b`. -/
def shear (p : ℝ) (a b : V3) : T2 := fun i j => p * (a i * b j + b i * a j)

/-- Isotropic stiffness of bulk modulus `K` and shear modulus `G`. -/
noncomputable def isotropic (K G : ℝ) : M6 :=
  Matrix.of ![![K + 4 * G / 3, K - 2 * G / 3, K - 2 * G / 3, 0, 0, 0],
    ![K - 2 * G / 3, K + 4 * G / 3, K - 2 * G / 3, 0, 0, 0],
    ![K - 2 * G / 3, K - 2 * G / 3, K + 4 * G / 3, 0, 0, 0],
    ![0, 0, 0, G, 0, 0],
    ![0, 0, 0, 0, G, 0],
    ![0, 0, 0, 0, 0, G]]

/-- Orthorhombic form: only the upper-left 3×3 block and the diagonal are non-zero, and the block
is symmetric. -/
def OrthorhombicForm (C : M6) : Prop :=
  C.IsSymm ∧ ∀ I J : Fin 6, I ≠ J → (3 ≤ I.val ∨ 3 ≤ J.val) → C I J = 0

end Verif.Elastic.Spec
